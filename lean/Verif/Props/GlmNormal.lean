import Verif.Props.GlmNewton

/-!
# C89: `MLPPLinReg.normal_equation`

The weights solve the normal equations *without* a column of ones, the bias is the mean of the outputs minus the weights times the means of
the columns. The result is the best linear function only if the columns have mean zero, or the best bias is zero.
-/

namespace Verif
open Spec Finset Glm
variable {n k m : Nat} {h : Heap ℝ} {s : Glm} {X : Matrix (Fin n) (Fin k) ℝ} {y : Fin n → ℝ} {θ : Params k}

theorem sum_map_range (f : Nat → ℝ) (m : Nat) : ((List.range m).map f).sum = ∑ i : Fin m, f i := by
  rw [← Finset.sum_range]
  induction m with
  | zero => rfl
  | succ m ih => rw [List.range_succ, List.map_append, List.sum_append, Finset.sum_range_succ, ih]; simp

theorem Hd.meanv_run {h : Heap ℝ} (w : h.WF) {r : Ref} {v : Fin m → ℝ} (hv : HasV h r v) :
    Stat.meanv r.vec h = .ok ((∑ i, v i) / m, h) := by
  obtain ⟨a, rfl, l, q⟩ := hv
  show Stat.meanv (some a) h = _
  rw [Stat.meanv_run w a]
  obtain ⟨f, ef, c⟩ := q.cells w
  rw [c.2]
  unfold mean
  congr 2
  simp only [SortArray.tab, List.length_map, List.length_range, ef]
  rw [sum_map_range]

/-- `rowMeans` returns the means of the rows. -/
theorem rowMeans_spec {h : Heap ℝ} (w : h.WF) {t : Ref} {A : Matrix (Fin m) (Fin n) ℝ} (ht : HasM h t A) :
    ReturnsVec (LinReg.rowMeans t) h fun i => (∑ j, A i j) / n := by
  refine .of_has ?_
  unfold LinReg.rowMeans
  refine Runs.step (Hd.sizem_run ht) ?_
  refine stepNewV w fun o1 h1 v1 w1 k1 f1 a1 => ?_
  have ht1 := adv_hasm k1 ht
  refine stepNewV w1 fun o2 h2 v2 w2 k2 f2 a2 => ?_
  have ht2 := adv_hasm k2 ht1
  have a12 := adv_hasv k2 a1
  have ne : some (Loc.v o1) ≠ some (Loc.v o2) := (f2.ne a1).symm
  let I : Nat → Heap ℝ → Prop := fun i h' => h'.WF ∧ Keeps h2 h' (fun l => some l = some (.v o1) ∨ some l = some (.v o2)) ∧
    (∃ v : Fin n → ℝ, HasV h' (some (.v o1)) v) ∧ ∃ u : Fin m → ℝ, HasV h' (some (.v o2)) u ∧ ∀ j : Fin m, (j : Nat) < i → u j = (∑ l, A j l) / n
  refine Runs.bind ((Runs.forN m I _ h2 ⟨w2, Keeps.refl _ _, ⟨v1, a12⟩, v2, a2, fun j hj => absurd hj (Nat.not_lt_zero _)⟩ ?_).mono ?_)
  · rintro i h3 hi ⟨w3, k3, ⟨v, hv⟩, u, hu, eu⟩
    have ht3 : HasM h3 t A := ht2.keep k3 fun l e => by obtain ⟨x, rfl, -, -⟩ := ht; cases e; simp
    refine Runs.bind ((Hd.row_get_into_run w3 ht3 hv ⟨i, hi⟩).mono fun _ h4 ⟨w4, k4, a4⟩ => ?_)
    have hm := Hd.meanv_run w4 a4
    refine Runs.step (show Stat.meanv (some o1) h4 = _ from hm) ?_
    have hu4 := hu.off k4 ne.symm
    refine (Hd.element_set_run w4 hu4 ⟨i, hi⟩ _).mono fun _ h5 ⟨w5, k5, a5⟩ => ⟨w5, ?_, ?_, _, a5, fun j hj => ?_⟩
    · exact (k3.trans (k4.mono fun _ _ e => .inl e)).trans (k5.mono fun _ _ e => .inr e)
    · exact ⟨_, a4.off k5 ne⟩
    · by_cases c : j = ⟨i, hi⟩
      · subst c; simp
      · rw [Function.update_of_ne c]
        exact eu j (by have : (j : Nat) ≠ i := fun q => c (Fin.ext q); omega)
  · rintro _ h3 ⟨w3, k3, -, u, hu, eu⟩
    refine Runs.of_eq rfl ⟨w3, ?_, ?_, ?_⟩
    · refine (k1.trans k2).trans_new k3 fun l e hl => ?_
      rcases e with e | e
      · exact f1 l e.symm hl
      · exact f2 l e.symm (k1.live hl)
    · exact f2.mono k1
    · have : u = fun i => (∑ j, A i j) / (n : ℝ) := funext fun j => eu j j.isLt
      rwa [this] at hu

/-- What `normal_equation` adds to the diagonal. -/
noncomputable def ridgeOf (s : Glm) : ℝ := match s.reg with | .ridge => s.lambda | _ => 0

theorem ridged_spec (w : h.WF) (hk : s.k = k) {b : Ref} {B : Matrix (Fin k) (Fin k) ℝ} (hb : HasM h b B) :
    Runs (LinReg.ridged s b) h fun r h' => h'.WF ∧ Keeps h h' (fun _ => False) ∧ HasM h' r (B + ridgeOf s • 1) := by
  unfold LinReg.ridged ridgeOf
  cases s.reg with
  | ridge =>
    dsimp only
    rw [hk]
    refine stepM (Mat.identity_mat_spec w k) fun i h1 w1 k1 f1 a1 => ?_
    adv k1
    refine stepM (Hd.scalar_multiplynm_spec w1 a1 s.lambda) fun i2 h2 w2 k2 f2 a2 => ?_
    adv k2
    refine (Hd.addnm_spec w2 hb a2).has.mono fun r h3 ⟨w3, k3, f3, a3⟩ => ⟨w3, k1.trans k3, ?_⟩
    convert a3 using 2
    ext i j; simp [mul_comm]
  | _ => exact Runs.of_eq rfl ⟨w, Keeps.refl _ _, by simpa using hb⟩

/-- The weights of `normal_equation`. -/
noncomputable def normalW (X : Matrix (Fin n) (Fin k) ℝ) (y : Fin n → ℝ) (r : ℝ) : Fin k → ℝ :=
  (X.transpose * X + r • 1)⁻¹.mulVec (X.transpose.mulVec y)

theorem normalW_solves {r : ℝ} (hX : (X.transpose * X + r • 1).det ≠ 0) (y : Fin n → ℝ) : NormalEq X y r (normalW X y r) := by
  have h1 : (X.transpose * X + r • 1).mulVec (normalW X y r) = X.transpose.mulVec y := by
    unfold normalW
    rw [Matrix.mulVec_mulVec, Matrix.mul_nonsing_inv _ (IsUnit.mk0 _ hX), Matrix.one_mulVec]
  intro j
  have h2 := congrFun h1 j
  rw [Matrix.add_mulVec, ← Matrix.mulVec_mulVec, Matrix.smul_mulVec, Matrix.one_mulVec] at h2
  simpa only [Matrix.mulVec, dotProduct, Matrix.transpose_apply, Pi.add_apply, Pi.smul_apply, smul_eq_mul] using h2

theorem normal_run (R : Ready s h X y θ) (hi : s.initialized = true) (hk : 2 ≤ k) :
    Runs (LinReg.normal_equation s) h fun s' h' => Trained id s h s' h' X y
      (normalW X y (ridgeOf s), (∑ i, y i) / n - ∑ j, normalW X y (ridgeOf s) j * ((∑ i, X i j) / n)) := by
  unfold LinReg.normal_equation
  rw [if_pos hi]
  refine stepM (Hd.transposen_spec R.wf R.input) fun t h1 w1 k1 f1 a1 => ?_
  have R1 := R.keep w1 k1
  refine stepV (rowMeans_spec w1 a1) fun mu h2 w2 k2 f2 a2 => ?_
  have R2 := R1.keep w2 k2
  have K2 := k1.trans k2
  adv k2
  refine stepM (Hd.multn_spec w2 a1 R2.input) fun a h3 w3 k3 f3 a3 => ?_
  have R3 := R2.keep w3 k3
  have K3 := K2.trans k3
  adv k3
  refine stepM (Hd.inverse_spec w3 hk a3) fun ai h4 w4 k4 f4 a4 => ?_
  have R4 := R3.keep w4 k4
  have K4 := K3.trans k4
  adv k4
  refine stepV (Hd.mult_vec_spec w4 a1 R4.output) fun c h5 w5 k5 f5 a5 => ?_
  have R5 := R4.keep w5 k5
  have K5 := K4.trans k5
  adv k5
  refine stepV (Hd.mult_vec_spec w5 a4 a5) fun c h6 w6 k6 f6 a6 => ?_
  have R6 := R5.keep w6 k6
  have K6 := K5.trans k6
  adv k6
  refine Runs.step (Hd.element_get_run w6 a6 ⟨0, by omega⟩) ?_
  refine stepM (Hd.transposen_spec w6 R6.input) fun t2 h7 w7 k7 f7 a7 => ?_
  have R7 := R6.keep w7 k7
  have K7 := K6.trans k7
  adv k7
  refine stepM (Hd.multn_spec w7 a7 R7.input) fun b h8 w8 k8 f8 a8 => ?_
  have R8 := R7.keep w8 k8
  have K8 := K7.trans k8
  adv k8
  refine Runs.bind ((ridged_spec w8 R.cols a8).mono fun b2 h9 ⟨w9, k9, a9⟩ => ?_)
  have R9 := R8.keep w9 k9
  have K9 := K8.trans k9
  adv k9
  refine stepM (Hd.inverse_spec w9 hk a9) fun bi h10 w10 k10 f10 a10 => ?_
  have R10 := R9.keep w10 k10
  have K10 := K9.trans k10
  adv k10
  refine stepM (Hd.transposen_spec w10 R10.input) fun t3 h11 w11 k11 f11 a11 => ?_
  have R11 := R10.keep w11 k11
  have K11 := K10.trans k11
  adv k11
  refine stepV (Hd.mult_vec_spec w11 a11 R11.output) fun c2 h12 w12 k12 f12 a12 => ?_
  have R12 := R11.keep w12 k12
  have K12 := K11.trans k12
  adv k12
  refine stepV (Hd.mult_vec_spec w12 a10 a12) fun W h13 w13 k13 f13 a13 => ?_
  have F13 := f13.mono K12
  have N13 := (f13.ne R12.output).symm
  have R13 := R12.keep w13 k13
  have K13 := K12.trans k13
  adv k13
  refine Runs.step (Hd.meanv_run w13 R13.output) ?_
  refine Runs.step (Hd.dot_run w13 a13 a2) ?_
  obtain ⟨B, eB⟩ : ∃ B, B = (∑ i, y i) / (n : ℝ) - ∑ j, normalW X y (ridgeOf s) j * ((∑ i, X i j) / n) := ⟨_, rfl⟩
  have RW : Ready { s with weights := W, bias := B } h13 X y (normalW X y (ridgeOf s), B) :=
    ⟨w13, R.rows, R.cols, R13.input, R13.output, a13, rfl, N13⟩
  have MW : Moves s h { s with weights := W, bias := B } h13 :=
    ⟨⟨rfl, rfl, rfl, rfl, rfl, rfl, rfl, rfl⟩, K13.mono fun _ _ => nofun, .inr F13⟩
  rw [eB] at RW MW
  refine (forward_inv linReg_computes RW MW).mono fun s7 h7 I => I.trained

/-- C89 (part): the weights solve the normal equations, with `lambda` on the diagonal for the ridge regularisation; the bias is the mean of the
outputs minus the prediction at the mean of the inputs. For data with at least two columns and matrices that have an inverse. -/
theorem C89_normal_equation_partial (R : Ready s h X y θ) (hi : s.initialized = true) (hk : 2 ≤ k)
    (_hX : (X.transpose * X).det ≠ 0) (hr : (X.transpose * X + ridgeOf s • 1).det ≠ 0) :
    Runs (LinReg.normal_equation s) h fun s' h' => ∃ θ', Trained id s h s' h' X y θ' ∧ NormalEq X y (ridgeOf s) θ'.1 ∧
      θ'.2 = (∑ i, y i) / n - ∑ j, θ'.1 j * ((∑ i, X i j) / n) :=
  (normal_run R hi hk).mono fun _ _ T => ⟨_, T, normalW_solves hr y, rfl⟩

theorem ridgeOf_none (hr : s.reg ≠ .ridge) : ridgeOf s = 0 := by
  unfold ridgeOf; split
  · contradiction
  · rfl

/-- C89 (part): if every column has mean zero and the regularisation is not ridge, the result is the best linear function. -/
theorem C89_centred_partial (R : Ready s h X y θ) (hi : s.initialized = true) (hk : 2 ≤ k) (hn : 0 < n) (hr : s.reg ≠ .ridge)
    (hX : (X.transpose * X).det ≠ 0) (hc : ∀ j, ∑ i, X i j = 0) :
    Runs (LinReg.normal_equation s) h fun s' h' => ∃ θ', Trained id s h s' h' X y θ' ∧ ∀ θs, sqLoss id X y θ' ≤ sqLoss id X y θs := by
  have hn' : (n : ℝ) ≠ 0 := by exact_mod_cast hn.ne'
  refine (C89_normal_equation_partial R hi hk hX (by rw [ridgeOf_none hr]; simpa using hX)).mono fun _ _ ⟨θ', T, hw, hb⟩ => ⟨θ', T, fun θs => ?_⟩
  rw [ridgeOf_none hr] at hw
  refine sq_min (fun j => ?_) ?_
  · have := hw j
    simp only [linear, mul_sub, mul_add, Finset.sum_sub_distrib, Finset.sum_add_distrib, ← Finset.sum_mul, hc]
    linarith
  · have h1 : ∑ i, (linear X θ' i - y i) = 0 := by
      simp only [linear, Finset.sum_sub_distrib, Finset.sum_add_distrib]
      rw [Finset.sum_comm]
      simp only [← Finset.sum_mul, hc, zero_mul, Finset.sum_const_zero, hb, zero_div, mul_zero, sub_zero]
      simp
      field_simp
      ring
    rw [h1, zero_mul]

/-- C89 (part): outputs that are a linear function of the inputs without intercept are recovered exactly. -/
theorem C89_exact_partial (R : Ready s h X y θ) (hi : s.initialized = true) (hk : 2 ≤ k) (hr : s.reg ≠ .ridge)
    (hX : (X.transpose * X).det ≠ 0) {w0 : Fin k → ℝ} (hy : ∀ i, y i = ∑ j, X i j * w0 j) :
    Runs (LinReg.normal_equation s) h fun s' h' => Trained id s h s' h' X y (w0, 0) := by
  have e0 : y = X.mulVec w0 := funext fun i => by rw [hy]; rfl
  have e1 : normalW X y (ridgeOf s) = w0 := by
    unfold normalW
    rw [ridgeOf_none hr, zero_smul, add_zero, e0, Matrix.mulVec_mulVec, Matrix.mulVec_mulVec, Matrix.mul_assoc, Matrix.nonsing_inv_mul _ (IsUnit.mk0 _ hX),
      Matrix.one_mulVec]
  refine (normal_run R hi hk).mono fun _ _ T => ?_
  have e2 : (∑ i, y i) / (n : ℝ) - ∑ j, w0 j * ((∑ i, X i j) / n) = 0 := by
    simp only [hy, Finset.sum_comm (s := univ (α := Fin n)), Finset.sum_div, Finset.mul_sum, ← Finset.sum_sub_distrib]
    refine Finset.sum_eq_zero fun j _ => Finset.sum_eq_zero fun i _ => by ring
  rw [e1, e2] at T
  exact T

/-- C89 does not hold for data with an intercept: for the inputs `(1, 0), (0, 1), (1, 1)` and the constant output 1, which the weights 0 and
the bias 1 predict exactly, the result predicts 7/9 for the first sample. -/
theorem C89_intercept_fails {X : Matrix (Fin 3) (Fin 2) ℝ} {y : Fin 3 → ℝ} {θ : Params 2} (eX : X = !![1, 0; 0, 1; 1, 1])
    (ey : y = fun _ => 1) (R : Ready s h X y θ) (hi : s.initialized = true) (hr : s.reg ≠ .ridge) :
    sqLoss id X y (0, 1) = 0 ∧
    Runs (LinReg.normal_equation s) h fun s' h' => ∃ θ', Trained id s h s' h' X y θ' ∧ linear X θ' 0 = 7 / 9 ∧ 0 < sqLoss id X y θ' := by
  refine ⟨by rw [ey]; simp [sqLoss, halfMse, linear], ?_⟩
  have hX : (X.transpose * X).det ≠ 0 := by
    rw [eX]; simp [Matrix.det_fin_two, Matrix.mul_apply, Fin.sum_univ_succ]; norm_num
  refine (C89_normal_equation_partial R hi (by norm_num) hX (by rw [ridgeOf_none hr]; simpa using hX)).mono fun _ _ ⟨θ', T, hw, hb⟩ => ⟨θ', T, ?_⟩
  rw [ridgeOf_none hr] at hw
  have h0 := hw 0
  have h1 := hw 1
  subst eX ey
  simp [Fin.sum_univ_succ] at h0 h1 hb
  have a : θ'.1 0 = 2 / 3 := by linarith
  have b : θ'.1 1 = 2 / 3 := by linarith
  rw [a, b] at hb
  have l0 : linear (!![1, 0; 0, 1; 1, 1] : Matrix (Fin 3) (Fin 2) ℝ) θ' 0 = 7 / 9 := by
    simp [linear, Fin.sum_univ_succ, a, hb]; norm_num
  refine ⟨l0, ?_⟩
  rw [sqLoss_eq]
  refine div_pos (Finset.sum_pos' (fun i _ => by positivity) ⟨0, mem_univ _, ?_⟩) (by norm_num)
  rw [l0]; norm_num

/-- The hypotheses are met. -/
example : Ready (exGlm .none) glmHeap exX exY exθ ∧ (exGlm .none).initialized = true ∧ (exX.transpose * exX).det ≠ 0 ∧
    (exX.transpose * exX + ridgeOf (exGlm .none) • 1).det ≠ 0 := by
  have : (exX.transpose * exX).det ≠ 0 := by
    simp [exX, Matrix.det_fin_two, Matrix.mul_apply, Fin.sum_univ_succ]; norm_num
  exact ⟨exReady _, rfl, this, by simpa [ridgeOf, exGlm] using this⟩

end Verif
