import Verif.Props.NumHessian
import Verif.Props.TensorMore
import Verif.Lemmas.Rows

/-! # C81: approximations in several variables, second derivative test -/

namespace Verif
open NumAnalysis Spec Set
variable {n : Nat}

theorem Vec.subn_spec {h : Heap ℝ} (w : h.WF) {a b : Nat} {u v : Fin n → ℝ} (hu : IsVec h a u) (hv : IsVec h b v) (la : h.live (.v a))
    (lb : h.live (.v b)) : ReturnsVec (Vec.subn a (some b)) h (u - v) := by
  obtain ⟨f, ef, cu⟩ := hu.cells w
  obtain ⟨g, eg, cv⟩ := hv.cells w
  obtain ⟨h', e, c⟩ := binN_run (· - ·) (.v a) (.v b) h (w.len _) (w.len _) (by rw [cu.1, cv.1]) la lb
  rw [cu.1, cu.2, cv.2, show List.zipWith (· - ·) (SortArray.tab n f) (SortArray.tab n g) = SortArray.tab n (fun i => f i - g i) by
    apply List.ext_getElem <;> simp [SortArray.tab]] at c
  exact created_returnsVec w e c (fun i => by simp [ef, eg])

theorem rowMat_run {h : Heap ℝ} (w : h.WF) {o : Nat} {v : Fin n → ℝ} (a : IsVec h o v) (l : h.live (.v o)) (hn : 0 < n) :
    Runs (rowMat (some (.v o))) h fun m h' => h'.WF ∧ Keeps h h' (fun _ => False) ∧ ¬ h.live (.m m) ∧ h'.live (.m m) ∧
      IsMat h' m (Matrix.of fun (_ : Fin 1) j => v j) := by
  unfold rowMat
  refine Runs.newM w fun h1 w1 k1 f1 l1 s1 => ?_
  generalize h.next = q at *
  refine Runs.step (derefV_run o h1) ?_
  have a1 := a.keep k1 l nofun
  have b1 : h1.buf (.m q) = [] := List.length_eq_zero_iff.mp (by rw [w1.len, s1]; rfl)
  have r : MRep h1 q ⟨0, []⟩ := ⟨s1, b1, by constructor <;> simp⟩
  obtain ⟨h2, e2, u2⟩ := Mat.row_add_vec_run w1 r o
  refine Runs.step e2 ?_
  have hv : h1.vec o = List.ofFn v := a1.vec_eq w1
  have u := u2.upd
  rw [hv] at u
  have ht : (Table.add ⟨0, []⟩ (List.ofFn v).length [List.ofFn v] : Table ℝ) = ⟨n, [List.ofFn v]⟩ := by
    unfold Table.add
    rw [if_neg (by simp; omega), if_pos rfl, List.length_ofFn]
  rw [ht] at u
  refine Runs.of_eq (a := q) (h' := h2) rfl ⟨u2.wf w1, k1.trans_new u.keeps (fun l e hl => by subst e; exact f1 hl), f1, u.keeps.live l1,
    u.size, fun i j => ?_⟩
  rw [u.buf]
  simp

theorem linear_run {h : Heap ℝ} (w : h.WF) (f : List ℝ → ℝ) {oc ox : Nat} {c x : Fin (n + 1) → ℝ} (hc : IsVec h oc c) (hx : IsVec h ox x)
    (lc : h.live (.v oc)) (lx : h.live (.v ox)) : ReturnsVal (linear_approximationv f (some (.v oc)) (some (.v ox))) h
      (asFun _ f c + fd1 (asFun _ f) c 0 * (x 0 - c 0)) := by
  have kp := Keeps.refl h (fun _ => False)
  unfold linear_approximationv
  refine (jacobian_run w f hc lc).bind fun j h1 w1 k1 f1 l1 a1 => ?_
  advance k1
  refine (rowMat_run w1 a1 l1 (by omega)).andThen fun mj h2 ⟨w2, k2, f2, l2, a2⟩ => ?_
  advance k2
  refine Runs.step (derefV_run ox h2) (Runs.step (derefV_run oc h2) ?_)
  refine (Vec.subn_spec w2 hx hc lx lc).bind fun d h3 w3 k3 f3 l3 a3 => ?_
  advance k3
  refine (rowMat_run w3 a3 l3 (by omega)).andThen fun md h4 ⟨w4, k4, f4, l4, a4⟩ => ?_
  advance k4
  refine (Mat.transposen_spec w4 a2 l2).bind fun t h5 w5 k5 f5 l5 a5 => ?_
  advance k5
  refine Runs.step (derefM_run t h5) ?_
  refine (Mat.multn_spec w5 a5 a4 l5 l4).bind fun p h6 w6 k6 f6 l6 a6 => ?_
  advance k6
  refine Runs.step (derefM_run p h6) ?_
  unfold constant_approximationv
  refine Runs.step (show (derefV (some (.v oc)) >>= callV f) h6 = .ok (f (List.ofFn c), h6) by
    rw [bind_ok (derefV_run oc h6)]; exact callV_run w6 f hc) ?_
  obtain ⟨F, eF, c6⟩ := a6.cells w6
  refine Runs.step (Mat.element_get_run c6 (i := 0) (j := 0) (by omega) (by omega)) ?_
  refine Runs.of_eq rfl ⟨?_, w6, kp⟩
  have := eF 0 0
  simp only [Fin.val_zero] at this
  rw [← this]
  simp [Matrix.mul_apply, asFun]

theorem quadForm_run {h : Heap ℝ} (w : h.WF) {oa ob : Nat} {u : Fin n → ℝ} {H : Matrix (Fin n) (Fin n) ℝ}
    (a : IsMat h oa (Matrix.of fun (_ : Fin 1) j => u j)) (b : IsMat h ob H) (la : h.live (.m oa)) (lb : h.live (.m ob)) :
    ReturnsVal (quadForm oa ob) h (u ⬝ᵥ H.mulVec u) := by
  have kp := Keeps.refl h (fun _ => False)
  unfold quadForm
  refine (Mat.transposen_spec w a la).bind fun t h1 w1 k1 f1 l1 a1 => ?_
  advance k1
  refine Runs.step (derefM_run t h1) ?_
  refine (Mat.multn_spec w1 b a1 lb l1).bind fun p h2 w2 k2 f2 l2 a2 => ?_
  advance k2
  refine Runs.step (derefM_run p h2) ?_
  refine (Mat.multn_spec w2 a a2 la l2).bind fun r h3 w3 k3 f3 l3 a3 => ?_
  advance k3
  refine Runs.step (derefM_run r h3) ?_
  obtain ⟨F, eF, c3⟩ := a3.cells w3
  refine Runs.of_eq (Mat.element_get_run c3 (i := 0) (j := 0) (by omega) (by omega)) ⟨?_, w3, kp⟩
  have := eF 0 0
  simp only [Fin.val_zero] at this
  rw [← this]
  simp [Matrix.mul_apply, dotProduct, Matrix.mulVec]

theorem quadratic_run {h : Heap ℝ} (w : h.WF) (f : List ℝ → ℝ) {oc ox : Nat} {c x : Fin (n + 1) → ℝ} (hc : IsVec h oc c) (hx : IsVec h ox x)
    (lc : h.live (.v oc)) (lx : h.live (.v ox)) : ReturnsVal (quadratic_approximationv f (some (.v oc)) (some (.v ox))) h
      (asFun _ f c + fd1 (asFun _ f) c 0 * (x 0 - c 0) + 0.5 * ((x - c) ⬝ᵥ (Matrix.of (fd2 (asFun _ f) c)).mulVec (x - c))) := by
  have kp := Keeps.refl h (fun _ => False)
  unfold quadratic_approximationv
  refine (hessian_run w f hc lc).bind fun j h1 w1 k1 f1 l1 a1 => ?_
  advance k1
  refine Runs.step (derefV_run ox h1) (Runs.step (derefV_run oc h1) ?_)
  refine (Vec.subn_spec w1 hx hc lx lc).bind fun d h3 w3 k3 f3 l3 a3 => ?_
  advance k3
  refine (rowMat_run w3 a3 l3 (by omega)).andThen fun md h4 ⟨w4, k4, f4, l4, a4⟩ => ?_
  advance k4
  refine Runs.step (derefM_run j h4) ?_
  refine (quadForm_run w4 a4 a1 l4 l1).bind fun h5 w5 k5 => ?_
  advance k5
  refine (linear_run w5 f hc hx lc lx).bind fun h6 w6 k6 => ?_
  advance k6
  exact Runs.of_eq rfl ⟨rfl, w6, kp⟩

theorem cubic_run {h : Heap ℝ} (w : h.WF) (f : List ℝ → ℝ) {oc ox : Nat} {c x : Fin (n + 1) → ℝ} (hc : IsVec h oc c) (hx : IsVec h ox x)
    (lc : h.live (.v oc)) (lx : h.live (.v ox)) : ReturnsVal (cubic_approximationv f (some (.v oc)) (some (.v ox))) h
      (asFun _ f c + fd1 (asFun _ f) c 0 * (x 0 - c 0) + 0.5 * ((x - c) ⬝ᵥ (Matrix.of (fd2 (asFun _ f) c)).mulVec (x - c))) := by
  have kp := Keeps.refl h (fun _ => False)
  unfold cubic_approximationv
  refine Runs.step (derefV_run ox h) (Runs.step (derefV_run oc h) ?_)
  refine (Vec.subn_spec w hx hc lx lc).bind fun d h3 w3 k3 f3 l3 a3 => ?_
  advance k3
  refine (rowMat_run w3 a3 l3 (by omega)).andThen fun md h4 ⟨w4, k4, f4, l4, a4⟩ => ?_
  advance k4
  refine (third_order_tensor_run w4 f hc lc).andThen fun _ h5 ⟨t, e, f5, l5, w5, k5, a5⟩ => ?_
  subst e
  advance k5
  refine Runs.step (show derefT (some (.t t)) h5 = .ok (t, h5) from rfl) (Runs.step (derefV_run d h5) ?_)
  refine (C46_tensor_vec_mult h5 w5 t d _ a5 l5 _ a3 l3).bind fun r h6 w6 k6 f6 l6 a6 => ?_
  advance k6
  refine Runs.step (derefM_run r h6) ?_
  refine (quadForm_run w6 a4 a6 l4 l6).bind fun h7 w7 k7 => ?_
  advance k7
  refine (quadratic_run w7 f hc hx lc lx).bind fun h8 w8 k8 => ?_
  advance k8
  exact Runs.of_eq rfl ⟨by norm_num, w8, kp⟩

/-- **C81.** `constant_approximationv` is the value at the centre. -/
theorem C81_constant (h : Heap ℝ) (w : h.WF) (f : List ℝ → ℝ) (oc : Nat) (c : Fin n → ℝ) (hc : IsVec h oc c) :
    constant_approximationv f (some (.v oc)) h = .ok (f (List.ofFn c), h) := by
  unfold constant_approximationv
  rw [bind_ok (derefV_run oc h)]; exact callV_run w f hc

/-- **C81**, linear approximation: for functions of one variable, the value at the centre plus the derivative (at a point less than `1e-10`
away) times the distance. Missing: two or more variables, see `C81_linear_fails`. -/
theorem C81_linear_partial (h : Heap ℝ) (w : h.WF) (f : List ℝ → ℝ) (oc ox : Nat) (c x : Fin 1 → ℝ) (hc : IsVec h oc c) (hx : IsVec h ox x)
    (lc : h.live (.v oc)) (lx : h.live (.v ox)) (hF : HasPartials (asFun 1 f)) :
    ∃ t ∈ Ioo (0 : ℝ) 1e-10, ReturnsVal (linear_approximationv f (some (.v oc)) (some (.v ox))) h
      (f (List.ofFn c) + ∑ i, partialD (asFun 1 f) i (c + Pi.single i t) * (x i - c i)) := by
  obtain ⟨t, ht, q⟩ := hF.mvt c 0 (e := 1e-10) (by norm_num)
  refine ⟨t, ht, ?_⟩
  have := linear_run w f hc hx lc lx
  unfold fd1 at this
  rw [q, mul_div_cancel_left₀ _ (by norm_num : (1e-10 : ℝ) ≠ 0)] at this
  simpa [asFun] using this

/-- **C81** fails in two or more variables: only the first coordinate enters. For a function of degree one, whose linear approximation
is the function itself, the result is right only if the other coordinates contribute nothing. -/
theorem C81_linear_fails (h : Heap ℝ) (w : h.WF) (f : List ℝ → ℝ) (oc ox : Nat) (c x : Fin (n + 2) → ℝ) (hc : IsVec h oc c) (hx : IsVec h ox x)
    (lc : h.live (.v oc)) (lx : h.live (.v ox)) (b : Fin (n + 2) → ℝ) (k : ℝ) (hf : ∀ u : Fin (n + 2) → ℝ, f (List.ofFn u) = k + b ⬝ᵥ u) :
    ∃ y, ReturnsVal (linear_approximationv f (some (.v oc)) (some (.v ox))) h y ∧
      (y = f (List.ofFn x) ↔ ∑ i : Fin (n + 1), b i.succ * (x i.succ - c i.succ) = 0) := by
  refine ⟨_, linear_run w f hc hx lc lx, ?_⟩
  have e : fd1 (asFun (n + 2) f) c 0 = b 0 := by
    unfold fd1 asFun
    rw [hf, hf]
    simp only [dotProduct_add, dotProduct_single]
    field_simp; ring
  rw [e, asFun, hf, hf]
  have : b ⬝ᵥ x - b ⬝ᵥ c = b 0 * (x 0 - c 0) + ∑ i : Fin (n + 1), b i.succ * (x i.succ - c i.succ) := by
    rw [← dotProduct_sub, dotProduct, Fin.sum_univ_succ]; rfl
  constructor <;> intro q <;> linarith

/-- **C81.** The second-order term of `quadratic_approximationv` is right: the result is that of `linear_approximationv` plus
`(x - c)ᵀ H (x - c) / 2` with the matrix `H` of `hessian`. -/
theorem C81_quadratic_term (h : Heap ℝ) (w : h.WF) (f : List ℝ → ℝ) (oc ox : Nat) (c x : Fin (n + 1) → ℝ) (hc : IsVec h oc c)
    (hx : IsVec h ox x) (lc : h.live (.v oc)) (lx : h.live (.v ox)) : ∃ (l : ℝ) (H : Matrix (Fin (n + 1)) (Fin (n + 1)) ℝ),
      ReturnsVal (linear_approximationv f (some (.v oc)) (some (.v ox))) h l ∧ ReturnsMat (hessian f (some (.v oc))) h H ∧
      ReturnsVal (quadratic_approximationv f (some (.v oc)) (some (.v ox))) h (l + ((x - c) ⬝ᵥ H.mulVec (x - c)) / 2) := by
  refine ⟨_, _, linear_run w f hc hx lc lx, hessian_run w f hc lc, ?_⟩
  have := quadratic_run w f hc hx lc lx
  convert this using 2
  norm_num; ring

/-- **C81** fails for `cubic_approximationv`: its third-order term is always zero (`1 / 6` is computed in integers), so it returns what
`quadratic_approximationv` returns. -/
theorem C81_cubic_fails (h : Heap ℝ) (w : h.WF) (f : List ℝ → ℝ) (oc ox : Nat) (c x : Fin (n + 1) → ℝ) (hc : IsVec h oc c)
    (hx : IsVec h ox x) (lc : h.live (.v oc)) (lx : h.live (.v ox)) : ∃ q : ℝ,
      ReturnsVal (quadratic_approximationv f (some (.v oc)) (some (.v ox))) h q ∧
      ReturnsVal (cubic_approximationv f (some (.v oc)) (some (.v ox))) h q :=
  ⟨_, quadratic_run w f hc hx lc lx, cubic_run w f hc hx lc lx⟩

/-! ## Second derivative test -/

theorem quad_cases (a b d : ℝ) (Q : (Fin 2 → ℝ) → ℝ) (hQ : ∀ u, Q u = a * u 0 ^ 2 + 2 * b * (u 0 * u 1) + d * u 1 ^ 2) :
    (0 < a * d - b ^ 2 → 0 < a → ∀ u, u ≠ 0 → 0 < Q u) ∧ (0 < a * d - b ^ 2 → a < 0 → ∀ u, u ≠ 0 → Q u < 0) ∧
    (a * d - b ^ 2 < 0 → (∃ u, Q u < 0) ∧ ∃ u, 0 < Q u) ∧
    (a * d - b ^ 2 = 0 → (∃ u, u ≠ 0 ∧ Q u = 0) ∧ ((∀ u, 0 ≤ Q u) ∨ ∀ u, Q u ≤ 0)) := by
  have key : ∀ u, a * Q u = (a * u 0 + b * u 1) ^ 2 + (a * d - b ^ 2) * u 1 ^ 2 := fun u => by rw [hQ]; ring
  have nz : ∀ u : Fin 2 → ℝ, u ≠ 0 → u 1 = 0 → u 0 ≠ 0 := by
    intro u hu h1 h0
    exact hu (by funext i; fin_cases i <;> simp [h0, h1])
  have pos : 0 < a * d - b ^ 2 → a ≠ 0 → ∀ u, u ≠ 0 → 0 < a * Q u := by
    intro hD ha u hu
    rw [key]
    by_cases h1 : u 1 = 0
    · have := nz u hu h1
      rw [h1]
      have : 0 < (a * u 0) ^ 2 := by positivity
      linarith [this]
    · have : 0 < (a * d - b ^ 2) * u 1 ^ 2 := by positivity
      positivity
  refine ⟨fun hD ha u hu => ?_, fun hD ha u hu => ?_, fun hD => ?_, fun hD => ?_⟩
  · exact (mul_pos_iff_of_pos_left ha).mp (pos hD ha.ne' u hu)
  · have := pos hD ha.ne u hu
    by_contra q
    push Not at q
    linarith [mul_nonpos_of_nonpos_of_nonneg ha.le q]
  · rcases lt_trichotomy a 0 with ha | ha | ha
    · refine ⟨⟨![1, 0], by rw [hQ]; simpa using ha⟩, ⟨![-b, a], ?_⟩⟩
      have e : Q ![-b, a] = a * (a * d - b ^ 2) := by rw [hQ]; simp; ring
      rw [e]; exact mul_pos_of_neg_of_neg ha hD
    · have hb : b ≠ 0 := by rintro rfl; simp [ha] at hD
      have e : ∀ s : ℝ, Q ![(s - d) / (2 * b), 1] = s := by
        intro s; rw [hQ, ha]; simp; field_simp; ring
      exact ⟨⟨_, by rw [e (-1)]; norm_num⟩, ⟨_, by rw [e 1]; norm_num⟩⟩
    · refine ⟨⟨![-b, a], ?_⟩, ⟨![1, 0], by rw [hQ]; simpa using ha⟩⟩
      have e : Q ![-b, a] = a * (a * d - b ^ 2) := by rw [hQ]; simp; ring
      rw [e]; exact mul_neg_of_pos_of_neg ha hD
  · have key' : ∀ u, 0 ≤ a * Q u := fun u => by rw [key, hD]; nlinarith [sq_nonneg (a * u 0 + b * u 1)]
    by_cases ha : a = 0
    · have hb : b = 0 := by
        rw [ha] at hD
        have : b ^ 2 = 0 := by linarith
        exact pow_eq_zero_iff (two_ne_zero) |>.mp this
      refine ⟨⟨![1, 0], fun q => ?_, by rw [hQ]; simp [ha]⟩, ?_⟩
      · have := congrFun q 0; simp at this
      · have e : ∀ u, Q u = d * u 1 ^ 2 := fun u => by rw [hQ, ha, hb]; ring
        rcases le_total 0 d with hd | hd
        · exact .inl fun u => by rw [e]; positivity
        · exact .inr fun u => by rw [e]; exact mul_nonpos_of_nonpos_of_nonneg hd (sq_nonneg _)
    · refine ⟨⟨![-b, a], fun q => ?_, ?_⟩, ?_⟩
      · have := congrFun q 1; simp at this; exact ha this
      · have e : Q ![-b, a] = a * (a * d - b ^ 2) := by rw [hQ]; simp; ring
        rw [e, hD, mul_zero]
      · rcases lt_or_gt_of_ne ha with ha | ha
        · exact .inr fun u => by
            by_contra q; push Not at q
            have := mul_neg_of_neg_of_pos ha q
            linarith [key' u]
        · exact .inl fun u => by
            by_contra q; push Not at q
            have := mul_neg_of_pos_of_neg ha q
            linarith [key' u]

/-- **C81.** The second derivative test in two variables is exact on quadratic functions at their critical point `v`: the answer is
"min" / "max" precisely when `v` is the only minimum / maximum, "saddle" precisely when the function takes smaller and larger
values, and "test was inconclusive" in the remaining cases. The variable `other` stands for the branch for other dimensions (see `C81_many_variables_fails`); it
plays no role. -/
theorem C81_second_derivative_test (other : Nat → M ℝ String) (h : Heap ℝ) (w : h.WF) (f : List ℝ → ℝ) (o : Nat) (v : Fin 2 → ℝ) (hv : IsVec h o v)
    (lv : h.live (.v o)) (A : Matrix (Fin 2) (Fin 2) ℝ) (k : ℝ) (hf : ∀ u : Fin 2 → ℝ, f (List.ofFn u) = k + (u - v) ⬝ᵥ A.mulVec (u - v)) :
    Runs (second_partial_derivative_test other f (some (.v o))) h fun r h' => h'.WF ∧ Keeps h h' (fun _ => False) ∧
      (r = "min" ↔ ∀ u, u ≠ v → f (List.ofFn v) < f (List.ofFn u)) ∧
      (r = "max" ↔ ∀ u, u ≠ v → f (List.ofFn u) < f (List.ofFn v)) ∧
      (r = "saddle" ↔ (∃ u : Fin 2 → ℝ, f (List.ofFn u) < f (List.ofFn v)) ∧ ∃ u : Fin 2 → ℝ, f (List.ofFn v) < f (List.ofFn u)) ∧
      (r = "min" ∨ r = "max" ∨ r = "saddle" ∨ r = "test was inconclusive") := by
  have hf' : ∀ u : Fin 2 → ℝ, f (List.ofFn u) = (k + v ⬝ᵥ A.mulVec v) + (-(A.mulVec v) - A.transpose.mulVec v) ⬝ᵥ u + u ⬝ᵥ A.mulVec u := by
    intro u
    rw [hf]
    simp [dotProduct, Matrix.mulVec, Fin.sum_univ_two, Matrix.transpose_apply]
    ring
  have hH : Matrix.of (fd2 (asFun 2 f) v) = A + A.transpose := fd2_quadratic f v A _ _ hf'
  have kp := Keeps.refl h (fun _ => False)
  unfold second_partial_derivative_test
  refine (hessian_run w f hv lv).bind fun m h1 w1 k1 f1 l1 a1 => ?_
  rw [hH] at a1
  advance k1
  refine Runs.step (derefM_run m h1) (Runs.step (Mat.size_run m h1) ?_)
  rw [a1.1]
  dsimp only
  rw [if_pos rfl]
  refine (C21_det_partial h1 w1 m le_rfl _ a1 l1).bind fun h2 w2 k2 => ?_
  advance k2
  refine ReturnsVal.bind (num_diff_2v_run w2 f hv lv (0 : Fin 2) (0 : Fin 2)) fun h3 w3 k3 => ?_
  advance k3
  have es : (f (List.ofFn (v + Pi.single 0 1e-5 + Pi.single 0 1e-5)) - f (List.ofFn (v + Pi.single 0 1e-5)) -
        f (List.ofFn (v + Pi.single 0 1e-5)) + f (List.ofFn v)) / (1e-5 * 1e-5) = 2 * A 0 0 := by
    have := congrFun (congrFun hH 0) 0
    simp only [Matrix.of_apply, fd2, asFun, Matrix.add_apply, Matrix.transpose_apply] at this
    rw [this]; ring
  rw [es]
  set b := (A 0 1 + A 1 0) / 2 with hb
  have ed : (A + A.transpose).det = 4 * (A 0 0 * A 1 1 - b ^ 2) := by
    rw [Matrix.det_fin_two]
    simp only [Matrix.add_apply, Matrix.transpose_apply, hb]; ring
  rw [ed]
  obtain ⟨Q, hQ⟩ : ∃ Q : (Fin 2 → ℝ) → ℝ, ∀ u, Q u = u ⬝ᵥ A.mulVec u := ⟨_, fun _ => rfl⟩
  obtain ⟨c1, c2, c3, c4⟩ := quad_cases (A 0 0) b (A 1 1) Q (fun u => by
    rw [hQ]; simp [dotProduct, Matrix.mulVec, Fin.sum_univ_two, hb]; ring)
  have fv : f (List.ofFn v) = k := by rw [hf]; simp
  have fu : ∀ u : Fin 2 → ℝ, f (List.ofFn u) = k + Q (u - v)  := fun u => by rw [hf, hQ]
  have all : ∀ P : ℝ → Prop, (∀ u : Fin 2 → ℝ, u ≠ v → P (f (List.ofFn u))) ↔ ∀ u, u ≠ 0 → P (k + Q u) := by
    intro P
    refine ⟨fun q u hu => ?_, fun q u hu => ?_⟩
    · have := q (u + v) (by simpa using hu)
      rwa [fu, add_sub_cancel_right] at this
    · rw [fu]; exact q _ (sub_ne_zero.mpr hu)
  have ex : ∀ P : ℝ → Prop, (∃ u : Fin 2 → ℝ, P (f (List.ofFn u))) ↔ ∃ u, P (k + Q u) := by
    intro P
    refine ⟨fun ⟨u, q⟩ => ⟨u - v, by rwa [fu] at q⟩, fun ⟨u, q⟩ => ⟨u + v, by rwa [fu, add_sub_cancel_right]⟩⟩
  rw [fv, all (k < ·), all (· < k), ex (· < k), ex (k < ·)]
  have e1 : ∀ u, (k < k + Q u) ↔ 0 < Q u := fun u => by constructor <;> intro q <;> linarith
  have e2 : ∀ u, (k + Q u < k) ↔ Q u < 0 := fun u => by constructor <;> intro q <;> linarith
  simp only [e1, e2]
  have one : (Pi.single 0 1 : Fin 2 → ℝ) ≠ 0 := by intro q; have := congrFun q 0; simp at this
  have Q0 : Q 0 = 0 := by simp [hQ]
  clear_value b
  rcases lt_trichotomy (A 0 0 * A 1 1 - b ^ 2) 0 with hD | hD | hD
  · obtain ⟨⟨u1, q1⟩, ⟨u2, q2⟩⟩ := c3 hD
    have hm : ¬ ∀ u, u ≠ 0 → 0 < Q u := fun q => by linarith [q u1 (fun e => by rw [e, Q0] at q1; exact lt_irrefl _ q1)]
    have hM : ¬ ∀ u, u ≠ 0 → Q u < 0 := fun q => by linarith [q u2 (fun e => by rw [e, Q0] at q2; exact lt_irrefl _ q2)]
    rw [if_neg (by intro q; linarith [q.2]), if_neg (by intro q; linarith [q.2]), if_pos (by linarith)]
    exact Runs.of_eq (a := "saddle") (h' := h3) rfl ⟨w3, kp, by simpa using hm, by simpa using hM, by simp; exact ⟨⟨u1, q1⟩, ⟨u2, q2⟩⟩, by simp⟩
  · obtain ⟨⟨u, hu, hu0⟩, q⟩ := c4 hD
    have hm : ¬ ∀ u, u ≠ 0 → 0 < Q u := fun q => by linarith [q u hu]
    have hM : ¬ ∀ u, u ≠ 0 → Q u < 0 := fun q => by linarith [q u hu]
    have hs : ¬ ((∃ u, Q u < 0) ∧ ∃ u, 0 < Q u) := by
      rintro ⟨⟨u1, q1⟩, ⟨u2, q2⟩⟩
      rcases q with q | q
      · linarith [q u1]
      · linarith [q u2]
    rw [if_neg (by intro q; linarith [q.2]), if_neg (by intro q; linarith [q.2]), if_neg (by linarith)]
    exact Runs.of_eq (a := "test was inconclusive") (h' := h3) rfl ⟨w3, kp, by simpa using hm, by simpa using hM, by simpa using hs, by simp⟩
  · have ha : A 0 0 ≠ 0 := by
      intro q; rw [q] at hD; nlinarith [sq_nonneg b]
    rcases lt_or_gt_of_ne ha with ha | ha
    · have hM := c2 hD ha
      have hm : ¬ ∀ u, u ≠ 0 → 0 < Q u := fun q => by linarith [q _ one, hM _ one]
      have hs : ¬ ((∃ u, Q u < 0) ∧ ∃ u, 0 < Q u) := by
        rintro ⟨-, u, q⟩
        by_cases e : u = 0
        · rw [e, Q0] at q; exact lt_irrefl _ q
        · linarith [hM u e]
      rw [if_neg (by intro q; linarith [q.1]), if_pos ⟨by linarith, by linarith⟩]
      exact Runs.of_eq (a := "max") (h' := h3) rfl ⟨w3, kp, by simpa using hm, by simpa using hM, by simpa using hs, by simp⟩
    · have hm := c1 hD ha
      have hM : ¬ ∀ u, u ≠ 0 → Q u < 0 := fun q => by linarith [q _ one, hm _ one]
      have hs : ¬ ((∃ u, Q u < 0) ∧ ∃ u, 0 < Q u) := by
        rintro ⟨⟨u, q⟩, -⟩
        by_cases e : u = 0
        · rw [e, Q0] at q; exact lt_irrefl _ q
        · linarith [hm u e]
      rw [if_pos ⟨by linarith, by linarith⟩]
      exact Runs.of_eq (a := "min") (h' := h3) rfl ⟨w3, kp, by simpa using hm, by simpa using hM, by simpa using hs, by simp⟩

/-- The hypotheses of `C81_second_derivative_test` are met by `(x, y) ↦ 5 + x² - x y + y²` at the origin. -/
example : ∃ (h : Heap ℝ) (f : List ℝ → ℝ) (v : Fin 2 → ℝ) (A : Matrix (Fin 2) (Fin 2) ℝ), h.WF ∧ IsVec h 0 v ∧ h.live (.v 0) ∧
    ∀ u : Fin 2 → ℝ, f (List.ofFn u) = 5 + (u - v) ⬝ᵥ A.mulVec (u - v) :=
  ⟨Heap.ofLists 0 [[0, 0]] [], fun l => 5 + l[0]! ^ 2 - l[0]! * l[1]! + l[1]! ^ 2, ![0, 0], Matrix.of ![![1, -1], ![0, 1]],
    Heap.ofLists_wf _ _ _ (by simp), ⟨by simp [Heap.ofLists], fun i => by fin_cases i <;> simp [Heap.ofLists]⟩,
    by simp [Heap.ofLists, Heap.live, Loc.id], fun u => by
      simp [List.ofFn_succ, dotProduct, Matrix.mulVec, Fin.sum_univ_two]; ring⟩

/-- The hypotheses of the approximation theorems are met: `(x, y) ↦ x + 2 y` at the centre `(1, 2)` and the point `(3, 5)`; by
`C81_linear_fails` the result is wrong there. -/
example : ∃ (h : Heap ℝ) (f : List ℝ → ℝ) (c x b : Fin 2 → ℝ), h.WF ∧ IsVec h 0 c ∧ IsVec h 1 x ∧ h.live (.v 0) ∧ h.live (.v 1) ∧
    (∀ u : Fin 2 → ℝ, f (List.ofFn u) = 0 + b ⬝ᵥ u) ∧ ∑ i : Fin 1, b i.succ * (x i.succ - c i.succ) ≠ 0 :=
  ⟨Heap.ofLists 0 [[1, 2], [3, 5]] [], fun l => l[0]! + 2 * l[1]!, ![1, 2], ![3, 5], ![1, 2],
    Heap.ofLists_wf _ _ _ (by simp), ⟨by simp [Heap.ofLists], fun i => by fin_cases i <;> simp [Heap.ofLists]⟩,
    ⟨by simp [Heap.ofLists], fun i => by fin_cases i <;> simp [Heap.ofLists]⟩,
    by simp [Heap.ofLists, Heap.live, Loc.id], by simp [Heap.ofLists, Heap.live, Loc.id], fun u => by
      simp [List.ofFn_succ, dotProduct, Fin.sum_univ_two], by simp; norm_num⟩

end Verif
