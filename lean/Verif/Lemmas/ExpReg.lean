import Verif.Spec.ExpReg
import Verif.Lemmas.GlmBatch
import Verif.Lemmas.SoftmaxReg
import Verif.Lemmas.KMeans
import Verif.Props.GlmPredict
import Verif.Lemmas.Mlp

/-! # Lemmas about `MLPPExpReg` -/

namespace Verif
open Spec Finset

theorem sum_range_fin (n : Nat) (f : Fin n → ℝ) : ∑ i ∈ range n, (if hi : i < n then f ⟨i, hi⟩ else 0) = ∑ i, f i := by
  rw [Finset.sum_range]
  exact Finset.sum_congr rfl fun i _ => by rw [dif_pos i.isLt]

/-- A loop that only reads and sums. -/
theorem sumLoop {h : Heap ℝ} (n : Nat) (f : Fin n → ℝ) (body : Nat → ℝ → M ℝ ℝ) (step : ∀ (i : Fin n) s, body i s h = .ok (s + f i, h)) :
    foldN n (0 : ℝ) body h = .ok (∑ i, f i, h) := by
  rw [← sum_range_fin]
  refine foldN_read n (fun m => ∑ i ∈ range m, if hi : i < n then f ⟨i, hi⟩ else 0) body 0 h (by simp) fun i hi => ?_
  rw [step ⟨i, hi⟩, Finset.sum_range_succ, dif_pos hi]

namespace ExpReg
open Glm
variable {n k m : Nat} {h h' : Heap ℝ} {s : Glm} {a : Ref} {X : Matrix (Fin n) (Fin k) ℝ} {y : Fin n → ℝ} {θ : EParams k}

theorem evaluatev_run (w : h.WF) {x : Ref} {u v c : Fin k → ℝ} (hx : HasV h x u) (hw : HasV h s.weights v) (ha : HasV h a c) :
    evaluatev s a x h = .ok (∑ j, c j * v j ^ u j + s.bias, h) := by
  unfold evaluatev
  rw [bind_ok (Hd.size_run hx)]
  have e := sumLoop (h := h) k (fun j => c j * v j ^ u j) (fun i y => do
    let ai ← Hd.element_get a i
    let wi ← Hd.element_get s.weights i
    let xi ← Hd.element_get x i
    pure (y + ai * MathFns.pow wi xi)) fun i t => by
      rw [bind_ok (Hd.element_get_run w ha i), bind_ok (Hd.element_get_run w hw i), bind_ok (Hd.element_get_run w hx i)]
      rfl
  rw [bind_ok e]
  rfl

theorem rowSum_run (w : h.WF) {x : Ref} {A : Matrix (Fin m) (Fin k) ℝ} {v c : Fin k → ℝ} (hx : HasM h x A) (hw : HasV h s.weights v) (ha : HasV h a c)
    (i : Fin m) : rowSum s a x i k h = .ok (∑ j, c j * v j ^ A i j, h) := by
  unfold rowSum
  exact sumLoop (h := h) k (fun j => c j * v j ^ A i j) _ fun j t => by
      rw [bind_ok (Hd.element_get_run w ha j), bind_ok (Hd.element_get_run w hw j), bind_ok (Hd.element_getm_run w hx i j)]
      rfl

theorem evaluatem_spec (w : h.WF) {x : Ref} {A : Matrix (Fin m) (Fin k) ℝ} {v c : Fin k → ℝ} (hx : HasM h x A) (hw : HasV h s.weights v)
    (ha : HasV h a c) : ReturnsVec (evaluatem s a x) h (expModel A (c, v, s.bias)) := by
  refine ReturnsVec.of_has ?_
  unfold evaluatem
  refine Runs.step (Hd.sizem_run hx) ?_
  dsimp only
  refine stepNewV w fun o h1 t w1 k1 f1 ho => ?_
  have f1' := f1
  have k1' := k1
  have nx : a ≠ some (.v o) := (f1.ne ha).symm
  have nw' : s.weights ≠ some (.v o) := (f1.ne hw).symm
  adv k1
  refine Runs.bind ((Runs.forN m (fun i h' => h'.WF ∧ Keeps h h' (fun _ => False) ∧ HasM h' x A ∧ HasV h' s.weights v ∧ HasV h' a c ∧
    ∃ t : Fin m → ℝ, HasV h' (some (.v o)) t ∧ ∀ j, j.val < i → t j = expModel A (c, v, s.bias) j) _ h1
    ⟨w1, k1', hx, hw, ha, t, ho, fun j hj => absurd hj (by omega)⟩ ?_).mono ?_)
  · clear hx hw ha ho
    rintro i h2 hi ⟨w2, K2, hx, hw, ha, t, ho, et⟩
    refine Runs.step (rowSum_run w2 hx hw ha ⟨i, hi⟩) ?_
    refine (Hd.element_set_run w2 ho ⟨i, hi⟩ _).mono fun _ h3 ⟨w3, k3, ho3⟩ => ?_
    wr k3
    refine ⟨w3, K2.wr_new k3 f1', hx, hw, ha, _, ho3, fun j hj => ?_⟩
    by_cases e : j = ⟨i, hi⟩
    · subst e; rw [Function.update_self]; rfl
    · rw [Function.update_of_ne e]
      exact et j (by have := Fin.val_ne_of_ne e; simp only at this; omega)
  · rintro _ h2 ⟨w2, K2, -, -, -, t, ho, et⟩
    refine Runs.of_eq rfl ⟨w2, K2, f1', ?_⟩
    rw [show expModel A (c, v, s.bias) = t from funext fun j => (et j j.isLt).symm]
    exact ho

/-- `v` with `d` subtracted from entry `t`, if there is one. -/
def lowered (v : Fin k → ℝ) (t : Nat) (d : ℝ) : Fin k → ℝ := fun j => if j.val = t then v j - d else v j

theorem lower_run (w : h.WF) {r : Ref} {v : Fin k → ℝ} (hr : HasV h r v) (t : Nat) (d : ℝ) :
    Runs (lower r t d) h fun _ h' => h'.WF ∧ Keeps h h' (some · = r) ∧ HasV h' r (lowered v t d) := by
  unfold lower
  by_cases ht : t < k
  · refine Runs.step (Hd.element_get_run w hr ⟨t, ht⟩) ?_
    refine (Hd.element_set_run w hr ⟨t, ht⟩ _).mono fun _ h' ⟨w', k', hr'⟩ => ⟨w', k', ?_⟩
    rw [show lowered v t d = Function.update v ⟨t, ht⟩ (v ⟨t, ht⟩ - d) from ?_]
    · exact hr'
    · funext j
      unfold lowered
      by_cases e : j = ⟨t, ht⟩
      · subst e; rw [Function.update_self, if_pos rfl]
      · rw [Function.update_of_ne e, if_neg (fun q => e (Fin.ext q))]
  · have hv : lowered v t d = v := funext fun j => by unfold lowered; rw [if_neg (by omega)]
    rw [hv]
    obtain ⟨x, rfl, l, i⟩ := hr
    have e1 : Hd.element_get (some (.v x)) (t : Int) h = .ok (0, h) := by
      show Vec.element_get x t h = _
      unfold Vec.element_get Vec.size
      simp only [bind_assoc]
      rw [bind_ok (getSize_run _ h)]
      simp only [pure_bind]
      rw [i.1, if_neg]
      · rfl
      · simp [idxOk]; omega
    refine Runs.step e1 ?_
    have e2 : Hd.element_set (some (.v x)) (t : Int) (0 - d) h = .ok ((), h) := by
      show Vec.element_set x t _ h = _
      unfold Vec.element_set Vec.size
      simp only [bind_assoc]
      rw [bind_ok (getSize_run _ h)]
      simp only [pure_bind]
      rw [i.1, if_neg]
      · rfl
      · simp [idxOk]; omega
    exact Runs.of_eq e2 ⟨w, Keeps.refl _ _, x, rfl, l, i⟩

/-- The slope the code uses for weight `j`. -/
noncomputable def slopeW (X : Matrix (Fin m) (Fin k) ℝ) (e : Fin m → ℝ) (w : Fin k → ℝ) (j : Fin k) : ℝ :=
  (∑ i, e i * X i j * w j ^ (X i j - 1)) / m
/-- The slope for initial value `j`. -/
noncomputable def slopeA (X : Matrix (Fin m) (Fin k) ℝ) (e : Fin m → ℝ) (w : Fin k → ℝ) (j : Fin k) : ℝ := (∑ i, e i * w j ^ X i j) / m

theorem column_run (wf : h.WF) {x error : Ref} {A : Matrix (Fin m) (Fin k) ℝ} {e : Fin m → ℝ} {v c : Fin k → ℝ} (hx : HasM h x A)
    (he : HasV h error e) (hw : HasV h s.weights v) (ha : HasV h a c) (n1 : a ≠ s.weights) (lr : ℝ) (t : Nat) (j : Fin k) :
    Runs (column s a error x m lr t j) h fun _ h' => h'.WF ∧ Keeps h h' (fun l => some l = s.weights ∨ some l = a) ∧
      HasV h' s.weights (lowered v t (lr * slopeW A e v j)) ∧ HasV h' a (lowered c t (lr * slopeA A e v j)) := by
  unfold column
  have e1 : weightSum s.weights error x m j h = .ok (∑ i, e i * A i j * v j ^ (A i j - 1), h) := by
    unfold weightSum
    exact sumLoop (h := h) m (fun i => e i * A i j * v j ^ (A i j - 1)) _ fun i t => by
      rw [bind_ok (Hd.element_get_run wf he i), bind_ok (Hd.element_getm_run wf hx i j), bind_ok (Hd.element_get_run wf hw j)]
      rfl
  have e2 : initialSum s.weights error x m j h = .ok (∑ i, e i * v j ^ A i j, h) := by
    unfold initialSum
    exact sumLoop (h := h) m (fun i => e i * v j ^ A i j) _ fun i t => by
      rw [bind_ok (Hd.element_get_run wf he i), bind_ok (Hd.element_get_run wf hw j), bind_ok (Hd.element_getm_run wf hx i j)]
      rfl
  refine Runs.step e1 (Runs.step e2 ?_)
  refine Runs.bind ((lower_run wf hw t _).mono fun _ h1 ⟨w1, k1, hw1⟩ => ?_)
  wr k1
  refine (lower_run w1 ha t _).mono fun _ h2 ⟨w2, k2, ha2⟩ => ?_
  wr k2
  exact ⟨w2, (k1.mono fun _ _ e => .inl e).trans (k2.mono fun _ _ e => .inr e), hw1, ha2⟩

/-- What may be written to. -/
def owned (s : Glm) (a : Ref) : List Ref := [s.weights, a]

/-- The parameters after one step with the errors `e`. -/
noncomputable def stepWith (D : ℝ → ℝ) (X : Matrix (Fin m) (Fin k) ℝ) (e : Fin m → ℝ) (lr : ℝ) (θ : EParams k) : EParams k :=
  (fun j => θ.1 j - lr * slopeA X e θ.2.1 j, fun j => D (θ.2.1 j - lr * slopeW X e θ.2.1 j), θ.2.2 - lr * ((∑ i, e i) / m))

/-- The object between the epochs. -/
structure Inv (X : Matrix (Fin n) (Fin k) ℝ) (y : Fin n → ℝ) (s0 : Glm) (h0 : Heap ℝ) (a : Ref) (θ : EParams k) (s : Glm) (h : Heap ℝ) : Prop where
  ready : ExpReady s a h X y θ
  same : Same s0 s
  moved : Moved (owned s0 a) (owned s a) h0 h

theorem _root_.Verif.Spec.ExpReady.keep (R : ExpReady s a h X y θ) (w : h'.WF) (kk : Keeps h h' (fun _ => False)) : ExpReady s a h' X y θ :=
  ⟨R.base.keep w kk, adv_hasv kk R.init, R.apart_weights, R.apart_output⟩

theorem Inv.keep {s0 : Glm} {h0 : Heap ℝ} (I : Inv X y s0 h0 a θ s h) (w : h'.WF) (kk : Keeps h h' (fun _ => False)) : Inv X y s0 h0 a θ s h' :=
  ⟨I.ready.keep w kk, I.same, I.moved.new kk⟩

theorem forward_run {s0 : Glm} {h0 : Heap ℝ} (I : Inv X y s0 h0 a θ s h) :
    Runs (forward_pass s a) h fun s' h' => Inv X y s0 h0 a θ s' h' ∧ HasV h' s'.y_hat (expModel X θ) ∧ s'.y_hat ≠ s'.weights ∧ s'.y_hat ≠ a := by
  unfold forward_pass
  have R := I.ready
  refine stepV (evaluatem_spec R.base.wf R.base.input R.base.weights R.init) fun r h1 w1 k1 f1 hr => ?_
  rw [show (θ.1, θ.2.1, s.bias) = θ by rw [R.base.bias]] at hr
  have I1 := I.keep w1 k1
  have B := I1.ready.base
  exact Runs.of_eq rfl ⟨⟨⟨⟨B.wf, B.rows, B.cols, B.input, B.output, B.weights, B.bias, B.apart⟩, I1.ready.init, I1.ready.apart_weights,
    I1.ready.apart_output⟩, ⟨I.same.1, I.same.2, I.same.3, I.same.4, I.same.5, I.same.6, I.same.7, I.same.8⟩, I1.moved⟩, hr, f1.ne R.base.weights,
    f1.ne R.init⟩

theorem Inv.trained {s0 : Glm} {h0 : Heap ℝ} (I : Inv X y s0 h0 a θ s h) (hy : HasV h s.y_hat (expModel X θ)) : ExpTrained s0 a h0 s h X y θ :=
  ⟨I.ready, hy, I.same, I.moved.1.mono fun l _ e => by simpa [owned] using e⟩

/-- The loop over the columns. -/
theorem columns_run (wf : h.WF) {x error : Ref} {A : Matrix (Fin m) (Fin k) ℝ} {e : Fin m → ℝ} {v c : Fin k → ℝ} (hx : HasM h x A)
    (he : HasV h error e) (hw : HasV h s.weights v) (ha : HasV h a c) (n1 : a ≠ s.weights) (n2 : error ≠ s.weights) (n3 : error ≠ a) (lr : ℝ) :
    Runs (forN k fun i => column s a error x m lr i i) h fun _ h' => h'.WF ∧ Keeps h h' (fun l => some l = s.weights ∨ some l = a) ∧
      HasV h' s.weights (fun j => v j - lr * slopeW A e v j) ∧ HasV h' a (fun j => c j - lr * slopeA A e v j) := by
  refine (Runs.forN k (fun i h' => h'.WF ∧ Keeps h h' (fun l => some l = s.weights ∨ some l = a) ∧ HasM h' x A ∧ HasV h' error e ∧
    HasV h' s.weights (fun j => if j.val < i then v j - lr * slopeW A e v j else v j) ∧
    HasV h' a (fun j => if j.val < i then c j - lr * slopeA A e v j else c j)) _ h ⟨wf, Keeps.refl _ _, hx, he, ?_, ?_⟩ ?_).mono ?_
  · simpa using hw
  · simpa using ha
  · clear hx he hw ha
    rintro i h1 hi ⟨w1, K1, hx, he, hw, ha⟩
    refine (column_run w1 hx he hw ha n1 lr i ⟨i, hi⟩).mono fun _ h2 ⟨w2, k2, hw2, ha2⟩ => ?_
    wr k2
    have e1 : ∀ j : Fin k, (if j.val < i then v j - lr * slopeW A e v j else v j) = v j ∨ j.val < i := fun j => by
      by_cases q : j.val < i
      · exact .inr q
      · exact .inl (if_neg q)
    have s1 : slopeW A e (fun j => if j.val < i then v j - lr * slopeW A e v j else v j) ⟨i, hi⟩ = slopeW A e v ⟨i, hi⟩ := by
      simp [slopeW]
    have s2 : slopeA A e (fun j => if j.val < i then v j - lr * slopeW A e v j else v j) ⟨i, hi⟩ = slopeA A e v ⟨i, hi⟩ := by
      simp [slopeA]
    rw [s1] at hw2
    rw [s2] at ha2
    refine ⟨w2, K1.trans k2, hx, he, ?_, ?_⟩
    · refine cast (congrArg _ ?_) hw2
      funext j
      unfold lowered
      rcases lt_trichotomy j.val i with q | q | q
      · simp [q, q.ne, Nat.lt_succ_of_lt q]
      · have : j = ⟨i, hi⟩ := Fin.ext q
        subst this; simp
      · simp [q.ne', not_lt.mpr q.le, show ¬ j.val < i + 1 by omega]
    · refine cast (congrArg _ ?_) ha2
      funext j
      unfold lowered
      rcases lt_trichotomy j.val i with q | q | q
      · simp [q, q.ne, Nat.lt_succ_of_lt q]
      · have : j = ⟨i, hi⟩ := Fin.ext q
        subst this; simp
      · simp [q.ne', not_lt.mpr q.le, show ¬ j.val < i + 1 by omega]
  · rintro _ h' ⟨w', K', -, -, hw', ha'⟩
    exact ⟨w', K', by simpa using hw', by simpa using ha'⟩

/-- After the loop over the columns and the regularisation. -/
theorem regularize_inv {s0 : Glm} {h0 h1 : Heap ℝ} (I : Inv X y s0 h0 a θ s h) (w1 : h1.WF)
    (K : Keeps h h1 (fun l => some l = s.weights ∨ some l = a)) {v c : Fin k → ℝ} (hw : HasV h1 s.weights v) (ha : HasV h1 a c) :
    Runs (regularize s) h1 fun s' h' => Inv X y s0 h0 a (c, fun j => decay s.reg s.lambda s.alpha (v j), θ.2.2) s' h' ∧
      Keeps h h' (fun l => some l = s.weights ∨ some l = a) ∧ (∃ r, s' = { s with weights := r }) ∧ Moved (owned s a) (owned s' a) h h' := by
  have R := I.ready
  have hX := R.base.input.off2 K (R.base.weights.ne_mat R.base.input).symm (R.init.ne_mat R.base.input).symm
  have hY := R.base.output.off2 K R.base.apart R.apart_output.symm
  refine (regularize_run w1 hw).mono fun s' h2 ⟨r, es, w2, k2, f2, hr⟩ => ?_
  subst es
  have n1 : a ≠ r := (f2.ne ha).symm
  have n2 : s.output_set ≠ r := (f2.ne hY).symm
  adv k2
  have M1 : Moved (owned s a) (owned s a) h h1 := ⟨K.mono fun l _ e => by simpa [owned] using e, fun _ => .inl⟩
  have M2 : Moved (owned s a) (owned s a) h h2 := M1.new k2
  have M3 : Moved (owned s a) (owned { s with weights := r } a) h h2 := M2.own fun q hq => by
    simp only [owned, List.mem_cons, List.not_mem_nil, or_false] at hq
    rcases hq with rfl | rfl
    · exact .inr (f2.mono K)
    · exact .inl (by simp [owned])
  exact ⟨⟨⟨⟨w2, R.base.rows, R.base.cols, hX, hY, hr, R.base.bias, n2⟩, ha, n1, R.apart_output⟩,
    ⟨I.same.1, I.same.2, I.same.3, I.same.4, I.same.5, I.same.6, I.same.7, I.same.8⟩, I.moved.trans M3⟩, K.trans (k2.mono fun _ _ => False.elim),
    ⟨r, rfl⟩, M3⟩

theorem Inv.bias {s0 : Glm} {h0 : Heap ℝ} (I : Inv X y s0 h0 a θ s h) (b : ℝ) : Inv X y s0 h0 a (θ.1, θ.2.1, b) { s with bias := b } h :=
  ⟨⟨I.ready.base.setBias b, I.ready.init, I.ready.apart_weights, I.ready.apart_output⟩,
    ⟨I.same.1, I.same.2, I.same.3, I.same.4, I.same.5, I.same.6, I.same.7, I.same.8⟩, I.moved⟩

theorem cost_ok (w : h.WF) {p q : Ref} {u v : Fin m → ℝ} {t : Fin k → ℝ} (ha : HasV h p u) (hb : HasV h q v)
    (hw : HasV h s.weights t) : ∃ c, cost s p q h = .ok (c, h) := Glm.cost_run linReg_computes w ha hb hw

/-- The step of gradient descent. -/
noncomputable def gdStep (D : ℝ → ℝ) (X : Matrix (Fin m) (Fin k) ℝ) (y : Fin m → ℝ) (lr : ℝ) (θ : EParams k) : EParams k :=
  stepWith D X (fun i => expModel X θ i - y i) lr θ

theorem gdBody_run {s0 : Glm} {h0 : Heap ℝ} (I : Inv X y s0 h0 a θ s h) (hp : HasV h s.y_hat (expModel X θ)) (d1 : s.y_hat ≠ s.weights)
    (d2 : s.y_hat ≠ a) (lr : ℝ) :
    Runs (gdBody lr a s) h fun s' h' => Inv X y s0 h0 a (gdStep (decay s0.reg s0.lambda s0.alpha) X y lr θ) s' h' ∧
      HasV h' s'.y_hat (expModel X (gdStep (decay s0.reg s0.lambda s0.alpha) X y lr θ)) ∧ s'.y_hat ≠ s'.weights ∧ s'.y_hat ≠ a := by
  unfold gdBody
  have R := I.ready
  obtain ⟨c, ec⟩ := cost_ok R.base.wf hp R.base.output R.base.weights
  refine Runs.step ec ?_
  refine stepV (Hd.subn_spec R.base.wf hp R.base.output) fun er h1 w1 k1 f1 he => ?_
  have n2 : er ≠ s.weights := f1.ne R.base.weights
  have n3 : er ≠ a := f1.ne R.init
  have I1 := I.keep w1 k1
  have R1 := I1.ready
  adv k1
  rw [R1.base.cols, R1.base.rows]
  refine Runs.bind ((columns_run w1 R1.base.input he R1.base.weights R1.init R1.apart_weights n2 n3 lr).mono fun _ h2 ⟨w2, k2, hw2, ha2⟩ => ?_)
  refine Runs.bind ((regularize_inv I1 w2 k2 hw2 ha2).mono fun s3 h3 ⟨I3, K3, ⟨r, e3⟩, _⟩ => ?_)
  have hp3 : HasV h3 s.y_hat _ := hp.off2 K3 d1 d2
  subst e3
  have e4 : biasSum s.y_hat s.output_set s.n h3 = .ok (∑ i, (expModel X θ i - y i), h3) := by
    rw [R1.base.rows]
    unfold biasSum
    exact sumLoop (h := h3) n (fun i => expModel X θ i - y i) _ fun i t => by
      rw [bind_ok (Hd.element_get_run I3.ready.base.wf hp3 i), bind_ok (Hd.element_get_run I3.ready.base.wf I3.ready.base.output i)]
      rfl
  dsimp only
  refine Runs.step e4 ?_
  have I4 := I3.bias (s.bias - lr * ((∑ i, (expModel X θ i - y i)) / s.n))
  have e5 := forward_run I4
  have e6 : gdStep (decay s0.reg s0.lambda s0.alpha) X y lr θ = (fun j => θ.1 j - lr * slopeA X (fun i => expModel X θ i - y i) θ.2.1 j,
      fun j => decay s.reg s.lambda s.alpha (θ.2.1 j - lr * slopeW X (fun i => expModel X θ i - y i) θ.2.1 j),
      s.bias - lr * ((∑ i, (expModel X θ i - y i)) / s.n)) := by
    rw [I.same.reg, I.same.lambda, I.same.alpha, R1.base.bias, R1.base.rows]; rfl
  rw [e6]
  exact e5

theorem Inv.refl (R : ExpReady s a h X y θ) : Inv X y s h a θ s h := ⟨R, ⟨rfl, rfl, rfl, rfl, rfl, rfl, rfl, rfl⟩, Moved.refl _ _⟩

theorem gd_run (R : ExpReady s a h X y θ) (lr : ℝ) (e : Int) :
    Runs (gradient_descent s a lr e) h fun s' h' => ExpTrained s a h s' h' X y
      (walk (fun _ => gdStep (decay s.reg s.lambda s.alpha) X y lr) θ (epochCount e)) := by
  unfold gradient_descent
  refine Runs.bind ((forward_run (Inv.refl R)).mono fun s1 h1 J1 => ?_)
  refine (epochs_run e s1 _ (fun i s' h' => Inv X y s h a (walk (fun _ => gdStep (decay s.reg s.lambda s.alpha) X y lr) θ i) s' h' ∧
    HasV h' s'.y_hat (expModel X (walk (fun _ => gdStep (decay s.reg s.lambda s.alpha) X y lr) θ i)) ∧ s'.y_hat ≠ s'.weights ∧ s'.y_hat ≠ a)
    J1 ?_).mono fun s2 h2 J2 => J2.1.trained J2.2.1
  rintro i s2 h2 ⟨I2, p2, d1, d2⟩
  exact gdBody_run I2 p2 d1 d2 lr

/-! ## Stochastic training -/

/-- A vector of the loop. -/
structure Tmp {m : Nat} (h0 : Heap ℝ) (s : Glm) (a : Ref) (h : Heap ℝ) (r : Ref) (v : Fin m → ℝ) : Prop where
  base : Glm.Tmp h0 s h r v
  init : r ≠ a

theorem Inv.tmp {p : Nat} {v : Fin p → ℝ} {s0 : Glm} {h0 : Heap ℝ} (I : Inv X y s0 h0 a θ s h) {r : Ref} (t : Tmp h0 s a h r v) (w : h'.WF)
    (kk : Keeps h h' (some · = r)) : Inv X y s0 h0 a θ s h' :=
  ⟨⟨I.ready.base.tmp t.base w kk, I.ready.init.off kk t.init.symm, I.ready.apart_weights, I.ready.apart_output⟩, I.same,
    I.moved.tmp t.base.new kk⟩

theorem Tmp.off {p : Nat} {v : Fin p → ℝ} {h0 : Heap ℝ} {r q : Ref} (t : Tmp h0 s a h r v) (kk : Keeps h h' (some · = q)) (ne : r ≠ q) :
    Tmp h0 s a h' r v := ⟨t.base.off kk ne, t.init⟩

theorem Tmp.keep {p : Nat} {v : Fin p → ℝ} {h0 : Heap ℝ} {r : Ref} (t : Tmp h0 s a h r v) (kk : Keeps h h' (fun _ => False)) :
    Tmp h0 s a h' r v := ⟨t.base.keep kk, t.init⟩

theorem sgdColumn_run (wf : h.WF) {row : Ref} {X : Matrix (Fin n) (Fin k) ℝ} {v c : Fin k → ℝ} (q : Fin n) (hx : HasM h s.input_set X)
    (hr : HasV h row (X q)) (hw : HasV h s.weights v) (ha : HasV h a c) (n1 : a ≠ s.weights) (er lr : ℝ) (j : Fin k) :
    Runs (sgdColumn s a row q er lr j) h fun _ h' => h'.WF ∧ Keeps h h' (fun l => some l = s.weights ∨ some l = a) ∧
      HasV h' s.weights (lowered v j (lr * (er * X q j * v j ^ (X q j - 1)))) ∧ HasV h' a (lowered c j (lr * (er * v j ^ X q j))) := by
  unfold sgdColumn
  refine Runs.step (Hd.element_get_run wf hr j) (Runs.step (Hd.element_get_run wf hw j) (Runs.step (Hd.element_getm_run wf hx q j) ?_))
  refine Runs.bind ((lower_run wf hw j _).mono fun _ h1 ⟨w1, k1, hw1⟩ => ?_)
  wr k1
  refine (lower_run w1 ha j _).mono fun _ h2 ⟨w2, k2, ha2⟩ => ?_
  wr k2
  exact ⟨w2, (k1.mono fun _ _ e => .inl e).trans (k2.mono fun _ _ e => .inr e), hw1, ha2⟩

theorem sgdColumns_run (wf : h.WF) {row : Ref} {v c : Fin k → ℝ} (q : Fin n) (hx : HasM h s.input_set X)
    (hr : HasV h row (X q)) (hw : HasV h s.weights v) (ha : HasV h a c) (n1 : a ≠ s.weights) (n2 : row ≠ s.weights) (n3 : row ≠ a) (er lr : ℝ) :
    Runs (forN k fun i => sgdColumn s a row q er lr i) h fun _ h' => h'.WF ∧ Keeps h h' (fun l => some l = s.weights ∨ some l = a) ∧
      HasV h' s.weights (fun j => v j - lr * (er * X q j * v j ^ (X q j - 1))) ∧ HasV h' a (fun j => c j - lr * (er * v j ^ X q j)) := by
  refine (Runs.forN k (fun i h' => h'.WF ∧ Keeps h h' (fun l => some l = s.weights ∨ some l = a) ∧ HasM h' s.input_set X ∧ HasV h' row (X q) ∧
    HasV h' s.weights (fun j => if j.val < i then v j - lr * (er * X q j * v j ^ (X q j - 1)) else v j) ∧
    HasV h' a (fun j => if j.val < i then c j - lr * (er * v j ^ X q j) else c j)) _ h ⟨wf, Keeps.refl _ _, hx, hr, ?_, ?_⟩ ?_).mono ?_
  · simpa using hw
  · simpa using ha
  · clear hx hr hw ha
    rintro i h1 hi ⟨w1, K1, hx, hr, hw, ha⟩
    refine (sgdColumn_run w1 q hx hr hw ha n1 er lr ⟨i, hi⟩).mono fun _ h2 ⟨w2, k2, hw2, ha2⟩ => ?_
    wr k2
    simp only [lt_irrefl, if_false] at hw2 ha2
    refine ⟨w2, K1.trans k2, hx, hr, ?_, ?_⟩
    · refine cast (congrArg _ ?_) hw2
      funext j
      unfold lowered
      rcases lt_trichotomy j.val i with q | q | q
      · simp [q, q.ne, Nat.lt_succ_of_lt q]
      · have : j = ⟨i, hi⟩ := Fin.ext q
        subst this; simp
      · simp [q.ne', not_lt.mpr q.le, show ¬ j.val < i + 1 by omega]
    · refine cast (congrArg _ ?_) ha2
      funext j
      unfold lowered
      rcases lt_trichotomy j.val i with q | q | q
      · simp [q, q.ne, Nat.lt_succ_of_lt q]
      · have : j = ⟨i, hi⟩ := Fin.ext q
        subst this; simp
      · simp [q.ne', not_lt.mpr q.le, show ¬ j.val < i + 1 by omega]
  · rintro _ h' ⟨w', K', -, -, hw', ha'⟩
    exact ⟨w', K', by simpa using hw', by simpa using ha'⟩

/-- The step with sample `i`. -/
noncomputable def sgdStep (D : ℝ → ℝ) (X : Matrix (Fin n) (Fin k) ℝ) (y : Fin n → ℝ) (lr : ℝ) (i : Fin n) (θ : EParams k) : EParams k :=
  (fun j => θ.1 j - lr * ((expModel X θ i - y i) * θ.2.1 j ^ X i j),
    fun j => D (θ.2.1 j - lr * ((expModel X θ i - y i) * X i j * θ.2.1 j ^ (X i j - 1))), θ.2.2 - lr * (expModel X θ i - y i))

theorem sgd_run (R : ExpReady s a h X y θ) (hn : 0 < n) {pick : Nat → Nat} (hp : ∀ e, pick e < n) (lr : ℝ) (e : Int) :
    Runs (sgd s a pick lr e) h fun s' h' => ExpTrained s a h s' h' X y
      (walk (fun i => sgdStep (decay s.reg s.lambda s.alpha) X y lr ⟨pick (i + 1), hp _⟩) θ (epochCount e)) := by
  unfold sgd
  rw [if_neg (by rw [R.base.rows]; exact hn.ne')]
  refine Runs.step (Hd.sizem_run R.base.input) ?_
  refine stepNewV R.base.wf fun o1 h1 v1 w1 k1 f1 a1 => ?_
  have R1 := R.keep w1 k1
  refine stepNewV w1 fun o3 h2 v3 w2 k2 f3 a3 => ?_
  have R2 := R1.keep w2 k2
  refine stepNewV w2 fun o2 h3 v2 w3 k3 f2 a2 => ?_
  have n12 : some (Loc.v o2) ≠ some (Loc.v o1) := f2.ne (adv_hasv k2 a1)
  have n13 : some (Loc.v o3) ≠ some (Loc.v o1) := f3.ne a1
  have n23 : some (Loc.v o3) ≠ some (Loc.v o2) := (f2.ne a3).symm
  have T1 : Tmp h s a h3 (some (.v o1)) v1 := ⟨⟨adv_hasv k3 (adv_hasv k2 a1), f1, f1.ne R.base.weights, f1.ne R.base.output⟩, f1.ne R.init⟩
  have T3 : Tmp h s a h3 (some (.v o3)) v3 := ⟨⟨adv_hasv k3 a3, f3.mono k1, f3.ne R1.base.weights, f3.ne R1.base.output⟩, f3.ne R1.init⟩
  have T2 : Tmp h s a h3 (some (.v o2)) v2 := ⟨⟨a2, (f2.mono k2).mono k1, f2.ne R2.base.weights, f2.ne R2.base.output⟩, f2.ne R2.init⟩
  have I3 : Inv X y s h a θ s h3 := ((((Inv.refl R).keep w1 k1).keep w2 k2).keep w3 k3)
  obtain ⟨stp, estp⟩ : ∃ stp : Nat → EParams k → EParams k, stp = fun i => sgdStep (decay s.reg s.lambda s.alpha) X y lr ⟨pick (i + 1), hp _⟩ := ⟨_, rfl⟩
  rw [← estp]
  refine Runs.bind ((epochs_run e s _ (fun i s' h' => Inv X y s h a (walk stp θ i) s' h' ∧
    (∃ v : Fin k → ℝ, Tmp h s' a h' (some (.v o1)) v) ∧ (∃ v : Fin 1 → ℝ, Tmp h s' a h' (some (.v o2)) v) ∧
    (∃ v : Fin 1 → ℝ, Tmp h s' a h' (some (.v o3)) v)) ⟨I3, ⟨_, T1⟩, ⟨_, T2⟩, ⟨_, T3⟩⟩ ?_).mono fun s' h' J => ?_)
  · rintro i s4 h4 ⟨I4, ⟨u1, T1⟩, ⟨u2, T2⟩, ⟨u3, T3⟩⟩
    rw [show walk stp θ (i + 1) = stp i (walk stp θ i) from rfl]
    obtain ⟨η, eη⟩ : ∃ η, η = walk stp θ i := ⟨_, rfl⟩
    rw [← eη] at I4 ⊢
    obtain ⟨q, eq⟩ : ∃ q : Fin n, q = ⟨pick (i + 1), hp _⟩ := ⟨_, rfl⟩
    have eq' : pick (i + 1) = q := by rw [eq]
    have es : stp i η = sgdStep (decay s.reg s.lambda s.alpha) X y lr q η := by rw [estp, eq]
    rw [es]
    clear es
    rw [eq']
    unfold sgdBody
    refine Runs.bind ((Hd.row_get_into_run I4.ready.base.wf I4.ready.base.input T1.base.has q).mono fun _ h5 ⟨w5, k5, a5⟩ => ?_)
    have I5 := I4.tmp T1 w5 k5
    have T1 : Tmp h s4 a h5 _ (X q) := ⟨⟨a5, T1.base.new, T1.base.weights, T1.base.output⟩, T1.init⟩
    have T2 := T2.off k5 n12
    have T3 := T3.off k5 n13
    refine Runs.step (Hd.element_get_run w5 I5.ready.base.output q) ?_
    refine Runs.bind ((Hd.element_set_run w5 T2.base.has 0 (y q)).mono fun _ h6 ⟨w6, k6, a6⟩ => ?_)
    have I6 := I5.tmp T2 w6 k6
    have T2 : Tmp h s4 a h6 _ _ := ⟨⟨a6, T2.base.new, T2.base.weights, T2.base.output⟩, T2.init⟩
    have T1 := T1.off k6 n12.symm
    have T3 := T3.off k6 n23
    have el : ∑ j, η.1 j * η.2.1 j ^ X q j + s4.bias = expModel X η q := by
      rw [I6.ready.base.bias]; rfl
    have ev := evaluatev_run (s := s4) w6 T1.base.has I6.ready.base.weights I6.ready.init
    rw [el] at ev
    refine Runs.step ev ?_
    refine Runs.bind ((Hd.element_set_run w6 T3.base.has 0 _).mono fun _ h7 ⟨w7, k7, a7⟩ => ?_)
    have I7 := I6.tmp T3 w7 k7
    have T3 : Tmp h s4 a h7 _ _ := ⟨⟨a7, T3.base.new, T3.base.weights, T3.base.output⟩, T3.init⟩
    have T1 := T1.off k7 n13.symm
    have T2 := T2.off k7 n23.symm
    obtain ⟨c, ec⟩ := cost_ok w7 T3.base.has T2.base.has I7.ready.base.weights
    refine Runs.step ec ?_
    rw [I7.ready.base.cols]
    have R7 := I7.ready
    refine Runs.bind ((sgdColumns_run w7 q R7.base.input T1.base.has R7.base.weights R7.init R7.apart_weights T1.base.weights T1.init _ lr).mono
      fun _ h8 ⟨w8, k8, hw8, ha8⟩ => ?_)
    refine Runs.bind ((regularize_inv I7 w8 k8 hw8 ha8).mono fun s9 h9 ⟨I9, K9, ⟨r, e9⟩, M9⟩ => ?_)
    have TT : ∀ {m : Nat} {o : Nat} {v : Fin m → ℝ}, Tmp h s4 a h7 (some (.v o)) v → Tmp h s9 a h9 (some (.v o)) v := by
      intro m o v t
      have ht : HasV h9 (some (.v o)) v := t.base.has.off2 K9 t.base.weights t.init
      have hq := M9.notv t.base.has (by simp [owned, t.base.weights, t.init])
      simp only [owned, List.mem_cons, List.not_mem_nil, or_false, not_or] at hq
      exact ⟨⟨ht, t.base.new, hq.1, by rw [e9]; exact t.base.output⟩, hq.2⟩
    have T1 := TT T1
    have T2 := TT T2
    have T3 := TT T3
    have I10 := I9.bias (s9.bias - lr * (expModel X η q - y q))
    have e10 : sgdStep (decay s.reg s.lambda s.alpha) X y lr q η = (fun j => η.1 j - lr * ((expModel X η q - y q) * η.2.1 j ^ X q j),
        fun j => decay s4.reg s4.lambda s4.alpha (η.2.1 j - lr * ((expModel X η q - y q) * X q j * η.2.1 j ^ (X q j - 1))),
        s9.bias - lr * (expModel X η q - y q)) := by
      rw [I4.same.reg, I4.same.lambda, I4.same.alpha, I9.ready.base.bias]; rfl
    rw [e10]
    have ev2 := evaluatev_run (s := { s9 with bias := s9.bias - lr * (expModel X η q - y q) }) I10.ready.base.wf T1.base.has I10.ready.base.weights
      I10.ready.init
    refine Runs.step ev2 (Runs.of_eq rfl ⟨I10, ⟨_, ⟨T1.base.bias _, T1.init⟩⟩, ⟨_, ⟨T2.base.bias _, T2.init⟩⟩, ⟨_, ⟨T3.base.bias _, T3.init⟩⟩⟩)
  · exact (forward_run J.1).mono fun _ _ I => I.1.trained I.2.1

/-! ## Mini-batches -/

/-- What one column does when the gradient goes to element `t`. -/
noncomputable def mbColumn (X : Matrix (Fin m) (Fin k) ℝ) (e : Fin m → ℝ) (lr : ℝ) (t : Nat) (p : (Fin k → ℝ) × (Fin k → ℝ)) (j : Fin k) :
    (Fin k → ℝ) × (Fin k → ℝ) := (lowered p.1 t (lr * slopeA X e p.2 j), lowered p.2 t (lr * slopeW X e p.2 j))

/-- The first `i` columns. -/
noncomputable def mbColumns (X : Matrix (Fin m) (Fin k) ℝ) (e : Fin m → ℝ) (lr : ℝ) (t : Nat) (p : (Fin k → ℝ) × (Fin k → ℝ)) :
    Nat → (Fin k → ℝ) × (Fin k → ℝ)
  | 0 => p
  | i + 1 => if hi : i < k then mbColumn X e lr t (mbColumns X e lr t p i) ⟨i, hi⟩ else mbColumns X e lr t p i

theorem mbColumns_run (wf : h.WF) {x error : Ref} {A : Matrix (Fin m) (Fin k) ℝ} {e : Fin m → ℝ} {v c : Fin k → ℝ} (hx : HasM h x A)
    (he : HasV h error e) (hw : HasV h s.weights v) (ha : HasV h a c) (n1 : a ≠ s.weights) (n2 : error ≠ s.weights) (n3 : error ≠ a) (lr : ℝ)
    (t : Nat) : Runs (forN k fun i => column s a error x m lr t i) h fun _ h' => h'.WF ∧ Keeps h h' (fun l => some l = s.weights ∨ some l = a) ∧
      HasV h' s.weights (mbColumns A e lr t (c, v) k).2 ∧ HasV h' a (mbColumns A e lr t (c, v) k).1 := by
  refine (Runs.forN k (fun i h' => h'.WF ∧ Keeps h h' (fun l => some l = s.weights ∨ some l = a) ∧ HasM h' x A ∧ HasV h' error e ∧
    HasV h' s.weights (mbColumns A e lr t (c, v) i).2 ∧ HasV h' a (mbColumns A e lr t (c, v) i).1) _ h ⟨wf, Keeps.refl _ _, hx, he, hw, ha⟩ ?_).mono ?_
  · clear hx he hw ha
    rintro i h1 hi ⟨w1, K1, hx, he, hw, ha⟩
    refine (column_run w1 hx he hw ha n1 lr t ⟨i, hi⟩).mono fun _ h2 ⟨w2, k2, hw2, ha2⟩ => ?_
    wr k2
    refine ⟨w2, K1.trans k2, hx, he, ?_, ?_⟩
    · rw [mbColumns, dif_pos hi]; exact hw2
    · rw [mbColumns, dif_pos hi]; exact ha2
  · rintro _ h' ⟨w', K', -, -, hw', ha'⟩
    exact ⟨w', K', hw', ha'⟩

/-- The step with a batch `(X, y)` whose number is `t`. -/
noncomputable def mbStep (D : ℝ → ℝ) (X : Matrix (Fin m) (Fin k) ℝ) (y : Fin m → ℝ) (lr : ℝ) (t : Nat) (θ : EParams k) : EParams k :=
  ((mbColumns X (fun i => expModel X θ i - y i) lr t (θ.1, θ.2.1) k).1,
    fun j => D ((mbColumns X (fun i => expModel X θ i - y i) lr t (θ.1, θ.2.1) k).2 j), θ.2.2)

theorem mbgd_run (R : ExpReady s a h X y θ) (lr : ℝ) (e : Int) {b K : Nat} (hb : 0 < b) (eK : n / b = K) (hK : 0 < K) :
    Runs (mbgd s a lr e b) h fun s' h' => ExpTrained s a h s' h' X y
      (walk (roundStep hK fun _ i => mbStep (decay s.reg s.lambda s.alpha) (batchX X K i) (firstY y K) lr i) θ (epochCount e * K)) := by
  unfold mbgd
  have hb' : (b : Int) ≠ 0 := by exact_mod_cast hb.ne'
  rw [if_neg hb']
  have ek : (n : Int).tdiv (b : Int) = ((n / b : Nat) : Int) := by
    rw [Int.tdiv_eq_ediv_of_nonneg (Int.natCast_nonneg n)]; rfl
  dsimp only
  rw [R.base.rows, ek, Int.toNat_natCast, eK]
  obtain ⟨ia, eia, lia, hia⟩ := R.base.input
  obtain ⟨oa, eoa, loa, hoa⟩ := R.base.output
  rw [eia, eoa]
  refine Runs.bind ((Utilities.create_mini_batchesmv_run R.base.wf lia loa hia hoa hK (Utilities.batch_row n K)).mono
    fun bs h1 ⟨w1, k1, ⟨lm, _, nm⟩, ⟨lv, _, nv⟩⟩ => ?_)
  have I1 := (Inv.refl R).keep w1 k1
  have B1 : Mlp.BatchesOk X y K bs (owned s a) h1 := by
    intro i
    obtain ⟨p, ep, fp, lp, hp⟩ := nm i
    obtain ⟨c, ec, fc, lc, hc⟩ := nv i
    have fm : NotIn h (some (.m p)) := fun l e => by cases e; exact fp
    have fv : NotIn h (some (.v c)) := fun l e => by cases e; exact fc
    refine ⟨_, _, ep, ec, ⟨p, rfl, lp, hp⟩, ⟨c, rfl, lc, hc⟩, ?_, ?_⟩
    · simp only [owned, List.mem_cons, List.not_mem_nil, or_false, not_or]
      exact ⟨fm.ne R.base.weights, fm.ne R.init⟩
    · simp only [owned, List.mem_cons, List.not_mem_nil, or_false, not_or]
      exact ⟨fv.ne R.base.weights, fv.ne R.init⟩
  obtain ⟨stp, estp⟩ : ∃ stp : Nat → Fin K → EParams k → EParams k, stp = fun _ i =>
    mbStep (decay s.reg s.lambda s.alpha) (batchX X K i) (firstY y K) lr i := ⟨_, rfl⟩
  rw [← estp]
  refine Runs.bind ((rounds_run K e s _ (fun t s' h' => Inv X y s h a (walk (roundStep hK stp) θ t) s' h' ∧ Mlp.BatchesOk X y K bs (owned s' a) h')
    ⟨I1, B1⟩ ?_).mono fun s2 h2 ⟨I2, _⟩ => (forward_run I2).mono fun s3 h3 I3 => I3.1.trained I3.2.1)
  rintro ep i s2 h2 hi ⟨I2, B2⟩
  rw [walk_round hK stp θ ep i hi]
  obtain ⟨η, eη⟩ : ∃ η, η = walk (roundStep hK stp) θ (ep * K + i) := ⟨_, rfl⟩
  rw [← eη] at I2 ⊢
  obtain ⟨p, o, ea, eo, ha, ho, na, no⟩ := B2 ⟨i, hi⟩
  have r1 : batchAt bs.1 i h2 = .ok (p, h2) := by unfold batchAt; rw [show bs.1[i]? = some p from ea]; rfl
  have r2 : batchAt bs.2 i h2 = .ok (o, h2) := by unfold batchAt; rw [show bs.2[i]? = some o from eo]; rfl
  refine Runs.step r1 (Runs.step r2 ?_)
  simp only [owned, List.mem_cons, List.not_mem_nil, or_false, not_or] at na no
  have R2 := I2.ready
  unfold mbBody
  refine stepV (evaluatem_spec R2.base.wf ha R2.base.weights R2.init) fun r h3 w3 k3 f3 hr => ?_
  rw [show (η.1, η.2.1, s2.bias) = η by rw [R2.base.bias]] at hr
  have I3 := I2.keep w3 k3
  have B3 := B2.moved ((Moved.refl _ _).new k3)
  have R3 := I3.ready
  adv k3
  obtain ⟨c, ec⟩ := cost_ok w3 hr ho R3.base.weights
  refine Runs.step ec ?_
  refine stepV (Hd.subn_spec w3 hr ho) fun er h4 w4 k4 f4 he => ?_
  have I4 := I3.keep w4 k4
  have B4 := B3.moved ((Moved.refl _ _).new k4)
  have R4 := I4.ready
  have n2 : er ≠ s2.weights := f4.ne R3.base.weights
  have n3 : er ≠ a := f4.ne R3.init
  adv k4
  refine Runs.step (Hd.size_run ho) ?_
  rw [R4.base.cols]
  refine Runs.bind ((mbColumns_run w4 ha he R4.base.weights R4.init R4.apart_weights n2 n3 lr i).mono fun _ h5 ⟨w5, k5, hw5, ha5⟩ => ?_)
  refine Runs.bind ((regularize_inv I4 w5 k5 hw5 ha5).mono fun s6 h6 ⟨I6, K6, _, M6⟩ => ?_)
  have B6 := B4.moved M6
  have ha6 : HasM h6 p _ := ha.off2 K6 na.1 na.2
  refine stepV (evaluatem_spec I6.ready.base.wf ha6 I6.ready.base.weights I6.ready.init) fun r2 h7 w7 k7 f7 hr7 => ?_
  refine Runs.of_eq rfl ⟨?_, B6.moved ((Moved.refl _ _).new k7)⟩
  have I7 := I6.keep w7 k7
  rw [show stp (ep + 1) ⟨i, hi⟩ η = mbStep (decay s2.reg s2.lambda s2.alpha) (batchX X K ⟨i, hi⟩) (firstY y K) lr i η by
    rw [estp, I2.same.reg, I2.same.lambda, I2.same.alpha]]
  exact I7

end ExpReg
end Verif
