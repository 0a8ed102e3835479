import Verif.Spec.DualSvc
import Verif.Lemmas.ExpReg
import Verif.Lemmas.Svc
import Verif.Lemmas.Svm

/-! # Lemmas about `MLPPDualSVC` -/

namespace Verif
open Spec Finset Glm
namespace DualSvc
variable {n k m : Nat} {h h' : Heap ℝ} {s : DualSvc} {X : Matrix (Fin n) (Fin k) ℝ} {y α : Fin n → ℝ} {b : ℝ}

theorem _root_.Verif.Spec.DualReady.keep (R : DualReady s h X y α b) (w : h'.WF) (kk : Keeps h h' (fun _ => False)) : DualReady s h' X y α b :=
  ⟨w, adv_hasm kk R.input, adv_hasv kk R.output, adv_hasv kk R.alpha, R.bias, R.apart⟩

/-- The partial sums of `f`. -/
noncomputable def upTo (f : Fin n → ℝ) (i : Nat) : ℝ := ∑ j ∈ range i, if hj : j < n then f ⟨j, hj⟩ else 0

theorem upTo_zero (f : Fin n → ℝ) : upTo f 0 = 0 := by simp [upTo]
theorem upTo_succ (f : Fin n → ℝ) {i : Nat} (hi : i < n) : upTo f (i + 1) = upTo f i + f ⟨i, hi⟩ := by
  unfold upTo; rw [Finset.sum_range_succ, dif_pos hi]
theorem upTo_all (f : Fin n → ℝ) : upTo f n = ∑ i, f i := sum_range_fin n f

theorem propagatev_run (R : DualReady s h X y α b) {r : Ref} {x : Fin k → ℝ} (hx : HasV h r x) :
    Runs (propagatev s r) h fun z h' => z = dualScore X y α b x ∧ h'.WF ∧ Keeps h h' (fun _ => False) := by
  obtain ⟨w, hX, hy, ha, eb, -⟩ := R
  unfold propagatev
  refine Runs.step (Hd.sizem_run hX) ?_
  dsimp only
  refine stepNewV w fun o h1 v w1 k1 f1 ho => ?_
  have F := f1
  have K1 := k1
  nw f1 k1
  refine Runs.step (Hd.size_run ha) ?_
  refine Runs.bind ((Runs.foldN n (fun i z h' => z = upTo (fun j => α j * y j * ∑ l, X j l * x l) i ∧ h'.WF ∧ Keeps h h' (fun _ => False) ∧
    HasM h' s.input_set X ∧ HasV h' s.output_set y ∧ HasV h' s.alpha α ∧ HasV h' r x ∧ ∃ v : Fin k → ℝ, HasV h' (some (.v o)) v) _ 0 h1
    ⟨(upTo_zero _).symm, w1, K1, hX, hy, ha, hx, v, ho⟩ ?_).mono ?_)
  · clear hX hy ha hx ho
    rintro i z h2 hi ⟨ez, w2, K2, hX, hy, ha, hx, v, ho⟩
    unfold termv
    refine Runs.step (Hd.element_get_run w2 ha ⟨i, hi⟩) ?_
    by_cases c : α ⟨i, hi⟩ = 0
    · rw [if_neg (not_not.2 c)]
      exact Runs.of_eq rfl ⟨by rw [upTo_succ _ hi, c, ez]; ring, w2, K2, hX, hy, ha, hx, v, ho⟩
    · rw [if_pos c]
      refine Runs.bind ((Hd.row_get_into_run w2 hX ho ⟨i, hi⟩).mono fun _ h3 ⟨w3, k3, ho3⟩ => ?_)
      have K3 := K2.wr_new k3 F
      wr k3
      refine Runs.step (Hd.element_get_run w3 ha ⟨i, hi⟩) (Runs.step (Hd.element_get_run w3 hy ⟨i, hi⟩) (Runs.step (Hd.dot_run w3 ho3 hx) ?_))
      exact Runs.of_eq rfl ⟨by rw [upTo_succ _ hi, ez], w3, K3, hX, hy, ha, hx, _, ho3⟩
  · rintro z h2 ⟨ez, w2, K2, -⟩
    refine Runs.of_eq rfl ⟨?_, w2, K2⟩
    rw [ez, upTo_all, eb]; rfl

theorem propagatem_run (R : DualReady s h X y α b) {r : Ref} {A : Matrix (Fin m) (Fin k) ℝ} (hA : HasM h r A) :
    ReturnsVec (propagatem s r) h fun i => dualScore X y α b (A i) := by
  refine ReturnsVec.of_has ?_
  obtain ⟨w, hX, hy, ha, eb, -⟩ := R
  unfold propagatem
  refine Runs.step (Hd.sizem_run hA) ?_
  dsimp only
  refine stepNewV w fun oz h1 vz w1 k1 f1 hz => ?_
  have K1 := k1
  have Fz := f1
  nw f1 k1
  refine Runs.step (Hd.sizem_run hX) ?_
  dsimp only
  refine stepNewV w1 fun or h2 vr w2 k2 f2 hr => ?_
  have K2 := K1.trans k2
  have Fr := f2.mono K1
  nw f2 k2
  refine stepNewV w2 fun ox h3 vx w3 k3 f3 hx => ?_
  have K3 := K2.trans k3
  have Fx := f3.mono K2
  nw f3 k3
  refine Runs.step (Hd.size_run ha) ?_
  let I : Nat → Heap ℝ → (Fin m → ℝ) → Prop := fun i h' t => h'.WF ∧ Keeps h h' (fun _ => False) ∧ HasM h' r A ∧ HasM h' s.input_set X ∧
    HasV h' s.output_set y ∧ HasV h' s.alpha α ∧ HasV h' (some (.v oz)) t ∧ (∃ v : Fin k → ℝ, HasV h' (some (.v or)) v) ∧
    (∃ v : Fin k → ℝ, HasV h' (some (.v ox)) v) ∧ ∀ j, j.val < i → t j = dualScore X y α b (A j)
  refine Runs.bind ((Runs.forN m (fun i h' => ∃ t, I i h' t) _ h3 ⟨vz, w3, K3, hA, hX, hy, ha, hz, ⟨_, hr⟩, ⟨_, hx⟩,
    fun j hj => absurd hj (by omega)⟩ ?_).mono ?_)
  · clear hA hX hy ha hz hr hx
    rintro i h4 hi ⟨t, J4⟩
    refine Runs.bind ((Runs.foldN n (fun j z h' => z = upTo (fun j => α j * y j * ∑ l, X j l * A ⟨i, hi⟩ l) j ∧ I i h' t) _ 0 h4
      ⟨(upTo_zero _).symm, J4⟩ ?_).mono ?_)
    · clear J4
      rintro j z h5 hj ⟨ez, w5, K5, hA, hX, hy, ha, hz, ⟨vr, hr⟩, ⟨vx, hx⟩, et⟩
      unfold termm
      refine Runs.step (Hd.element_get_run w5 ha ⟨j, hj⟩) ?_
      by_cases c : α ⟨j, hj⟩ = 0
      · rw [if_neg (not_not.2 c)]
        exact Runs.of_eq rfl ⟨by rw [upTo_succ _ hj, c, ez]; ring, w5, K5, hA, hX, hy, ha, hz, ⟨vr, hr⟩, ⟨vx, hx⟩, et⟩
      · rw [if_pos c]
        refine Runs.bind ((Hd.row_get_into_run w5 hX hr ⟨j, hj⟩).mono fun _ h6 ⟨w6, k6, hr6⟩ => ?_)
        have K6 := K5.wr_new k6 Fr
        wr k6
        refine Runs.bind ((Hd.row_get_into_run w6 hA hx ⟨i, hi⟩).mono fun _ h7 ⟨w7, k7, hx7⟩ => ?_)
        have K7 := K6.wr_new k7 Fx
        wr k7
        refine Runs.step (Hd.element_get_run w7 ha ⟨j, hj⟩) (Runs.step (Hd.element_get_run w7 hy ⟨j, hj⟩) (Runs.step (Hd.dot_run w7 hr6 hx7) ?_))
        exact Runs.of_eq rfl ⟨by rw [upTo_succ _ hj, ez], w7, K7, hA, hX, hy, ha, hz, ⟨_, hr6⟩, ⟨_, hx7⟩, et⟩
    · rintro z h5 ⟨ez, w5, K5, hA, hX, hy, ha, hz, ⟨vr, hr⟩, ⟨vx, hx⟩, et⟩
      refine (Hd.element_set_run w5 hz ⟨i, hi⟩ _).mono fun _ h6 ⟨w6, k6, hz6⟩ => ?_
      have K6 := K5.wr_new k6 Fz
      wr k6
      refine ⟨_, w6, K6, hA, hX, hy, ha, hz6, ⟨_, hr⟩, ⟨_, hx⟩, fun j hj => ?_⟩
      by_cases e : j = ⟨i, hi⟩
      · subst e; rw [Function.update_self, ez, upTo_all, eb]; rfl
      · rw [Function.update_of_ne e]
        exact et j (by have := Fin.val_ne_of_ne e; simp only at this; omega)
  · rintro _ h4 ⟨t, w4, K4, -, -, -, -, hz, -, -, et⟩
    refine Runs.of_eq rfl ⟨w4, K4, Fz, ?_⟩
    rw [show (fun i => dualScore X y α b (A i)) = t from funext fun j => (et j j.isLt).symm]
    exact hz

theorem sign_spec (w : h.WF) {a : Ref} {p : Fin m → ℝ} (ha : HasV h a p) : ReturnsVec (Activation.sign_normv a) h fun i => signOf (p i) := by
  obtain ⟨a, rfl, la, ha⟩ := ha
  have := Activation.sign_normv_lifts.vec w ha la
  rw [Svc.sign_eq] at this
  exact this

/-- The state between the epochs. -/
structure Inv (X : Matrix (Fin n) (Fin k) ℝ) (y : Fin n → ℝ) (s0 : DualSvc) (h0 : Heap ℝ) (α : Fin n → ℝ) (b : ℝ) (s : DualSvc) (h : Heap ℝ) :
    Prop where
  ready : DualReady s h X y α b
  same : s = { s0 with z := s.z, y_hat := s.y_hat, bias := b }
  frame : Keeps h0 h (some · = s0.alpha)

theorem Inv.keep {s0 : DualSvc} {h0 : Heap ℝ} (I : Inv X y s0 h0 α b s h) (w : h'.WF) (kk : Keeps h h' (fun _ => False)) : Inv X y s0 h0 α b s h' :=
  ⟨I.ready.keep w kk, I.same, I.frame.trans (kk.mono fun _ _ => False.elim)⟩

theorem Inv.alpha_eq {s0 : DualSvc} {h0 : Heap ℝ} (I : Inv X y s0 h0 α b s h) : s.alpha = s0.alpha := by rw [I.same]
theorem Inv.C_eq {s0 : DualSvc} {h0 : Heap ℝ} (I : Inv X y s0 h0 α b s h) : s.C = s0.C := by rw [I.same]

theorem forward_run {s0 : DualSvc} {h0 : Heap ℝ} (I : Inv X y s0 h0 α b s h) : Runs (forward_pass s) h fun s' h' => Inv X y s0 h0 α b s' h' ∧
    HasV h' s'.z (fun i => dualScore X y α b (X i)) ∧ HasV h' s'.y_hat (fun i => signOf (dualScore X y α b (X i))) ∧ Keeps h h' (fun _ => False) := by
  unfold forward_pass
  refine stepV (propagatem_run I.ready I.ready.input) fun z h1 w1 k1 f1 hz => ?_
  have I1 := I.keep w1 k1
  refine stepV (sign_spec w1 hz) fun p h2 w2 k2 f2 hp => ?_
  have I2 := I1.keep w2 k2
  refine Runs.of_eq rfl ⟨⟨⟨w2, I2.ready.input, I2.ready.output, I2.ready.alpha, I2.ready.bias, I2.ready.apart⟩, ?_, I2.frame⟩, adv_hasv k2 hz, hp,
    k1.trans k2⟩
  show ({ s with z := z, y_hat := p } : DualSvc) = _
  rw [I.same]

/-- What `alpha_projection` does to one multiplier. -/
noncomputable def proj (C x : ℝ) : ℝ := if x > C then C else if x < 0 then 0 else x

theorem proj_eq {C : ℝ} (hC : 0 ≤ C) (x : ℝ) : proj C x = clamp C x := by
  unfold proj clamp
  split
  next c => rw [min_eq_left c.le, max_eq_right hC]
  next c =>
    rw [min_eq_right (not_lt.1 c)]
    split
    next d => rw [max_eq_left d.le]
    next d => rw [max_eq_right (not_lt.1 d)]

theorem project_run (w : h.WF) (ha : HasV h s.alpha α) (i : Fin n) : Runs (project s i) h fun _ h' => h'.WF ∧ Keeps h h' (some · = s.alpha) ∧
    HasV h' s.alpha (Function.update α i (proj s.C (α i))) := by
  unfold project
  refine Runs.step (Hd.element_get_run w ha i) ?_
  unfold proj
  split
  · exact Hd.element_set_run w ha i _
  · split
    · exact Hd.element_set_run w ha i _
    · exact Runs.of_eq rfl ⟨w, Keeps.refl _ _, by rw [Function.update_eq_self]; exact ha⟩

theorem alpha_projection_run (w : h.WF) (ha : HasV h s.alpha α) : Runs (alpha_projection s) h fun _ h' => h'.WF ∧ Keeps h h' (some · = s.alpha) ∧
    HasV h' s.alpha fun i => proj s.C (α i) := by
  unfold alpha_projection
  refine Runs.step (Hd.size_run ha) ?_
  refine (Runs.forN n (fun i h' => h'.WF ∧ Keeps h h' (some · = s.alpha) ∧ HasV h' s.alpha fun j => if j.val < i then proj s.C (α j) else α j) _ h
    ⟨w, Keeps.refl _ _, by simpa using ha⟩ ?_).mono ?_
  · clear ha
    rintro i h1 hi ⟨w1, K1, ha⟩
    refine (project_run w1 ha ⟨i, hi⟩).mono fun _ h2 ⟨w2, k2, ha2⟩ => ⟨w2, K1.trans k2, ?_⟩
    refine cast (congrArg _ ?_) ha2
    funext j
    by_cases e : j = ⟨i, hi⟩
    · subst e; simp
    · rw [Function.update_of_ne e]
      have : j.val ≠ i := fun q => e (Fin.ext q)
      by_cases q : j.val < i
      · rw [if_pos q, if_pos (by omega)]
      · rw [if_neg q, if_neg (by omega)]
  · rintro _ h' ⟨w', K', ha'⟩
    exact ⟨w', K', by simpa using ha'⟩

/-- The sum in the bias gradient. -/
noncomputable def support (X : Matrix (Fin n) (Fin k) ℝ) (y α : Fin n → ℝ) (i : Fin n) : ℝ :=
  ∑ j, if α j > 0 then α j * y j * ∑ l, X j l * X i l else 0

/-- The bias gradient. -/
noncomputable def biasSlope (X : Matrix (Fin n) (Fin k) ℝ) (y α : Fin n → ℝ) (C : ℝ) : ℝ :=
  if hn : 0 < n then (1 - y ⟨0, hn⟩ * (if α ⟨0, hn⟩ < C ∧ α ⟨0, hn⟩ > 0 then support X y α ⟨0, hn⟩ else 0)) / y ⟨0, hn⟩ else 0

/-- The two rows of the loop. -/
structure Rows (k : Nat) (h0 : Heap ℝ) (s : DualSvc) (ri rj : Ref) (h : Heap ℝ) : Prop where
  hi : ∃ v : Fin k → ℝ, HasV h ri v
  hj : ∃ v : Fin k → ℝ, HasV h rj v
  ni : NotIn h0 ri
  nj : NotIn h0 rj
  ne : ri ≠ rj
  ai : ri ≠ s.alpha
  aj : rj ≠ s.alpha
  oi : ri ≠ s.output_set
  oj : rj ≠ s.output_set

theorem supportSum_run {s0 : DualSvc} {h0 : Heap ℝ} {ri rj : Ref} (I : Inv X y s0 h0 α b s h) (T : Rows k h0 s ri rj h) (i : Fin n) :
    Runs (supportSum s ri rj n i) h fun z h' => z = (if α i < s.C ∧ α i > 0 then support X y α i else 0) ∧ Inv X y s0 h0 α b s h' ∧
      Rows k h0 s ri rj h' := by
  unfold supportSum
  refine Runs.step (Hd.element_get_run I.ready.wf I.ready.alpha i) ?_
  split
  · refine (Runs.foldN n (fun j z h' => z = upTo (fun j => if α j > 0 then α j * y j * ∑ l, X j l * X i l else 0) j ∧ Inv X y s0 h0 α b s h' ∧
      Rows k h0 s ri rj h') _ 0 h ⟨(upTo_zero _).symm, I, T⟩ ?_).mono fun z h' ⟨ez, I', T'⟩ => ⟨by rw [ez, upTo_all]; rfl, I', T'⟩
    clear I T
    rintro j z h1 hj ⟨ez, ⟨R, sm, K1⟩, ⟨⟨vi, hi⟩, ⟨vj, hj'⟩, ni, nj, ne, ai, aj, oi, oj⟩⟩
    obtain ⟨w1, hX, hy, ha, eb, ap⟩ := R
    unfold supportTerm
    refine Runs.step (Hd.element_get_run w1 ha ⟨j, hj⟩) ?_
    by_cases c : α ⟨j, hj⟩ > 0
    · rw [if_pos c]
      refine Runs.bind ((Hd.row_get_into_run w1 hX hi i).mono fun _ h2 ⟨w2, k2, hi2⟩ => ?_)
      have K2 : Keeps h0 h2 (some · = s0.alpha) := K1.trans_new k2 fun l e hl => absurd hl (ni l e.symm)
      wr k2
      refine Runs.bind ((Hd.row_get_into_run w2 hX hj' ⟨j, hj⟩).mono fun _ h3 ⟨w3, k3, hj3⟩ => ?_)
      have K3 : Keeps h0 h3 (some · = s0.alpha) := K2.trans_new k3 fun l e hl => absurd hl (nj l e.symm)
      wr k3
      refine Runs.step (Hd.element_get_run w3 ha ⟨j, hj⟩) (Runs.step (Hd.element_get_run w3 hy ⟨j, hj⟩) (Runs.step (Hd.dot_run w3 hj3 hi2) ?_))
      exact Runs.of_eq rfl ⟨by rw [upTo_succ _ hj, ez, if_pos c], ⟨⟨w3, hX, hy, ha, eb, ap⟩, sm, K3⟩, ⟨_, hi2⟩, ⟨_, hj3⟩, ni, nj, ne, ai, aj, oi, oj⟩
    · rw [if_neg c]
      exact Runs.of_eq rfl ⟨by rw [upTo_succ _ hj, ez, if_neg c, add_zero], ⟨⟨w1, hX, hy, ha, eb, ap⟩, sm, K1⟩, ⟨_, hi⟩, ⟨_, hj'⟩, ni, nj, ne, ai, aj, oi, oj⟩
  · exact Runs.of_eq rfl ⟨rfl, I, T⟩

theorem biasGradient_run {s0 : DualSvc} {h0 : Heap ℝ} {ri rj : Ref} (I : Inv X y s0 h0 α b s h) (T : Rows k h0 s ri rj h) :
    Runs (biasGradient s ri rj) h fun z h' => z = biasSlope X y α s.C ∧ Inv X y s0 h0 α b s h' ∧ Rows k h0 s ri rj h' := by
  unfold biasGradient
  refine Runs.step (Hd.size_run I.ready.alpha) ?_
  unfold biasSlope
  by_cases hn : n = 0
  · rw [if_pos hn, dif_neg (by omega)]
    exact Runs.of_eq rfl ⟨rfl, I, T⟩
  · rw [if_neg hn, dif_pos (Nat.pos_of_ne_zero hn)]
    have hn' := Nat.pos_of_ne_zero hn
    refine Runs.bind ((supportSum_run I T ⟨0, hn'⟩).mono fun z h1 ⟨ez, I1, T1⟩ => ?_)
    refine Runs.step (Hd.element_get_run I1.ready.wf I1.ready.output ⟨0, hn'⟩) ?_
    exact Runs.of_eq rfl ⟨by rw [ez], I1, T1⟩

/-- What an epoch does to the multipliers and the bias. -/
noncomputable def gdStep (X : Matrix (Fin n) (Fin k) ℝ) (y : Fin n → ℝ) (C lr : ℝ) (p : (Fin n → ℝ) × ℝ) : (Fin n → ℝ) × ℝ :=
  (fun i => proj C (p.1 i - ((Cost.svmKernel X y).mulVec p.1 i - 1) * lr),
    p.2 - biasSlope X y (fun i => proj C (p.1 i - ((Cost.svmKernel X y).mulVec p.1 i - 1) * lr)) C * lr)

theorem Rows.off {h0 : Heap ℝ} {ri rj r : Ref} (T : Rows k h0 s ri rj h) (kk : Keeps h h' (some · = r)) (n1 : ri ≠ r) (n2 : rj ≠ r) :
    Rows k h0 s ri rj h' := by
  obtain ⟨⟨vi, hi⟩, ⟨vj, hj⟩, ni, nj, ne, ai, aj, oi, oj⟩ := T
  exact ⟨⟨_, hi.off kk n1⟩, ⟨_, hj.off kk n2⟩, ni, nj, ne, ai, aj, oi, oj⟩

theorem Rows.keep {h0 : Heap ℝ} {ri rj : Ref} (T : Rows k h0 s ri rj h) (kk : Keeps h h' (fun _ => False)) : Rows k h0 s ri rj h' := by
  obtain ⟨⟨vi, hi⟩, ⟨vj, hj⟩, ni, nj, ne, ai, aj, oi, oj⟩ := T
  exact ⟨⟨_, adv_hasv kk hi⟩, ⟨_, adv_hasv kk hj⟩, ni, nj, ne, ai, aj, oi, oj⟩

theorem cost_ok (R : DualReady s h X y α b) : Runs (cost s.alpha s.input_set s.output_set) h fun _ h' => h'.WF ∧ Keeps h h' (fun _ => False) := by
  obtain ⟨x, ex, lx, ix⟩ := R.input
  obtain ⟨o, eo, lo, io⟩ := R.output
  obtain ⟨a, ea, la, ia⟩ := R.alpha
  unfold cost
  rw [ex, eo, ea]
  exact (Cost.dual_form_svm_spec R.wf ia ix io la lx lo).mono fun _ _ q => ⟨q.2.1, q.2.2⟩

theorem deriv_spec (R : DualReady s h X y α b) :
    ReturnsVec (Cost.dual_form_svm_deriv s.alpha s.input_set s.output_set) h fun i => (Cost.svmKernel X y).mulVec α i - 1 := by
  obtain ⟨x, ex, lx, ix⟩ := R.input
  obtain ⟨o, eo, lo, io⟩ := R.output
  obtain ⟨a, ea, la, ia⟩ := R.alpha
  rw [ex, eo, ea]
  exact Cost.dual_form_svm_deriv_spec R.wf ia ix io la lx lo

theorem gdBody_run {s0 : DualSvc} {h0 : Heap ℝ} {ri rj : Ref} (I : Inv X y s0 h0 α b s h) (T : Rows k h0 s ri rj h) (lr : ℝ) :
    Runs (gdBody lr ri rj s) h fun s' h' => Inv X y s0 h0 (gdStep X y s0.C lr (α, b)).1 (gdStep X y s0.C lr (α, b)).2 s' h' ∧
      HasV h' s'.z (fun i => dualScore X y (gdStep X y s0.C lr (α, b)).1 (gdStep X y s0.C lr (α, b)).2 (X i)) ∧
      HasV h' s'.y_hat (fun i => signOf (dualScore X y (gdStep X y s0.C lr (α, b)).1 (gdStep X y s0.C lr (α, b)).2 (X i))) ∧ Rows k h0 s' ri rj h' := by
  unfold gdBody
  refine Runs.bind ((cost_ok I.ready).mono fun _ h1 ⟨w1, k1⟩ => ?_)
  have I1 := I.keep w1 k1
  have T1 := T.keep k1
  refine stepV (deriv_spec I1.ready) fun g h2 w2 k2 f2 hg => ?_
  have I2 := I1.keep w2 k2
  have T2 := T1.keep k2
  refine stepV (Hd.scalar_multiplyn_spec w2 hg lr) fun d h3 w3 k3 f3 hd => ?_
  have I3 := I2.keep w3 k3
  have T3 := T2.keep k3
  refine Runs.bind ((Hd.sub_run w3 I3.ready.alpha hd).mono fun _ h4 ⟨w4, k4, ha4⟩ => ?_)
  refine Runs.bind ((alpha_projection_run w4 ha4).mono fun _ h5 ⟨w5, k5, ha5⟩ => ?_)
  have K5 : Keeps h3 h5 (some · = s.alpha) := k4.trans k5
  have I5 : Inv X y s0 h0 (gdStep X y s0.C lr (α, b)).1 b s h5 := by
    refine ⟨⟨w5, I3.ready.input.off K5 I3.ready.alpha, I3.ready.output.off K5 I3.ready.apart, ?_, I.ready.bias, I.ready.apart⟩, I.same, ?_⟩
    · rw [← I.C_eq]; exact ha5
    · refine I3.frame.trans (K5.mono fun _ _ e => ?_)
      rw [← I.alpha_eq]; exact e
  have T5 := T3.off K5 T.ai T.aj
  refine Runs.bind ((biasGradient_run I5 T5).mono fun z h6 ⟨ez, I6, T6⟩ => ?_)
  subst ez
  have I7 : Inv X y s0 h0 (gdStep X y s0.C lr (α, b)).1 (gdStep X y s0.C lr (α, b)).2
      { s with bias := s.bias - biasSlope X y (gdStep X y s0.C lr (α, b)).1 s.C * lr } h6 := by
    have e2 : (gdStep X y s0.C lr (α, b)).2 = s.bias - biasSlope X y (gdStep X y s0.C lr (α, b)).1 s.C * lr := by
      rw [I.ready.bias, I.C_eq]; rfl
    refine ⟨⟨I6.ready.wf, I6.ready.input, I6.ready.output, I6.ready.alpha, e2.symm, I6.ready.apart⟩, ?_, I6.frame⟩
    rw [e2]
    generalize s.bias - biasSlope X y (gdStep X y s0.C lr (α, b)).1 s.C * lr = B
    rw [I.same]
  refine (forward_run I7).mono fun s' h' ⟨J1, J2, J3, J4⟩ => ⟨J1, J2, J3, ?_⟩
  have T7 := T6.keep J4
  have ea : s'.alpha = s.alpha := by rw [J1.alpha_eq, I.alpha_eq]
  have eo : s'.output_set = s.output_set := by rw [J1.same, I.same]
  exact ⟨T7.hi, T7.hj, T7.ni, T7.nj, T7.ne, by rw [ea]; exact T7.ai, by rw [ea]; exact T7.aj, by rw [eo]; exact T7.oi, by rw [eo]; exact T7.oj⟩

theorem gd_run (R : DualReady s h X y α b) (lr : ℝ) (e : Int) : Runs (gradient_descent s lr e) h fun s' h' =>
    DualTrained s h s' h' X y (walk (fun _ => gdStep X y s.C lr) (α, b) (epochCount e)).1 (walk (fun _ => gdStep X y s.C lr) (α, b) (epochCount e)).2 := by
  unfold gradient_descent
  have I0 : Inv X y s h α b s h := ⟨R, by rw [← R.bias], Keeps.refl _ _⟩
  refine Runs.bind ((forward_run I0).mono fun s1 h1 ⟨I1, z1, p1, K1⟩ => ?_)
  refine Runs.step (Hd.sizem_run I1.ready.input) ?_
  dsimp only
  refine stepNewV I1.ready.wf fun oi h2 vi w2 k2 f2 hi => ?_
  have I2 := I1.keep w2 k2
  refine stepNewV w2 fun oj h3 vj w3 k3 f3 hj => ?_
  have I3 := I2.keep w3 k3
  have T : Rows k h s1 (some (.v oi)) (some (.v oj)) h3 := ⟨⟨_, adv_hasv k3 hi⟩, ⟨_, hj⟩, f2.mono K1, (f3.mono k2).mono K1, (f3.ne hi).symm,
    f2.ne I1.ready.alpha, f3.ne I2.ready.alpha, f2.ne I1.ready.output, f3.ne I2.ready.output⟩
  refine (epochs_run e s1 _ (fun i s' h' => Inv X y s h (walk (fun _ => gdStep X y s.C lr) (α, b) i).1 (walk (fun _ => gdStep X y s.C lr) (α, b) i).2 s' h' ∧
    HasV h' s'.z (fun j => dualScore X y (walk (fun _ => gdStep X y s.C lr) (α, b) i).1 (walk (fun _ => gdStep X y s.C lr) (α, b) i).2 (X j)) ∧
    HasV h' s'.y_hat (fun j => signOf (dualScore X y (walk (fun _ => gdStep X y s.C lr) (α, b) i).1 (walk (fun _ => gdStep X y s.C lr) (α, b) i).2 (X j))) ∧
    Rows k h s' (some (.v oi)) (some (.v oj)) h') ⟨I3, adv_hasv k3 (adv_hasv k2 z1), adv_hasv k3 (adv_hasv k2 p1), T⟩ ?_).mono
    fun s' h' ⟨J, z, p, _⟩ => ⟨J.ready, z, p, J.same, J.frame⟩
  rintro i s2 h4 ⟨I4, -, -, T4⟩
  exact gdBody_run I4 T4 lr

end DualSvc
end Verif
