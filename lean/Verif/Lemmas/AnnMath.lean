import Verif.Lemmas.AnnBack
import Verif.Props.ActivationDeriv

/-! # The gradients of a network are those of its objective -/

namespace Verif
open Spec Finset

namespace Ann
variable {n k : Nat}

theorem sampleLoss_deriv {c : Cost.Kind} {p y : ℝ} (hs : lossSmooth c p y) : HasDerivAt (fun t => sampleLoss c t y) (lossDeriv c p y) p := by
  cases c with
  | mse =>
    refine HasDerivAt.congr_deriv ((((hasDerivAt_id p).sub_const y).pow 2).div_const 2) ?_
    simp [lossDeriv]
  | rmse => exact hs.elim
  | mae => exact hs.elim
  | mbe => exact (hasDerivAt_id p).sub_const y
  | logistic_loss =>
    obtain ⟨h0, h1⟩ := hs
    have d1 : HasDerivAt (fun t => Real.log t) (1 / p) p := (hasDerivAt_id p).log (by simp; linarith)
    have d2 : HasDerivAt (fun t => Real.log (1 - t)) (-1 / (1 - p)) p := ((hasDerivAt_id p).const_sub 1).log (by simp; linarith)
    refine HasDerivAt.congr_deriv ((d1.const_mul y).add (d2.const_mul (1 - y))).neg ?_
    have e : (p + -1) * -1 = 1 - p := by ring
    have : 1 - p ≠ 0 := by linarith
    simp only [lossDeriv]
    rw [e]
    field_simp
    ring
  | cross_entropy =>
    refine HasDerivAt.congr_deriv ((Real.hasDerivAt_log (show 0 < p from hs).ne').const_mul y).neg ?_
    simp only [lossDeriv]
    rw [div_eq_mul_inv]; ring
  | hinge_loss => exact hingeTerm_deriv fun e => hs (by linarith)
  | wasserstein_loss =>
    refine HasDerivAt.congr_deriv ((hasDerivAt_id p).mul_const y).neg ?_
    simp only [lossDeriv]
    ring

theorem penalty_deriv {r : Reg.Kind} {l al x : ℝ} (hs : penaltySmooth r x) :
    HasDerivAt (fun t => weightPenalty r l al t) (Reg.derivTerm l al r x) x := by
  cases r with
  | ridge =>
    refine HasDerivAt.congr_deriv (((hasDerivAt_id x).pow 2).const_mul (l / 2)) ?_
    simp [Reg.derivTerm]; ring
  | lasso => exact (abs_deriv hs).const_mul l
  | elastic_net =>
    refine HasDerivAt.congr_deriv ((((abs_deriv hs).const_mul al).add (((hasDerivAt_id x).pow 2).const_mul ((1 - al) / 2))).const_mul l) ?_
    simp [Reg.derivTerm]; ring
  | none => exact hasDerivAt_const x 0
  | weight_clipping => exact hs.elim

/-- The derivatives of the penalties. -/
noncomputable def regH : {k : Nat} → (us : List Lay) → Hiddens k us → Hiddens k us
  | _, [], _ => ()
  | _, u :: us, H => ((fun i j => Reg.derivTerm u.lambda u.alpha u.reg (H.1.1 i j), fun _ => 0), regH us H.2)

theorem line_deriv (a d : ℝ) : HasDerivAt (fun t => a + t * d) d 0 := by
  refine HasDerivAt.congr_deriv (((hasDerivAt_id (0 : ℝ)).mul_const d).const_add a) ?_
  simp

theorem penalties_deriv : ∀ (us : List Lay) {k : Nat} (H D : Hiddens k us), smoothPen us H →
    HasDerivAt (fun t => penalties us (moveH us H t D)) (innerH us (regH us H) D) 0
  | [], _, _, _, _ => hasDerivAt_const _ _
  | u :: us, k, H, D, hs => by
    have one : ∀ i j, HasDerivAt (fun t => weightPenalty u.reg u.lambda u.alpha (H.1.1 i j + t * D.1.1 i j))
        (Reg.derivTerm u.lambda u.alpha u.reg (H.1.1 i j) * D.1.1 i j) 0 := fun i j => by
      have a := penalty_deriv (l := u.lambda) (al := u.alpha) (hs.1 i j)
      exact HasDerivAt.comp (h₂ := fun t => weightPenalty u.reg u.lambda u.alpha t) (0 : ℝ) (by simpa using a) (line_deriv _ _)
    have := (HasDerivAt.fun_sum fun i (_ : i ∈ Finset.univ) => HasDerivAt.fun_sum fun j (_ : j ∈ Finset.univ) => one i j).add (penalties_deriv us H.2 D.2 hs.2)
    refine this.congr_deriv ?_
    show _ = ∑ i, ∑ j, Reg.derivTerm u.lambda u.alpha u.reg (H.1.1 i j) * D.1.1 i j + ∑ j, 0 * D.1.2 j + innerH us (regH us H.2) D.2
    simp

theorem works_act {u : Lay} (hu : u.Works) {m : Nat} (v : Fin m → ℝ) : applied u.act v = fun i => Activation.normReal u.act (v i) := by
  have := hu.1
  simp only [List.mem_cons, List.not_mem_nil, or_false, not_or] at this
  unfold applied
  split
  · exact absurd (by assumption) this.1
  · exact absurd (by assumption) this.2.1
  · rfl

theorem through_deriv : ∀ (us : List Lay) {k : Nat} (H D : Hiddens k us) (X X' : Matrix (Fin n) (Fin k) ℝ) (C : ℝ → Matrix (Fin n) (Fin k) ℝ),
    C 0 = X → (∀ i j, HasDerivAt (fun t => C t i j) (X' i j) 0) → (∀ i, smoothH us H (X i)) → (∀ u ∈ us, u.Works) →
    ∃ Y' : Matrix (Fin n) (Fin (width k us)) ℝ, (∀ i j, HasDerivAt (fun t => through us (moveH us H t D) (C t i) j) (Y' i j) 0) ∧
      ∀ S, ∑ i, ∑ j, S i j * Y' i j + innerH us (regH us H) D = ∑ i, ∑ j, backSig us H X S i j * X' i j + innerH us (gradsH us H X S) D
  | [], _, _, _, X, X', C, e0, hC, hs, hu => ⟨X', hC, fun S => rfl⟩
  | u :: us, k, H, D, X, X', C, e0, hC, hs, hu => by
    have U := hu u (by simp)
    have dz : ∀ i a, HasDerivAt (fun t => ∑ j, C t i j * (H.1.1 j a + t * D.1.1 j a) + (H.1.2 a + t * D.1.2 a))
        (∑ j, (X' i j * H.1.1 j a + X i j * D.1.1 j a) + D.1.2 a) 0 := fun i a => by
      refine HasDerivAt.add (HasDerivAt.fun_sum fun j _ => ?_) (line_deriv _ _)
      refine ((hC i j).mul (line_deriv (H.1.1 j a) (D.1.1 j a))).congr_deriv ?_
      rw [e0]; simp
    have da : ∀ i a, HasDerivAt (fun t => layerOut u.act (C t) (fun j a => H.1.1 j a + t * D.1.1 j a, fun a => H.1.2 a + t * D.1.2 a) i a)
        (Activation.ownDerivReal u.act (affine X H.1 i a) * (∑ j, (X' i j * H.1.1 j a + X i j * D.1.1 j a) + D.1.2 a)) 0 := fun i a => by
      have hn := U.1
      simp only [List.mem_cons, List.not_mem_nil, or_false, not_or] at hn
      have s1 := (hs i).1
      simp only [List.mem_cons, List.not_mem_nil, or_false, not_or] at s1
      have dr := C43_derivr_partial u.act (affine X H.1 i a) ((hs i).2.1 a) (by tauto) (by tauto) (by tauto) (by tauto)
      have := HasDerivAt.comp (h₂ := Activation.normReal u.act) (0 : ℝ) (by
        refine cast (congrArg _ ?_) dr
        show ∑ j, X i j * H.1.1 j a + H.1.2 a = ∑ j, C 0 i j * (H.1.1 j a + 0 * D.1.1 j a) + (H.1.2 a + 0 * D.1.2 a)
        rw [e0]; simp) (dz i a)
      refine this.congr_of_eventuallyEq (Filter.Eventually.of_forall fun t => ?_)
      show layerOut _ _ _ _ _ = _
      unfold layerOut
      rw [works_act U]
      rfl
    have e1 : layerOut u.act (C 0) (fun j a => H.1.1 j a + 0 * D.1.1 j a, fun a => H.1.2 a + 0 * D.1.2 a) = layerOut u.act X H.1 := by
      rw [e0]; simp
    obtain ⟨Y', hY, hp⟩ := through_deriv us H.2 D.2 (layerOut u.act X H.1) _
      (fun t => layerOut u.act (C t) (fun j a => H.1.1 j a + t * D.1.1 j a, fun a => H.1.2 a + t * D.1.2 a)) e1 da (fun i => (hs i).2.2)
      fun u' hu' => hu u' (by simp [hu'])
    refine ⟨Y', hY, fun S => ?_⟩
    have q := hp S
    show ∑ i, ∑ j, S i j * Y' i j + (∑ i, ∑ j, Reg.derivTerm u.lambda u.alpha u.reg (H.1.1 i j) * D.1.1 i j + ∑ j, 0 * D.1.2 j + innerH us (regH us H.2) D.2) =
      ∑ i, ∑ j, (∑ a, deltaOf u us H X S i a * H.1.1 j a) * X' i j +
      (∑ j, ∑ a, (∑ i, X i j * deltaOf u us H X S i a + Reg.derivTerm u.lambda u.alpha u.reg (H.1.1 j a)) * D.1.1 j a +
        ∑ a, (∑ i, deltaOf u us H X S i a) * D.1.2 a + innerH us (gradsH us H.2 (layerOut u.act X H.1) S) D.2)
    have r1 : ∑ i, ∑ a, backSig us H.2 (layerOut u.act X H.1) S i a *
        (Activation.ownDerivReal u.act (affine X H.1 i a) * (∑ j, (X' i j * H.1.1 j a + X i j * D.1.1 j a) + D.1.2 a)) =
        ∑ i, ∑ j, (∑ a, deltaOf u us H X S i a * H.1.1 j a) * X' i j + ∑ j, ∑ a, (∑ i, X i j * deltaOf u us H X S i a) * D.1.1 j a +
          ∑ a, (∑ i, deltaOf u us H X S i a) * D.1.2 a := by
      have t1 : ∑ i, ∑ j, (∑ a, deltaOf u us H X S i a * H.1.1 j a) * X' i j = ∑ i, ∑ a, ∑ j, deltaOf u us H X S i a * (X' i j * H.1.1 j a) := by
        refine Finset.sum_congr rfl fun i _ => ?_
        simp only [Finset.sum_mul]
        rw [Finset.sum_comm]
        exact Finset.sum_congr rfl fun a _ => Finset.sum_congr rfl fun j _ => by ring
      have t2 : ∑ j, ∑ a, (∑ i, X i j * deltaOf u us H X S i a) * D.1.1 j a = ∑ i, ∑ a, ∑ j, deltaOf u us H X S i a * (X i j * D.1.1 j a) := by
        simp only [Finset.sum_mul]
        rw [Finset.sum_comm]
        simp only [Finset.sum_comm (s := (Finset.univ : Finset (Fin k)))]
        rw [Finset.sum_comm]
        exact Finset.sum_congr rfl fun i _ => Finset.sum_congr rfl fun a _ => Finset.sum_congr rfl fun j _ => by ring
      have t3 : ∑ a, (∑ i, deltaOf u us H X S i a) * D.1.2 a = ∑ i, ∑ a, deltaOf u us H X S i a * D.1.2 a := by
        simp only [Finset.sum_mul]
        rw [Finset.sum_comm]
      rw [t1, t2, t3, ← Finset.sum_add_distrib, ← Finset.sum_add_distrib]
      refine Finset.sum_congr rfl fun i _ => ?_
      rw [← Finset.sum_add_distrib, ← Finset.sum_add_distrib]
      refine Finset.sum_congr rfl fun a _ => ?_
      rw [← Finset.sum_add_distrib, ← mul_assoc]
      show deltaOf u us H X S i a * _ = _
      rw [mul_add, Finset.mul_sum]
      congr 1
      exact Finset.sum_congr rfl fun j _ => by ring
    rw [r1] at q
    simp only [add_mul, Finset.sum_add_distrib, zero_mul, Finset.sum_const_zero] at q ⊢
    linarith

theorem objective_gradient {o : Top} {us : List Lay} {X : Matrix (Fin n) (Fin k) ℝ} {y : Fin n → ℝ} {N : Net k us} (hs : SmoothNet o us X y N)
    (hu : ∀ u ∈ us, u.Works) (ho : o.Works) : NetGradient us (objective o us X y) N (grads o us X y N) := by
  intro D
  obtain ⟨s1, s2, s3, s4⟩ := hs
  obtain ⟨Y', hY, hp⟩ := through_deriv us N.1 D.1 X 0 (fun _ => X) rfl (fun i j => hasDerivAt_const _ _) (fun i => (s1 i).1) hu
  have m0 : ∀ (us : List Lay) {k : Nat} (H D : Hiddens k us), moveH us H 0 D = H := by
    intro us
    induction us with
    | nil => intros; rfl
    | cons u us ih => intro k H D; simp [moveH, ih]
  have ho' := ho.1
  simp only [List.mem_cons, List.not_mem_nil, or_false, not_or] at ho' s2
  have dz : ∀ i, HasDerivAt (fun t => ∑ j, through us (moveH us N.1 t D.1) (X i) j * (N.2.1 j + t * D.2.1 j) + (N.2.2 + t * D.2.2))
      (∑ j, (Y' i j * N.2.1 j + through us N.1 (X i) j * D.2.1 j) + D.2.2) 0 := fun i => by
    refine HasDerivAt.add (HasDerivAt.fun_sum fun j _ => ?_) (line_deriv _ _)
    refine ((hY i j).mul (line_deriv (N.2.1 j) (D.2.1 j))).congr_deriv ?_
    rw [m0]; simp
  have z0 : ∀ i, ∑ j, through us N.1 (X i) j * N.2.1 j + N.2.2 = ∑ j, through us (moveH us N.1 0 D.1) (X i) j * (N.2.1 j + 0 * D.2.1 j) + (N.2.2 + 0 * D.2.2) :=
    fun i => by rw [m0]; simp
  have dl : ∀ i, HasDerivAt (fun t => sampleLoss o.cost (netAt o us (move us N t D) (X i)) (y i))
      (topDelta o us X y N i * (∑ j, (Y' i j * N.2.1 j + through us N.1 (X i) j * D.2.1 j) + D.2.2)) 0 := fun i => by
    obtain ⟨-, a2, a3, a4⟩ := s1 i
    have dr := C43_derivr_partial o.act _ a2 (by tauto) (by tauto) (by tauto) a3
    have dr' : HasDerivAt (Activation.normReal o.act) (Activation.ownDerivReal o.act (∑ j, through us N.1 (X i) j * N.2.1 j + N.2.2))
        (∑ j, through us (moveH us N.1 0 D.1) (X i) j * (N.2.1 j + 0 * D.2.1 j) + (N.2.2 + 0 * D.2.2)) := z0 i ▸ dr
    have d1 : HasDerivAt (fun t => netAt o us (move us N t D) (X i)) _ 0 := HasDerivAt.comp (h₂ := Activation.normReal o.act) (0 : ℝ) dr' (dz i)
    have e1 : netAt o us (move us N 0 D) (X i) = netAt o us N (X i) := congrArg (Activation.normReal o.act) (z0 i).symm
    have := HasDerivAt.comp (h₂ := fun t => sampleLoss o.cost t (y i)) (0 : ℝ) (by rw [e1]; exact sampleLoss_deriv a4) d1
    refine this.congr_deriv ?_
    unfold topDelta
    ring
  have dp : ∀ j, HasDerivAt (fun t => weightPenalty o.reg o.lambda o.alpha (N.2.1 j + t * D.2.1 j))
      (Reg.derivTerm o.lambda o.alpha o.reg (N.2.1 j) * D.2.1 j) 0 := fun j => by
    have a := penalty_deriv (l := o.lambda) (al := o.alpha) (s4 j)
    exact HasDerivAt.comp (h₂ := fun t => weightPenalty o.reg o.lambda o.alpha t) (0 : ℝ) (by simpa using a) (line_deriv _ _)
  have := ((HasDerivAt.fun_sum fun i (_ : i ∈ Finset.univ) => dl i).add (penalties_deriv us N.1 D.1 s3)).add
    (HasDerivAt.fun_sum fun j (_ : j ∈ Finset.univ) => dp j)
  refine this.congr_deriv ?_
  have q := hp fun i j => topDelta o us X y N i * N.2.1 j
  simp only [Matrix.zero_apply, mul_zero, Finset.sum_const_zero, zero_add] at q
  show _ = innerH us (gradsH us N.1 X fun i j => topDelta o us X y N i * N.2.1 j) D.1 +
    (∑ j, (∑ i, through us N.1 (X i) j * topDelta o us X y N i + Reg.derivTerm o.lambda o.alpha o.reg (N.2.1 j)) * D.2.1 j +
      (∑ i, topDelta o us X y N i) * D.2.2)
  rw [← q]
  have t1 : ∑ i, topDelta o us X y N i * (∑ j, (Y' i j * N.2.1 j + through us N.1 (X i) j * D.2.1 j) + D.2.2) =
      ∑ i, ∑ j, topDelta o us X y N i * N.2.1 j * Y' i j + ∑ j, (∑ i, through us N.1 (X i) j * topDelta o us X y N i) * D.2.1 j +
        (∑ i, topDelta o us X y N i) * D.2.2 := by
    have t2 : ∑ j, (∑ i, through us N.1 (X i) j * topDelta o us X y N i) * D.2.1 j = ∑ i, ∑ j, topDelta o us X y N i * (through us N.1 (X i) j * D.2.1 j) := by
      simp only [Finset.sum_mul]
      rw [Finset.sum_comm]
      exact Finset.sum_congr rfl fun i _ => Finset.sum_congr rfl fun j _ => by ring
    rw [t2, Finset.sum_mul, ← Finset.sum_add_distrib, ← Finset.sum_add_distrib]
    refine Finset.sum_congr rfl fun i _ => ?_
    rw [← Finset.sum_add_distrib, mul_add, Finset.mul_sum]
    congr 1
    exact Finset.sum_congr rfl fun j _ => by ring
  rw [t1]
  simp only [add_mul, Finset.sum_add_distrib]
  ring

end Ann
end Verif
