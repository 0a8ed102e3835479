import Verif.Spec.Gan
import Verif.Lemmas.AnnTrain

/-! # The gradient of the objective of a generator -/

namespace Verif
open Spec hiding Same
open Finset

namespace Adversarial
open Ann
variable {n k : Nat}

/-- No change. -/
noncomputable def zeroH : {k : Nat} → (us : List Lay) → Hiddens k us
  | _, [] => ()
  | _, _ :: us => ((fun _ _ => 0, fun _ => 0), zeroH us)

theorem move_zero : ∀ (us : List Lay) {k : Nat} (H : Hiddens k us) (t : ℝ), moveH us H t (zeroH us) = H
  | [], _, _, _ => rfl
  | u :: us, _, H, t => by simp [moveH, zeroH, move_zero us H.2 t]

theorem inner_zero : ∀ (us : List Lay) {k : Nat} (G : Hiddens k us), innerH us G (zeroH us) = 0
  | [], _, _ => rfl
  | u :: us, _, G => by simp [innerH, zeroH, inner_zero us G.2]

theorem move_start : ∀ (us : List Lay) {k : Nat} (H D : Hiddens k us), moveH us H 0 D = H
  | [], _, _, _ => rfl
  | u :: us, _, H, D => by simp [moveH, move_start us H.2 D.2]

variable {o : Top} {gs ds : List Lay} {G : Hiddens k gs} {D : Net (width k gs) ds} {Z : Matrix (Fin n) (Fin k) ℝ}

/-- The derivatives with respect to the generated samples. -/
noncomputable def fooled (o : Top) (gs ds : List Lay) (D : Net (width k gs) ds) (Z : Matrix (Fin n) (Fin k) ℝ) (G : Hiddens k gs) :
    Matrix (Fin n) (Fin (width k gs)) ℝ :=
  backSig ds D.1 (made gs G Z) fun i j => topDelta o ds (made gs G Z) (fun _ => 1) D i * D.2.1 j

theorem deceit_gradient (hs : SmoothDuo o gs ds D Z G) (hg : ∀ u ∈ gs, u.Works) (hd : ∀ u ∈ ds, u.Works) (ho : o.Works) (V : Hiddens k gs) :
    HasDerivAt (fun t => deceit o gs ds D Z (moveH gs G t V)) (innerH gs (gradsH gs G Z (fooled o gs ds D Z G)) V) 0 := by
  obtain ⟨sg, ⟨s1, s2, s3, s4⟩, sp⟩ := hs
  obtain ⟨Y', hY, hp⟩ := through_deriv gs G V Z 0 (fun _ => Z) rfl (fun i j => hasDerivAt_const _ _) sg hg
  obtain ⟨W', hW, hq⟩ := through_deriv ds D.1 (zeroH ds) (made gs G Z) Y' (fun t => made gs (moveH gs G t V) Z) (by rw [move_start]) hY
    (fun i => (s1 i).1) hd
  simp only [move_zero] at hW
  simp only [inner_zero, add_zero] at hq
  have ho' := ho.1
  simp only [List.mem_cons, List.not_mem_nil, or_false, not_or] at ho' s2
  have dz : ∀ i, HasDerivAt (fun t => ∑ j, through ds D.1 (made gs (moveH gs G t V) Z i) j * D.2.1 j + D.2.2) (∑ j, W' i j * D.2.1 j) 0 := fun i =>
    (HasDerivAt.fun_sum fun j _ => (hW i j).mul_const (D.2.1 j)).add_const _
  have z0 : ∀ i, made gs (moveH gs G 0 V) Z i = made gs G Z i := fun i => by rw [move_start]
  have dl : ∀ i, HasDerivAt (fun t => sampleLoss o.cost (netAt o ds D (made gs (moveH gs G t V) Z i)) 1)
      (topDelta o ds (made gs G Z) (fun _ => 1) D i * ∑ j, W' i j * D.2.1 j) 0 := fun i => by
    obtain ⟨-, a2, a3, a4⟩ := s1 i
    have dr := C43_derivr_partial o.act _ a2 (by tauto) (by tauto) (by tauto) a3
    have d1 : HasDerivAt (fun t => netAt o ds D (made gs (moveH gs G t V) Z i)) _ 0 :=
      HasDerivAt.comp (h₂ := Activation.normReal o.act) (0 : ℝ) (by rw [z0 i]; exact dr) (dz i)
    have := HasDerivAt.comp (h₂ := fun t => sampleLoss o.cost t 1) (0 : ℝ) (by rw [z0 i]; exact sampleLoss_deriv a4) d1
    refine this.congr_deriv ?_
    unfold topDelta
    ring
  have := (HasDerivAt.fun_sum fun i (_ : i ∈ Finset.univ) => dl i).add (penalties_deriv gs G V sp)
  refine this.congr_deriv ?_
  have q1 := hp (fooled o gs ds D Z G)
  have q2 := hq fun i j => topDelta o ds (made gs G Z) (fun _ => 1) D i * D.2.1 j
  simp only [Matrix.zero_apply, mul_zero, Finset.sum_const_zero, zero_add] at q1
  rw [← q1]
  unfold fooled
  rw [← q2]
  congr 1
  refine Finset.sum_congr rfl fun i _ => ?_
  rw [Finset.mul_sum]
  exact Finset.sum_congr rfl fun j _ => by ring

end Adversarial
end Verif
