import Verif.Lemmas.MatrixOps

/-! # What a call returns is determined -/

namespace Verif
open Spec
variable {R : Type} {m n p q : Nat}

theorem Spec.ReturnsMat.shape {c : M R Ref} {h : Heap R} {A : Matrix (Fin m) (Fin n) R} {B : Matrix (Fin p) (Fin q) R}
    (r1 : ReturnsMat c h A) (r2 : ReturnsMat c h B) : m = p ∧ n = q := by
  obtain ⟨_, _, e1, o1, rfl, _, _, _, _, q1⟩ := runs_iff.1 r1
  obtain ⟨_, _, e2, o2, rfl, _, _, _, _, q2⟩ := runs_iff.1 r2
  rw [e1] at e2
  obtain ⟨eo, rfl⟩ := Prod.mk.inj (Out.ok.inj e2)
  obtain rfl : o1 = o2 := by simpa using eo
  have := q1.1.symm.trans q2.1
  simp at this; exact ⟨this.2, this.1⟩

theorem Spec.ReturnsMat.unique {c : M R Ref} {h : Heap R} {A B : Matrix (Fin m) (Fin n) R}
    (r1 : ReturnsMat c h A) (r2 : ReturnsMat c h B) : A = B := by
  obtain ⟨_, _, e1, o1, rfl, _, _, _, _, q1⟩ := runs_iff.1 r1
  obtain ⟨_, _, e2, o2, rfl, _, _, _, _, q2⟩ := runs_iff.1 r2
  rw [e1] at e2
  obtain ⟨eo, rfl⟩ := Prod.mk.inj (Out.ok.inj e2)
  obtain rfl : o1 = o2 := by simpa using eo
  ext i j
  exact Option.some.inj ((q1.2 i j).symm.trans (q2.2 i j))

theorem Spec.ReturnsVec.unique {c : M R Ref} {h : Heap R} {u v : Fin n → R}
    (r1 : ReturnsVec c h u) (r2 : ReturnsVec c h v) : u = v := by
  obtain ⟨_, _, e1, o1, rfl, _, _, _, _, q1⟩ := runs_iff.1 r1
  obtain ⟨_, _, e2, o2, rfl, _, _, _, _, q2⟩ := runs_iff.1 r2
  rw [e1] at e2
  obtain ⟨eo, rfl⟩ := Prod.mk.inj (Out.ok.inj e2)
  obtain rfl : o1 = o2 := by simpa using eo
  ext i
  exact Option.some.inj ((q1.2 i).symm.trans (q2.2 i))

end Verif
