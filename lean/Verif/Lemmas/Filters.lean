import Verif.Lemmas.Gradients
import Mathlib.LinearAlgebra.Matrix.Notation

/-! # The built-in filters -/

namespace Verif
open Spec SortArray Convolutions

theorem ofArray_run {h : Heap ℝ} (w : h.WF) (arr : List ℝ) (y x : Nat) :
    ReturnsMat (ofArray arr y x) h (Matrix.of fun (i : Fin y) (j : Fin x) => arr.getD (i.val * x + j.val) 0) := by
  unfold ofArray
  refine Runs.newM w fun h1 w1 k1 f1 l1 s1 => ?_
  generalize h.next = q at *
  refine Runs.resizeM w1 rfl fun h2 w2 k2 n2 s2 _ => ?_
  have k02 : Keeps h h2 (fun _ => False) := k1.newer k2 (by rintro l rfl; exact f1)
  have l2 := k2.live l1
  refine (Runs.forN (x * y) (fun k h' => h'.WF ∧ Keeps h2 h' (· = .m q) ∧ h'.size (.m q) = ⟨x, y, 1⟩ ∧
    ∀ t < k, (h'.buf (.m q))[t]? = some (arr.getD t 0)) _ h2 ⟨w2, Keeps.refl _ _, s2, by simp⟩ ?_).andThen ?_
  · rintro i h3 hi ⟨w3, k3, s3, e3⟩
    have hl : (h3.buf (.m q)).length = x * y := by rw [w3.len, s3, count_mat]
    have u := updated_setBuf h3 (.m q) ((h3.buf (.m q)).set i (arr.getD i 0))
    refine Runs.of_eq (store_ok _ (by rw [hl]; exact hi)) ⟨u.wf w3 (by rw [List.length_set, w3.len]) nofun (fun _ _ => by rw [s3]), k3.trans u.keeps,
      by rw [u.size]; exact s3, fun t ht => ?_⟩
    rw [u.buf, List.getElem?_set]
    by_cases e : i = t
    · subst e; rw [if_pos rfl, if_pos (by rw [hl]; exact hi)]
    · rw [if_neg e]; exact e3 t (by omega)
  · rintro _ h3 ⟨w3, k3, s3, e3⟩
    refine Runs.of_eq rfl ⟨q, rfl, f1, k3.live l2, w3, k02.newer k3 (by rintro l rfl; exact f1), s3, fun i j => ?_⟩
    rw [e3 _ ?_]; rfl
    have := i.2; have := j.2; nlinarith

end Verif
