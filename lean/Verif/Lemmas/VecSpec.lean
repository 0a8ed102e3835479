import Verif.Props.NumApprox
import Verif.Props.OneHot
import Verif.Model.Vector

/-! # Element-wise vector methods, in terms of `Fin n → R` -/

namespace Verif.Vec
open Spec SortArray
variable {R : Type} {n : Nat} {h : Heap R}

theorem un_spec (f : R → R) (w : h.WF) {a : Nat} {u : Fin n → R} (hu : IsVec h a u) (la : h.live (.v a)) :
    ReturnsVec (unN f (.v a)) h (fun i => f (u i)) := by
  obtain ⟨F, eF, cu⟩ := hu.cells w
  obtain ⟨h', e, c⟩ := unN_run f (.v a) h (w.len _) la
  rw [cu.1, cu.2, show (tab n F).map f = tab n (fun i => f (F i)) by simp [tab]] at c
  exact created_returnsVec w e c (fun i => by rw [eF])

theorem bin_spec (f : R → R → R) (w : h.WF) {a b : Nat} {u v : Fin n → R} (hu : IsVec h a u) (hv : IsVec h b v) (la : h.live (.v a))
    (lb : h.live (.v b)) : ReturnsVec (binN f (.v a) (some (.v b))) h (fun i => f (u i) (v i)) := by
  obtain ⟨F, eF, cu⟩ := hu.cells w
  obtain ⟨G, eG, cv⟩ := hv.cells w
  obtain ⟨h', e, c⟩ := binN_run f (.v a) (.v b) h (w.len _) (w.len _) (by rw [cu.1, cv.1]) la lb
  rw [cu.1, cu.2, cv.2, show List.zipWith f (tab n F) (tab n G) = tab n (fun i => f (F i) (G i)) by
    apply List.ext_getElem <;> simp [tab]] at c
  exact created_returnsVec w e c (fun i => by rw [eF, eG])

theorem unIn_spec (f : R → R) (w : h.WF) {a : Nat} {u : Fin n → R} (hu : IsVec h a u) :
    SetsVec (unIn f (.v a)) h a (fun i => f (u i)) := by
  obtain ⟨F, eF, cu⟩ := hu.cells w
  have e := unIn_run f (.v a) h (w.len _)
  have up := updated_setBuf h (.v a) ((h.buf (.v a)).map f)
  rw [cu.1, cu.2, show (tab n F).map f = tab n (fun i => f (F i)) by simp [tab]] at up
  rw [cu.2, show (tab n F).map f = tab n (fun i => f (F i)) by simp [tab]] at e
  exact updated_setsVec w e up (fun i => by rw [eF])

theorem binIn_spec (f : R → R → R) (w : h.WF) {a b : Nat} {u v : Fin n → R} (hu : IsVec h a u) (hv : IsVec h b v) :
    SetsVec (binIn f (.v a) (some (.v b))) h a (fun i => f (u i) (v i)) := by
  obtain ⟨F, eF, cu⟩ := hu.cells w
  obtain ⟨G, eG, cv⟩ := hv.cells w
  have ez : List.zipWith f (tab n F) (tab n G) = tab n (fun i => f (F i) (G i)) := by apply List.ext_getElem <;> simp [tab]
  have e := binIn_run f (.v a) (.v b) h (w.len _) (w.len _) (by rw [cu.1, cv.1])
  have up := updated_setBuf h (.v a) (List.zipWith f (h.buf (.v a)) (h.buf (.v b)))
  rw [cu.1, cu.2, cv.2, ez] at up
  rw [cu.2, cv.2, ez] at e
  exact updated_setsVec w e up (fun i => by rw [eF, eG])

end Verif.Vec
