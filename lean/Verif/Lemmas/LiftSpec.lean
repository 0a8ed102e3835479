import Verif.Lemmas.RowCells
import Verif.Spec.Lift

/-! # Element-wise functions on the contents of vectors and matrices -/

namespace Verif
open Spec SortArray
variable {R : Type} {m n : Nat}

theorem holds_isVec {h : Heap R} {o : Nat} {v : Fin n → R} {f : Nat → R} (H : Holds h (.v o) ⟨n, 1, 1⟩ (tab n f))
    (e : ∀ i, v i = f i) : IsVec h o v := VCells.isVec ⟨H.1, H.2⟩ e

theorem holds_isMat {h : Heap R} {o : Nat} {A : Matrix (Fin m) (Fin n) R} {F : Nat → Nat → R}
    (H : Holds h (.m o) ⟨n, m, 1⟩ (tab (n * m) (flat n F))) (e : ∀ i j, A i j = F i j) : IsMat h o A :=
  Cells.isMat ⟨H.1, H.2⟩ e

theorem Spec.Lifts.vec {f : R → R} {op : Ref → M R Ref} (l : Lifts Loc.v f op) {h : Heap R} (w : h.WF) {z : Nat}
    {v : Fin n → R} (hv : IsVec h z v) (lz : h.live (.v z)) : ReturnsVec (op (some (.v z))) h (fun i => f (v i)) := by
  obtain ⟨g, eg, cg⟩ := hv.cells w
  refine (l h w z lz).mono ?_
  rintro _ h' ⟨o, rfl, h1, h2, h3, h4, h5⟩
  refine ⟨o, rfl, h1, h2, h3, h4, ?_⟩
  rw [cg.1, cg.2, tab, List.map_map] at h5
  exact holds_isVec h5 fun i => by rw [eg]; rfl

theorem Spec.Lifts2.vec {f : R → R → R} {op : Ref → Ref → M R Ref} (l : Lifts2 Loc.v f op) {h : Heap R} (w : h.WF) {a b : Nat}
    {u v : Fin n → R} (hu : IsVec h a u) (hv : IsVec h b v) (la : h.live (.v a)) (lb : h.live (.v b)) :
    ReturnsVec (op (some (.v a)) (some (.v b))) h (fun i => f (u i) (v i)) := by
  obtain ⟨g, eg, cg⟩ := hu.cells w
  obtain ⟨k, ek, ck⟩ := hv.cells w
  refine (l h w a b la lb (by rw [cg.1, ck.1])).mono ?_
  rintro _ h' ⟨o, rfl, h1, h2, h3, h4, h5⟩
  refine ⟨o, rfl, h1, h2, h3, h4, ?_⟩
  rw [cg.1, cg.2, ck.2, tab, tab, List.zipWith_map, List.zipWith_self] at h5
  exact holds_isVec h5 fun i => by rw [eg, ek]

theorem Spec.Lifts.mat {f : R → R} {op : Ref → M R Ref} (l : Lifts Loc.m f op) {h : Heap R} (w : h.WF) {z : Nat}
    {A : Matrix (Fin m) (Fin n) R} (hv : IsMat h z A) (lz : h.live (.m z)) :
    ReturnsMat (op (some (.m z))) h (A.map f) := by
  obtain ⟨g, eg, cg⟩ := hv.cells w
  refine (l h w z lz).mono ?_
  rintro _ h' ⟨o, rfl, h1, h2, h3, h4, h5⟩
  refine ⟨o, rfl, h1, h2, h3, h4, ?_⟩
  rw [cg.1, cg.2, tab, List.map_map] at h5
  exact holds_isMat (F := fun i j => f (g i j)) h5 fun i j => by rw [Matrix.map_apply, eg]

theorem Spec.Lifts2.mat {f : R → R → R} {op : Ref → Ref → M R Ref} (l : Lifts2 Loc.m f op) {h : Heap R} (w : h.WF) {a b : Nat}
    {A B : Matrix (Fin m) (Fin n) R} (hu : IsMat h a A) (hv : IsMat h b B) (la : h.live (.m a)) (lb : h.live (.m b)) :
    ReturnsMat (op (some (.m a)) (some (.m b))) h (Matrix.of fun i j => f (A i j) (B i j)) := by
  obtain ⟨g, eg, cg⟩ := hu.cells w
  obtain ⟨k, ek, ck⟩ := hv.cells w
  refine (l h w a b la lb (by rw [cg.1, ck.1])).mono ?_
  rintro _ h' ⟨o, rfl, h1, h2, h3, h4, h5⟩
  refine ⟨o, rfl, h1, h2, h3, h4, ?_⟩
  rw [cg.1, cg.2, ck.2, tab, tab, List.zipWith_map, List.zipWith_self] at h5
  exact holds_isMat (F := fun i j => f (g i j) (k i j)) h5 fun i j => by rw [Matrix.of_apply, eg, ek]

end Verif
