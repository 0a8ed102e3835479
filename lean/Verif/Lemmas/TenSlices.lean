import Verif.Lemmas.Handle
import Verif.Lemmas.SliceApi
import Verif.Props.TensorOps

/-! # z slices of tensors, cell by cell -/

namespace Verif
open Spec
variable {R : Type} {d r c : Nat}

theorem Spec.IsTen.keep {h h' : Heap R} {o : Nat} {T : Fin d → Fin r → Fin c → R} (a : IsTen h o T) {S : Loc → Prop} (k : Keeps h h' S)
    (l : h.live (.t o)) (hS : ¬ S (.t o)) : IsTen h' o T := a.ofEq (k.2 _ l hS).1 (k.2 _ l hS).2

theorem ten_bound (z : Fin d) : c * r * z.val + c * r ≤ c * r * d := by
  have := Nat.mul_le_mul_left (c * r) z.2
  rw [Nat.mul_succ] at this; exact this

theorem cell_bound (y : Fin r) (x : Fin c) : y.val * c + x.val < c * r := by
  have h1 := Nat.mul_le_mul_right c y.2
  have := x.2
  rw [Nat.succ_mul, Nat.mul_comm r c] at h1
  omega

theorem Spec.IsTen.len {h : Heap R} (w : h.WF) {o : Nat} {T : Fin d → Fin r → Fin c → R} (a : IsTen h o T) :
    (h.buf (.t o)).length = c * r * d := by rw [w.len, a.1]; rfl

theorem Spec.IsMat.len {h : Heap R} (w : h.WF) {o : Nat} {A : Matrix (Fin r) (Fin c) R} (a : IsMat h o A) :
    (h.buf (.m o)).length = c * r := by rw [w.len, a.1, count_mat]

theorem Ten.z_slice_get_into_spec {h : Heap R} (w : h.WF) {o m : Nat} {T : Fin d → Fin r → Fin c → R} (a : IsTen h o T) (z : Fin d) :
    Runs (Ten.z_slice_get_into_mlpp_matrix o (z.val : Int) (some m)) h fun _ h' => h'.WF ∧ Keeps h h' (· = .m m) ∧ h'.next = h.next ∧
      IsMat h' m (T z : Matrix (Fin r) (Fin c) R) := by
  unfold Ten.z_slice_get_into_mlpp_matrix
  refine Runs.step (Ten.size_run o h) ?_
  rw [a.1]
  dsimp only
  rw [if_pos (idxOk_nat z.2), Int.toNat_natCast]
  refine Runs.step (derefM_run m h) ?_
  obtain ⟨h', e, u⟩ := Ten.into_run w o (c * r * z.val) (c * r) (.m m) ⟨c, r, 1⟩ nofun (by rw [a.len w]; exact ten_bound z)
    (by rw [count_mat])
  refine Runs.of_eq e ⟨u.wf w ?_ nofun (fun _ _ => rfl), u.keeps, u.next, u.size, fun y x => ?_⟩
  · rw [List.length_take, List.length_drop, a.len w, count_mat]
    have := ten_bound (c := c) (r := r) z; omega
  · have := cell_bound y x
    rw [u.buf, List.getElem?_take, if_pos this, List.getElem?_drop, ← a.2 z y x]
    congr 1; omega

theorem Ten.z_slice_set_spec {h : Heap R} (w : h.WF) {o m : Nat} {T : Fin d → Fin r → Fin c → R} (a : IsTen h o T) (z : Fin d)
    {B : Fin r → Fin c → R} (b : IsMat h m (Matrix.of B)) :
    Runs (Ten.z_slice_set_mlpp_matrix o (z.val : Int) (some m)) h fun _ h' => h'.WF ∧ Keeps h h' (· = .t o) ∧ h'.next = h.next ∧
      IsTen h' o (fun z' => if z' = z then B else T z') := by
  unfold Ten.z_slice_set_mlpp_matrix
  refine Runs.step (Ten.size_run o h) ?_
  rw [a.1]
  dsimp only
  rw [if_pos (idxOk_nat z.2), Int.toNat_natCast]
  refine Runs.step (Mat.size_run m h) ?_
  rw [b.1, if_pos ⟨rfl, rfl⟩]
  have hb := ten_bound (c := c) (r := r) z
  have e := Ten.copyIn_run o (c * r * z.val) (c * r) (.m m) h nofun (by rw [a.len w]; exact hb) (b.len w)
  have u := updated_setBuf h (.t o) (overwrite (h.buf (.t o)) (c * r * z.val) (h.buf (.m m)))
  have hl : (overwrite (h.buf (.t o)) (c * r * z.val) (h.buf (.m m))).length = c * r * d := by
    rw [length_overwrite _ _ _ (by rw [b.len w, a.len w]; exact hb), a.len w]
  refine Runs.of_eq e ⟨u.wf w (by rw [hl, ← a.len w, w.len]) nofun nofun, u.keeps, rfl, by rw [u.size]; exact a.1, fun z' y x => ?_⟩
  have hc := cell_bound y x
  rw [u.buf]
  unfold overwrite
  beta_reduce
  by_cases hz : z' = z
  · subst hz
    rw [if_pos rfl, show B y x = (Matrix.of B) y x from rfl, List.getElem?_append_right (by rw [List.length_take]; omega), List.getElem?_append_left (by
      rw [List.length_take, b.len w, a.len w]; omega), ← b.2 y x]
    congr 1
    rw [List.length_take, a.len w]; omega
  · rw [if_neg hz, ← a.2 z' y x]
    have hz' : z'.val ≠ z.val := fun h => hz (Fin.ext h)
    rcases lt_or_gt_of_ne hz' with g | g
    · have := Nat.mul_le_mul_left (c * r) g
      rw [Nat.mul_succ] at this
      rw [List.getElem?_append_left (by rw [List.length_take, a.len w]; omega), List.getElem?_take, if_pos (by omega)]
    · have := Nat.mul_le_mul_left (c * r) g
      rw [Nat.mul_succ] at this
      rw [List.getElem?_append_right (by rw [List.length_take, a.len w]; omega), List.getElem?_append_right (by
        rw [List.length_take, a.len w, b.len w]; omega), List.getElem?_drop]
      congr 1
      rw [List.length_take, a.len w, b.len w]; omega

end Verif
