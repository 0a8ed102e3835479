import Verif.Lemmas.New

/-! # Uninitialised matrices -/

namespace Verif
open Spec
/-- A new matrix of a given size: its cells are whatever the memory contained. -/
theorem Runs.newJunk {R β : Type} {h : Heap R} (w : h.WF) {c r : Nat} {k : Loc → M R β} {Q : β → Heap R → Prop}
    (hk : ∀ h1 : Heap R, h1.WF → Keeps h h1 (fun _ => False) → ¬ h.live (.m h.next) → h1.live (.m h.next) →
      Cells h1 (.m h.next) c r (fun i j => h.junk h.clock (i * c + j)) → Runs (k (.m h.next)) h1 Q) :
    Runs (Verif.newMat >>= fun o => resizeTo o ⟨c, r, 1⟩ >>= fun _ => k o) h Q := by
  have hflat : (List.range (c * r)).map (h.junk h.clock) = SortArray.tab (c * r) (flat c fun i j => h.junk h.clock (i * c + j)) := by
    unfold SortArray.tab flat
    refine List.map_congr_left fun i _ => ?_
    beta_reduce
    rw [Nat.mul_comm (i / c) c, Nat.div_add_mod]
  have key : ∃ (d : List R) (cl : Nat), (Verif.newMat >>= fun o => resizeTo o ⟨c, r, 1⟩ >>= fun _ => k o) h =
      k (.m h.next) { (h.setSize (.m h.next) ⟨c, r, 1⟩).setBuf (.m h.next) d with clock := cl, next := h.next + 1 } ∧
      d = (List.range (c * r)).map (h.junk h.clock) := by
    rw [bind_ok (show Verif.newMat h = .ok (.m h.next, _) from rfl)]
    unfold resizeTo
    by_cases e : c * r = 0
    · refine ⟨[], h.clock, ?_, by simp [e]⟩
      simp only [bind_assoc]
      rw [bind_ok (putSize_run _ _ _)]
      rw [if_pos (by rw [count_mat]; exact e)]
      rw [bind_ok (show memfree _ _ = .ok ((), _) from rfl)]
      congr 1
      simp only [Heap.setBuf, Heap.setSize]
      congr 1 <;> (funext l; by_cases e : l = Loc.m h.next <;> simp [e])
    · refine ⟨_, h.clock + 1, ?_, rfl⟩
      simp only [bind_assoc]
      rw [bind_ok (putSize_run _ _ _)]
      rw [if_neg (by rw [count_mat]; exact e)]
      rw [bind_ok (memrealloc_run _ _ _)]
      congr 1
      simp only [Heap.setBuf, Heap.setSize, count_mat]
      congr 1
      · funext l
        by_cases e : l = Loc.m h.next <;> simp [e, growTo]
      · funext l; by_cases e : l = Loc.m h.next <;> simp [e]
  obtain ⟨d, cl, e, hd⟩ := key
  unfold Runs
  rw [e]
  have cr : Created h { (h.setSize (.m h.next) ⟨c, r, 1⟩).setBuf (.m h.next) d with clock := cl, next := h.next + 1 } (.m h.next) ⟨c, r, 1⟩ d :=
    ⟨rfl, by simp, by simp, fun l hl => by simp [setBuf_buf, hl], fun l hl => by simp [setSize_size, hl], rfl, rfl⟩
  exact hk _ (cr.wf w (by rw [hd, count_mat]; simp) nofun (fun _ _ => rfl)) (cr.keeps _) (Nat.lt_irrefl _) (Nat.lt_succ_self _)
    ⟨cr.size, by rw [cr.buf, hd, hflat]⟩

end Verif
