import Verif.Lemmas.Elementwise
import Verif.Spec.Elementwise

/-! # The method shapes meet the element-wise specification -/

namespace Verif
open Spec
variable {R : Type}

/-- `mk` is one of the three classes. -/
class IsKind (mk : Nat → Loc) : Prop where
  like : ∀ i n, (mk i).like n = mk n
  id : ∀ i, (mk i).id = i
  sizes : ∀ (h : Heap R), h.WF → ∀ i j, (∀ k, mk i = .v k → (h.size (mk j)).y = 1 ∧ (h.size (mk j)).z = 1) ∧
    (∀ k, mk i = .m k → (h.size (mk j)).z = 1)

theorem kindV : IsKind (R := R) Loc.v := ⟨fun _ _ => rfl, fun _ => rfl, fun _ w _ j => ⟨fun _ _ => w.vec j, nofun⟩⟩
theorem kindM : IsKind (R := R) Loc.m := ⟨fun _ _ => rfl, fun _ => rfl, fun _ w _ j => ⟨nofun, fun _ _ => w.mat j⟩⟩
theorem kindT : IsKind (R := R) Loc.t := ⟨fun _ _ => rfl, fun _ => rfl, fun _ _ _ _ => ⟨nofun, nofun⟩⟩

theorem Updated.spec {h h' : Heap R} {o : Loc} {s : Size} {d : List R} (u : Updated h h' o s d) :
    OthersSame h h' o ∧ Holds h' o s d :=
  ⟨fun l hl => ⟨u.bufFrame l hl, u.sizeFrame l hl⟩, u.size, u.buf⟩

theorem Created.spec {h h' : Heap R} {o : Loc} {s : Size} {d : List R} (u : Created h h' o s d) :
    OthersSame h h' o ∧ Holds h' o s d :=
  ⟨fun l hl => ⟨u.bufFrame l hl, u.sizeFrame l hl⟩, u.size, u.buf⟩

section
variable {mk : Nat → Loc} (K : IsKind (R := R) mk)
include K

theorem bin_inPlace (f : R → R → R) (h : Heap R) (w : h.WF) (this b : Nat) (hs : h.size (mk this) = h.size (mk b)) :
    Runs (binIn f (mk this) (some (mk b))) h fun _ h' => h'.WF ∧ OthersSame h h' (mk this) ∧
      Holds h' (mk this) (h.size (mk this)) (List.zipWith f (h.buf (mk this)) (h.buf (mk b))) := by
  have u := updated_setBuf h (mk this) (List.zipWith f (h.buf (mk this)) (h.buf (mk b)))
  refine Runs.of_eq (binIn_run f _ _ h (w.len _) (w.len _) hs) ⟨u.wf w ?_ ?_ ?_, u.spec⟩
  · simp [w.len, ← hs]
  · exact fun k e => (K.sizes h w this this).1 k e
  · exact fun k e => (K.sizes h w this this).2 k e

theorem bin_new (f : R → R → R) (h : Heap R) (w : h.WF) (this b : Nat) (l1 : h.live (mk this)) (l2 : h.live (mk b))
    (hs : h.size (mk this) = h.size (mk b)) :
    Runs (binN f (mk this) (some (mk b))) h fun r h' => ∃ o, r = some (mk o) ∧ ¬ h.live (mk o) ∧ h'.WF ∧
      OthersSame h h' (mk o) ∧
      Holds h' (mk o) (h.size (mk this)) (List.zipWith f (h.buf (mk this)) (h.buf (mk b))) := by
  obtain ⟨h', e, c⟩ := binN_run f (mk this) (mk b) h (w.len _) (w.len _) hs l1 l2
  rw [K.like] at e c
  refine Runs.of_eq e ⟨h.next, rfl, by unfold Heap.live; rw [K.id]; omega, c.wf w ?_ ?_ ?_, c.spec⟩
  · simp [w.len, ← hs]
  · exact fun k e => (K.sizes h w h.next this).1 k e
  · exact fun k e => (K.sizes h w h.next this).2 k e

theorem bin_into (f : R → R → R) (h : Heap R) (w : h.WF) (this a b : Nat) (hs : h.size (mk a) = h.size (mk b)) :
    Runs (binB f (mk this) (some (mk a)) (some (mk b))) h fun _ h' => h'.WF ∧ OthersSame h h' (mk this) ∧
      Holds h' (mk this) (h.size (mk a)) (List.zipWith f (h.buf (mk a)) (h.buf (mk b))) := by
  obtain ⟨h', e, u⟩ := binB_run f (mk this) (mk a) (mk b) h (w.len _) (w.len _) (w.len _) hs
  refine Runs.of_eq e ⟨u.wf w ?_ ?_ ?_, u.spec⟩
  · simp [w.len, ← hs]
  · exact fun k e => (K.sizes h w this a).1 k e
  · exact fun k e => (K.sizes h w this a).2 k e

theorem bin_intoR (f : R → R → R) (h : Heap R) (w : h.WF) (this a b : Nat) (hs : h.size (mk a) = h.size (mk b)) :
    Runs (binBR f (mk this) (some (mk a)) (some (mk b))) h fun _ h' => h'.WF ∧ OthersSame h h' (mk this) ∧
      Holds h' (mk this) (h.size (mk a)) (List.zipWith f (h.buf (mk a)) (h.buf (mk b))) := by
  obtain ⟨h', e, u⟩ := binBR_run f (mk this) (mk a) (mk b) h (w.len _) (w.len _) (w.len _) hs
  refine Runs.of_eq e ⟨u.wf w ?_ ?_ ?_, u.spec⟩
  · simp [w.len, ← hs]
  · exact fun k e => (K.sizes h w this a).1 k e
  · exact fun k e => (K.sizes h w this a).2 k e

theorem elemBinary_mk (f : R → R → R) :
    ElemBinary mk f (fun this b => binIn f (mk this) (b.map mk)) (fun this b => binN f (mk this) (b.map mk))
      (fun this a b => binB f (mk this) (a.map mk) (b.map mk)) :=
  ⟨fun h w this b hs => bin_inPlace K f h w this b hs, fun h w this b l1 l2 hs => bin_new K f h w this b l1 l2 hs,
    fun h w this a b hs => bin_into K f h w this a b hs⟩

theorem elemBinaryR_mk (f : R → R → R) :
    ElemBinary mk f (fun this b => binIn f (mk this) (b.map mk)) (fun this b => binN f (mk this) (b.map mk))
      (fun this a b => binBR f (mk this) (a.map mk) (b.map mk)) :=
  ⟨fun h w this b hs => bin_inPlace K f h w this b hs, fun h w this b l1 l2 hs => bin_new K f h w this b l1 l2 hs,
    fun h w this a b hs => bin_intoR K f h w this a b hs⟩

omit K in
theorem rejectsBinary_mk (f : R → R → R) :
    RejectsBinary mk (fun this b => binIn f (mk this) (b.map mk)) (fun this b => binN f (mk this) (b.map mk))
      (fun this a b => binB f (mk this) (a.map mk) (b.map mk)) :=
  ⟨fun _ _ _ => ⟨rfl, rfl, rfl, rfl, rfl⟩, fun h _ _ hs => binIn_mismatch f _ _ h hs,
    fun h _ _ hs => binN_mismatch f _ _ h hs, fun h _ _ _ hs => binB_mismatch f _ _ _ h hs⟩

omit K in
theorem rejectsBinaryR_mk (f : R → R → R) :
    RejectsBinary mk (fun this b => binIn f (mk this) (b.map mk)) (fun this b => binN f (mk this) (b.map mk))
      (fun this a b => binBR f (mk this) (a.map mk) (b.map mk)) :=
  ⟨fun _ _ _ => ⟨rfl, rfl, rfl, rfl, rfl⟩, fun h _ _ hs => binIn_mismatch f _ _ h hs,
    fun h _ _ hs => binN_mismatch f _ _ h hs, fun h _ _ _ hs => binBR_mismatch f _ _ _ h hs⟩

theorem un_inPlace (f : R → R) (h : Heap R) (w : h.WF) (this : Nat) :
    Runs (unIn f (mk this)) h fun _ h' => h'.WF ∧ OthersSame h h' (mk this) ∧
      Holds h' (mk this) (h.size (mk this)) ((h.buf (mk this)).map f) := by
  have u := updated_setBuf h (mk this) ((h.buf (mk this)).map f)
  refine Runs.of_eq (unIn_run f _ h (w.len _)) ⟨u.wf w ?_ ?_ ?_, u.spec⟩
  · simp [w.len]
  · exact fun k e => (K.sizes h w this this).1 k e
  · exact fun k e => (K.sizes h w this this).2 k e

theorem un_new (f : R → R) (h : Heap R) (w : h.WF) (this : Nat) (l1 : h.live (mk this)) :
    Runs (unN f (mk this)) h fun r h' => ∃ o, r = some (mk o) ∧ ¬ h.live (mk o) ∧ h'.WF ∧
      OthersSame h h' (mk o) ∧ Holds h' (mk o) (h.size (mk this)) ((h.buf (mk this)).map f) := by
  obtain ⟨h', e, c⟩ := unN_run f (mk this) h (w.len _) l1
  rw [K.like] at e c
  refine Runs.of_eq e ⟨h.next, rfl, by unfold Heap.live; rw [K.id]; omega, c.wf w ?_ ?_ ?_, c.spec⟩
  · simp [w.len]
  · exact fun k e => (K.sizes h w h.next this).1 k e
  · exact fun k e => (K.sizes h w h.next this).2 k e

theorem un_into (f : R → R) (h : Heap R) (w : h.WF) (this a : Nat) :
    Runs (unB f (mk this) (some (mk a))) h fun _ h' => h'.WF ∧ OthersSame h h' (mk this) ∧
      Holds h' (mk this) (h.size (mk a)) ((h.buf (mk a)).map f) := by
  obtain ⟨h', e, u⟩ := unB_run f (mk this) (mk a) h (w.len _) (w.len _)
  refine Runs.of_eq e ⟨u.wf w ?_ ?_ ?_, u.spec⟩
  · simp [w.len]
  · exact fun k e => (K.sizes h w this a).1 k e
  · exact fun k e => (K.sizes h w this a).2 k e

theorem un_intoC (f : R → R) (h : Heap R) (w : h.WF) (this a : Nat) :
    Runs (unBC f (mk this) (some (mk a))) h fun _ h' => h'.WF ∧ OthersSame h h' (mk this) ∧
      Holds h' (mk this) (h.size (mk a)) ((h.buf (mk a)).map f) := by
  obtain ⟨h', e, u⟩ := unBC_run f (mk this) (mk a) h (w.len _) (w.len _)
  refine Runs.of_eq e ⟨u.wf w ?_ ?_ ?_, u.spec⟩
  · simp [w.len]
  · exact fun k e => (K.sizes h w this a).1 k e
  · exact fun k e => (K.sizes h w this a).2 k e

theorem elemUnary_mk (f : R → R) :
    ElemUnary mk f (fun this => unIn f (mk this)) (fun this => unN f (mk this))
      (fun this a => unB f (mk this) (a.map mk)) :=
  ⟨fun h w this => un_inPlace K f h w this, fun h w this l => un_new K f h w this l,
    fun h w this a => un_into K f h w this a⟩

theorem elemUnaryC_mk (f : R → R) :
    ElemUnary mk f (fun this => unIn f (mk this)) (fun this => unN f (mk this))
      (fun this a => unBC f (mk this) (a.map mk)) :=
  ⟨fun h w this => un_inPlace K f h w this, fun h w this l => un_new K f h w this l,
    fun h w this a => un_intoC K f h w this a⟩

theorem elemUnaryX_mk (f : R → R) :
    ElemUnary mk f (fun this => unIn f (mk this)) (fun this => unN f (mk this))
      (fun this a => unBX f (mk this) (a.map mk)) :=
  ⟨fun h w this => un_inPlace K f h w this, fun h w this l => un_new K f h w this l,
    fun h w this a => un_intoC K f h w this a⟩
end

end Verif
