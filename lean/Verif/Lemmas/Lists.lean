import Verif.Model.LinAlgMatrix
import Verif.Spec.Lift
import Verif.Lemmas.Lift
import Verif.Lemmas.Advance

/-! # Functions on lists of matrices -/

namespace Verif
open Spec LinAlg
variable {R : Type}

theorem Spec.ReturnsList.nil {α : Type} {h : Heap R} (w : h.WF) {g : α → Size × List R} :
    ReturnsList (pure [] : M R (List Ref)) h [] g :=
  ⟨[], rfl, List.nodup_nil, w, Keeps.refl _ _, List.Forall₂.nil⟩

theorem Spec.ReturnsList.cons {α : Type} {h : Heap R} {z : α} {l : List α} {g : α → Size × List R} {x : M R Ref} {xs : M R (List Ref)}
    (a : ReturnsNew Loc.m x h (g z).1 (g z).2)
    (b : ∀ h1 : Heap R, h1.WF → Keeps h h1 (fun _ => False) → ReturnsList xs h1 l g) :
    ReturnsList (do let r ← x; let rs ← xs; pure (r :: rs)) h (z :: l) g := by
  refine Runs.bind (Runs.mono a ?_)
  rintro _ h1 ⟨o, rfl, f1, l1, w1, k1, H1⟩
  refine Runs.bind (Runs.mono (b h1 w1 k1) ?_)
  rintro _ h2 ⟨os, rfl, nd, w2, k2, fa⟩
  have hmem : ∀ o' ∈ os, ¬ h1.live (.m o') ∧ h2.live (.m o') := by
    intro o' ho
    have : ∀ (l : List α) (os : List Nat), List.Forall₂ (fun z o => ¬ h1.live (.m o) ∧ h2.live (.m o) ∧ Holds h2 (.m o) (g z).1 (g z).2) l os →
        o' ∈ os → ¬ h1.live (.m o') ∧ h2.live (.m o') := by
      intro l os fa
      induction fa with
      | nil => intro h; simp at h
      | cons q _ ih =>
        intro h
        rcases List.mem_cons.mp h with rfl | h
        · exact ⟨q.1, q.2.1⟩
        · exact ih h
    exact this l os fa ho
  refine ⟨o :: os, rfl, List.nodup_cons.mpr ⟨fun ho => (hmem o ho).1 l1, nd⟩, w2, k1.trans k2, List.Forall₂.cons ⟨f1, k2.live l1, ?_⟩ ?_⟩
  · exact ⟨by rw [(k2.2 _ l1 id).2]; exact H1.1, by rw [(k2.2 _ l1 id).1]; exact H1.2⟩
  · exact fa.imp fun z o q => ⟨fun hl => q.1 (k1.live hl), q.2⟩

theorem ReturnsList.congr {α : Type} {h : Heap R} {l : List α} {g g' : α → Size × List R} {x : M R (List Ref)}
    (a : ReturnsList x h l g) (e : ∀ z ∈ l, g z = g' z) : ReturnsList x h l g' := by
  refine Runs.mono a ?_
  rintro _ h2 ⟨os, rfl, nd, w2, k2, fa⟩
  refine ⟨os, rfl, nd, w2, k2, ?_⟩
  clear a nd
  induction fa with
  | nil => exact List.Forall₂.nil
  | cons q _ ih => exact List.Forall₂.cons (by rw [← e _ (by simp)]; exact q) (ih fun z hz => e z (by simp [hz]))

theorem mapL_maps {f : R → R} {op : Ref → M R Ref} (l : Lifts Loc.m f op) : MapsList f (mapL op) := by
  intro h w zs
  induction zs generalizing h with
  | nil => intro _; exact ReturnsList.nil w
  | cons z zs ih =>
    intro hl
    refine ReturnsList.cons (z := z) (g := fun z => (h.size (.m z), (h.buf (.m z)).map f)) (l h w z (hl z (by simp))) ?_
    intro h1 w1 k1
    refine ReturnsList.congr (ih h1 w1 fun z hz => k1.live (hl z (by simp [hz]))) fun z' hz => ?_
    have q := k1.2 (.m z') (hl z' (by simp [hz])) id
    rw [q.1, q.2]

theorem zipL_maps {f : R → R → R} {op : Ref → Ref → M R Ref} (l : Lifts2 Loc.m f op) : MapsList2 f (zipL op) := by
  intro h w zs
  induction zs generalizing h with
  | nil => intro _; exact ReturnsList.nil w
  | cons z zs ih =>
    intro hl
    obtain ⟨l1, l2, e⟩ := hl z (by simp)
    refine ReturnsList.cons (z := z) (g := fun z => (h.size (.m z.1), List.zipWith f (h.buf (.m z.1)) (h.buf (.m z.2))))
      (l h w z.1 z.2 l1 l2 e) ?_
    intro h1 w1 k1
    have q := fun l hl => k1.2 l hl id
    refine ReturnsList.congr (ih h1 w1 fun z hz => ?_) fun z' hz => ?_
    · obtain ⟨l1, l2, e⟩ := hl z (by simp [hz])
      exact ⟨k1.live l1, k1.live l2, by rw [(q _ l1).2, (q _ l2).2, e]⟩
    · obtain ⟨l1, l2, e⟩ := hl z' (by simp [hz])
      rw [(q _ l1).2, (q _ l1).1, (q _ l2).1]

end Verif
