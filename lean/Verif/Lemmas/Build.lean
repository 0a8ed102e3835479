import Verif.Lemmas.Collect
import Verif.Lemmas.Advance
import Verif.Props.TensorOps

/-! # Loops that fill a new object with computed values -/

namespace Verif
open Spec
variable {R : Type} {n m : Nat}

theorem fillVec_run {h0 h1 : Heap R} {o : Nat} {g : Fin n → R} (f0 : ¬ h0.live (.v o)) (w1 : h1.WF) (k1 : Keeps h0 h1 (fun _ => False))
    (l1 : h1.live (.v o)) (s1 : h1.size (.v o) = ⟨n, 1, 1⟩) (get : Nat → M R R)
    (hg : ∀ (i : Fin n) (h' : Heap R), h'.WF → Keeps h0 h' (fun _ => False) → ReturnsVal (get i) h' (g i)) :
    Runs (forN n fun i => do let d ← get i; Vec.element_set o (i : Int) d) h1 fun _ h' =>
      h'.WF ∧ Keeps h0 h' (fun _ => False) ∧ Keeps h1 h' (· = .v o) ∧ h'.live (.v o) ∧ IsVec h' o g := by
  obtain ⟨f, c1⟩ := exists_VCells w1 s1
  refine (Runs.cells1 (l := .v o) (n := n) n (fun h' => h'.WF ∧ Keeps h0 h' (fun _ => False) ∧ Keeps h1 h' (· = .v o) ∧ h'.live (.v o))
    (fun i => if hi : i < n then g ⟨i, hi⟩ else f i) _ ⟨w1, k1, Keeps.refl _ _, l1⟩ c1 ?_).mono ?_
  · intro i h2 f' hi ⟨w2, k2, kk2, l2⟩ c2
    refine (hg ⟨i, hi⟩ h2 w2 k2).bind fun h3 w3 k3 => ?_
    refine (Vec.set_cells w3 (c2.keep k3 l2 nofun) hi _).mono fun _ h4 ⟨w4, k4, n4, c4⟩ => ?_
    refine ⟨⟨w4, (k2.trans k3).newer k4 (by rintro l rfl; exact f0), (kk2.trans (k3.mono nofun)).trans k4, k4.live (k3.live l2)⟩, ?_⟩
    rw [dif_pos hi]; exact c4
  · rintro _ h2 ⟨⟨w2, k2, kk2, l2⟩, c2⟩
    exact ⟨w2, k2, kk2, l2, c2.isVec fun i => by simp⟩

theorem fillMat_run {h0 h1 : Heap R} {o : Nat} {g : Fin m → Fin n → R} (f0 : ¬ h0.live (.m o)) (w1 : h1.WF)
    (k1 : Keeps h0 h1 (fun _ => False)) (l1 : h1.live (.m o)) (s1 : h1.size (.m o) = ⟨n, m, 1⟩) (get : Nat → Nat → M R R)
    (hg : ∀ (i : Fin m) (j : Fin n) (h' : Heap R), h'.WF → Keeps h0 h' (fun _ => False) → ReturnsVal (get i j) h' (g i j)) :
    Runs (forN m fun i => forN n fun j => do let d ← get i j; Mat.element_set o (i : Int) (j : Int) d) h1 fun _ h' =>
      h'.WF ∧ Keeps h0 h' (fun _ => False) ∧ Keeps h1 h' (· = .m o) ∧ h'.live (.m o) ∧ IsMat h' o (Matrix.of g) := by
  obtain ⟨f, c1⟩ := exists_Cells w1 s1
  refine (Runs.cells2 (l := .m o) (c := n) (r := m) m n (fun h' => h'.WF ∧ Keeps h0 h' (fun _ => False) ∧ Keeps h1 h' (· = .m o) ∧ h'.live (.m o))
    (fun i j => if hi : i < m ∧ j < n then g ⟨i, hi.1⟩ ⟨j, hi.2⟩ else f i j) _ ⟨w1, k1, Keeps.refl _ _, l1⟩ c1 ?_).mono ?_
  · intro i j h2 f' hi hj ⟨w2, k2, kk2, l2⟩ c2
    refine (hg ⟨i, hi⟩ ⟨j, hj⟩ h2 w2 k2).bind fun h3 w3 k3 => ?_
    refine (Mat.set_cells w3 (c2.keep k3 l2 nofun) hi hj _).mono fun _ h4 ⟨w4, k4, n4, c4⟩ => ?_
    refine ⟨⟨w4, (k2.trans k3).newer k4 (by rintro l rfl; exact f0), (kk2.trans (k3.mono nofun)).trans k4, k4.live (k3.live l2)⟩, ?_⟩
    rw [dif_pos ⟨hi, hj⟩]; exact c4
  · rintro _ h2 ⟨⟨w2, k2, kk2, l2⟩, c2⟩
    exact ⟨w2, k2, kk2, l2, c2.isMat fun i j => by simp⟩

theorem fillTen_run {d r c : Nat} {h0 h1 : Heap R} {o : Nat} {g : Fin d → Fin r → Fin c → R} (f0 : ¬ h0.live (.t o)) (w1 : h1.WF)
    (k1 : Keeps h0 h1 (fun _ => False)) (l1 : h1.live (.t o)) (s1 : h1.size (.t o) = ⟨c, r, d⟩) (get : Nat → Nat → Nat → M R R)
    (hg : ∀ (i : Fin d) (j : Fin r) (k : Fin c) (h' : Heap R), h'.WF → Keeps h0 h' (fun _ => False) → ReturnsVal (get i j k) h' (g i j k)) :
    Runs (forN d fun i => forN r fun j => forN c fun k => do
        let d ← get i j k; Ten.element_set o (i : Int) (j : Int) (k : Int) d) h1 fun _ h' =>
      h'.WF ∧ Keeps h0 h' (fun _ => False) ∧ h'.live (.t o) ∧ IsTen h' o g := by
  obtain ⟨T0, hT0⟩ : ∃ T : Fin d → Fin r → Fin c → R, IsTen h1 o T := by
    have := IsTen.exists w1 o
    rw [s1] at this
    exact this
  let P : (Fin d → Fin r → Fin c → Prop) → Heap R → Prop := fun S h' => h'.WF ∧ Keeps h0 h' (fun _ => False) ∧ h'.live (.t o) ∧
    ∃ T : Fin d → Fin r → Fin c → R, IsTen h' o T ∧ ∀ i j k, S i j k → T i j k = g i j k
  refine (Runs.forN d (fun a => P fun i _ _ => i.val < a) _ h1 ⟨w1, k1, l1, T0, hT0, by simp⟩ ?_).mono ?_
  · intro a h2 ha p2
    refine (Runs.forN r (fun b => P fun i j _ => i.val < a ∨ i.val = a ∧ j.val < b) _ h2 ?_ ?_).mono ?_
    · obtain ⟨w, k, l, T, hT, e⟩ := p2
      exact ⟨w, k, l, T, hT, fun i j k q => e i j k (by omega)⟩
    · intro b h3 hb p3
      refine (Runs.forN c (fun x => P fun i j k => i.val < a ∨ i.val = a ∧ j.val < b ∨ i.val = a ∧ j.val = b ∧ k.val < x) _ h3 ?_ ?_).mono ?_
      · obtain ⟨w, k, l, T, hT, e⟩ := p3
        exact ⟨w, k, l, T, hT, fun i j k q => e i j k (by omega)⟩
      · intro x h4 hx ⟨w4, k4, l4, T, hT, e⟩
        refine (hg ⟨a, ha⟩ ⟨b, hb⟩ ⟨x, hx⟩ h4 w4 k4).bind fun h5 w5 k5 => ?_
        have hT5 : IsTen h5 o T := hT.ofEq (k5.2 _ l4 nofun).1 (k5.2 _ l4 nofun).2
        refine (Ten.set_any w5 hT5 a b x _).mono fun _ h6 ⟨w6, k6, hT6⟩ => ?_
        refine ⟨w6, (k4.trans k5).newer k6 (by rintro l rfl; exact f0), k6.live (k5.live l4), _, hT6, fun i j k q => ?_⟩
        by_cases q' : i.val = a ∧ j.val = b ∧ k.val = x
        · rw [if_pos q']
          obtain ⟨rfl, rfl, rfl⟩ := q'
          rfl
        · rw [if_neg q']
          exact e i j k (by omega)
      · rintro _ h4 ⟨w, k, l, T, hT, e⟩
        exact ⟨w, k, l, T, hT, fun i j k q => e i j k (by have := k.isLt; omega)⟩
    · rintro _ h3 ⟨w, k, l, T, hT, e⟩
      exact ⟨w, k, l, T, hT, fun i j k q => e i j k (by have := j.isLt; omega)⟩
  · rintro _ h2 ⟨w, k, l, T, hT, e⟩
    have : T = g := by funext i j k; exact e i j k i.isLt
    exact ⟨w, k, l, this ▸ hT⟩

end Verif
