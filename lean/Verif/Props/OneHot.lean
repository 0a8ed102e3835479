import Verif.Model.Data
import Verif.Lemmas.New
import Verif.Lemmas.Collect
import Verif.Lemmas.Example
import Mathlib.Tactic.FinCases

/-! # C73: one-hot representation of classes -/

namespace Verif.Data
open Spec Activation
variable {n k : Nat}

/-- Conversion of a number to an integer: the fractional part is dropped. -/
noncomputable def trunc (x : ℝ) : Int := if 0 ≤ x then ⌊x⌋ else ⌈x⌉

theorem _root_.Verif.VCells.size_run {R : Type} {h : Heap R} {t n : Nat} {f : Nat → R} (c : VCells h (.v t) n f) : Vec.size t h = .ok (n, h) := by
  unfold Vec.size
  rw [bind_ok (getSize_run _ _), c.1]; rfl

theorem toInt_run {h : Heap ℝ} {x : ℝ} (hx : -2147483649 < x ∧ x < 2147483648) : toInt x h = .ok (trunc x, h) := by
  unfold toInt; rw [if_pos hx]; rfl

/-- What `one_hot_rep` computes. -/
theorem one_hot_run {h : Heap ℝ} (w : h.WF) {t : Nat} (lt : h.live (.v t)) {v : Fin n → ℝ} (ht : IsVec h t v)
    (hv : ∀ i, -2147483649 < v i ∧ v i < 2147483648) (k : Nat) :
    ReturnsMat (one_hot_rep (some t) k) h fun (i : Fin n) (j : Fin k) => if trunc (v i) = (j.val : Int) then 1 else 0 := by
  obtain ⟨f, ef, ct⟩ := ht.cells w
  unfold one_hot_rep
  dsimp only
  refine Runs.newM w ?_
  intro h0 w0 k0 nl0 ll0 _
  have ct0 := ct.keep k0 lt nofun
  have lt0 := k0.live lt
  refine Runs.step (ct0.size_run) ?_
  refine Runs.resizeM w0 rfl ?_
  intro h1 w1 k1 _ s1 _
  have ct1 := ct0.keep k1 lt0 nofun
  have lt1 := k1.live lt0
  have ll1 := k1.live ll0
  have nl1 := nl0
  have kn := k0.newer k1 (by rintro l rfl; exact nl0)
  generalize h.next = o at *
  obtain ⟨G, cG⟩ := exists_Cells w1 s1
  refine Runs.bind ((Runs.cells2 n k (fun h' => h'.WF ∧ Keeps h1 h' (· = .m o)) (fun i j => if trunc (f i) = (j : Int) then (1 : ℝ) else 0) _
    ⟨w1, Keeps.refl _ _⟩ cG ?_).mono ?_)
  · rintro i j h2 F hi hj ⟨w2, k2⟩ c2
    have ct2 := ct1.keep k2 lt1 nofun
    refine Runs.step (load_ok (ct2.get hi)) ?_
    refine Runs.step (toInt_run (by rw [← ef ⟨i, hi⟩]; exact hv _)) ?_
    split
    · rename_i e
      refine (Mat.set_cells w2 c2 hi hj 1).mono ?_
      rintro _ h3 ⟨w3, k3, _, c3⟩
      exact ⟨⟨w3, k2.trans k3⟩, by simpa only [if_pos e] using c3⟩
    · rename_i e
      refine (Mat.set_cells w2 c2 hi hj 0).mono ?_
      rintro _ h3 ⟨w3, k3, _, c3⟩
      exact ⟨⟨w3, k2.trans k3⟩, by simpa only [if_neg e] using c3⟩
  · rintro _ h2 ⟨⟨w2, k2⟩, c2⟩
    refine Runs.of_eq (a := some (.m o)) (h' := h2) rfl ⟨o, rfl, nl1, k2.live ll1, w2, kn.newer k2 (by rintro l rfl; exact nl1),
      c2.isMat fun i j => ?_⟩
    simp [ef i]

/-- C73: `one_hot_rep` returns a new matrix with one row for each class number: 1 in the column of the class, 0 elsewhere (a row of zeros
for a number that is no class). -/
theorem C73_one_hot {h : Heap ℝ} (w : h.WF) {t : Nat} (lt : h.live (.v t)) (c : Fin n → ℤ) (ht : IsVec h t fun i => (c i : ℝ))
    (hc : ∀ i, -2147483648 ≤ c i ∧ c i < 2147483648) (k : Nat) :
    ReturnsMat (one_hot_rep (some t) k) h fun (i : Fin n) (j : Fin k) => if c i = (j.val : Int) then 1 else 0 := by
  have := one_hot_run w lt ht (fun i => ?_) k
  · have e : ∀ i, trunc (c i : ℝ) = c i := by intro i; unfold trunc; split <;> simp
    simp only [e] at this
    exact this
  · obtain ⟨h1, h2⟩ := hc i
    constructor
    · have : (-2147483649 : ℤ) < c i := by omega
      exact_mod_cast this
    · exact_mod_cast h2

/-- C73: a number with a fraction is treated like the number without it. -/
theorem C73_fraction {h : Heap ℝ} (w : h.WF) {t : Nat} (lt : h.live (.v t)) {v : Fin n → ℝ} (ht : IsVec h t v)
    (hv : ∀ i, 0 ≤ v i ∧ v i < 2147483648) (k : Nat) :
    ReturnsMat (one_hot_rep (some t) k) h fun (i : Fin n) (j : Fin k) => if (j.val : ℝ) ≤ v i ∧ v i < j.val + 1 then 1 else 0 := by
  have := one_hot_run w lt ht (fun i => ⟨by linarith [(hv i).1], (hv i).2⟩) k
  have e : ∀ (i : Fin n) (j : Fin k), (if trunc (v i) = (j.val : Int) then (1 : ℝ) else 0) = if (j.val : ℝ) ≤ v i ∧ v i < j.val + 1 then 1 else 0 := by
    intro i j
    unfold trunc
    rw [if_pos (hv i).1]
    refine if_congr ?_ rfl rfl
    rw [Int.floor_eq_iff]; simp
  simp only [e] at this
  exact this

/-- C73: a missing operand gives a null handle. -/
theorem C73_null (h : Heap ℝ) (k : Nat) : one_hot_rep none k h = .ok (none, h) := rfl

theorem classGo_eq (r : List ℝ) (c j : Nat) (hj : r[j]? = some 1) (h0 : ∀ i, i < j → r[i]? ≠ some 1) : classGo c r = c + j := by
  induction r generalizing c j with
  | nil => simp at hj
  | cons x xs ih =>
    cases j with
    | zero => simp at hj; simp [classGo, hj]
    | succ j =>
      have : x ≠ 1 := fun e => h0 0 (by omega) (by simp [e])
      rw [classGo, if_neg this, ih (c + 1) j (by simpa using hj) fun i hi => by simpa using h0 (i + 1) (by omega)]
      omega

/-- C73: `reverseOneHot` does not undo `one_hot_rep`: it returns the class number plus one. -/
theorem C73_reverse_fails (c : List (Fin k)) :
    reverseOneHot (c.map fun a => (List.finRange k).map fun j => if a = j then (1 : ℝ) else 0) = c.map fun a => ((a.val + 1 : Nat) : ℝ) := by
  unfold reverseOneHot
  rw [List.map_map]
  refine List.map_congr_left fun a _ => ?_
  have := classGo_eq ((List.finRange k).map fun j => if a = j then (1 : ℝ) else 0) 1 a.val
    (by simp) (by
      intro i hi
      have : i < k := hi.trans a.2
      simp [this, Fin.ext_iff]; omega)
  simp only [Function.comp]
  rw [this, Nat.add_comm]

example : ∃ h : Heap ℝ, h.WF ∧ h.live (.v 0) ∧ IsVec h 0 fun i : Fin 3 => (((![2, 0, 1] : Fin 3 → ℤ) i : ℤ) : ℝ) :=
  ⟨Heap.ofLists 0 [[2, 0, 1]] [], Heap.ofLists_wf _ _ _ (by simp), by simp [Heap.ofLists, Heap.live, Loc.id],
    rfl, fun i => by fin_cases i <;> simp [Heap.ofLists]⟩

end Verif.Data
