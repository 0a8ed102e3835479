import Verif.Spec.Classification
import Verif.Lemmas.StdVector
import Verif.Lemmas.New

/-! # C63: the confusion counts and the rates computed from them -/

namespace Verif.Utilities
open Spec Classical

/-- One round of the loop. -/
noncomputable def tick (c : Counts) (p q : ℝ) : Counts :=
  if p = q then (if p = 1 then { c with TP := c.TP + 1 } else { c with TN := c.TN + 1 })
  else (if p = 1 then { c with FP := c.FP + 1 } else { c with FN := c.FN + 1 })

/-- The counters after reading a list of pairs. -/
theorem TF_PN_run (xs ys : List ℝ) (hl : xs.length = ys.length) (h : Heap ℝ) :
    TF_PN xs ys h = .ok (⟨((xs.zip ys).countP fun p => decide (p.1 = p.2 ∧ p.1 = 1) : ℕ), ((xs.zip ys).countP fun p => decide (p.1 ≠ p.2 ∧ p.1 = 1) : ℕ),
      ((xs.zip ys).countP fun p => decide (p.1 = p.2 ∧ p.1 ≠ 1) : ℕ), ((xs.zip ys).countP fun p => decide (p.1 ≠ p.2 ∧ p.1 ≠ 1) : ℕ)⟩, h) := by
  unfold TF_PN
  rw [foldN_at2 xs ys hl _ tick]
  · congr 2
    have : ∀ (l : List (ℝ × ℝ)) (c : Counts), l.foldl (fun c p => tick c p.1 p.2) c =
        ⟨c.TP + (l.countP fun p => decide (p.1 = p.2 ∧ p.1 = 1) : ℕ), c.FP + (l.countP fun p => decide (p.1 ≠ p.2 ∧ p.1 = 1) : ℕ),
         c.TN + (l.countP fun p => decide (p.1 = p.2 ∧ p.1 ≠ 1) : ℕ), c.FN + (l.countP fun p => decide (p.1 ≠ p.2 ∧ p.1 ≠ 1) : ℕ)⟩ := by
      intro l
      induction l with
      | nil => intro c; simp
      | cons p l ih =>
        intro c
        rw [List.foldl_cons, ih]
        simp only [List.countP_cons, tick]
        obtain ⟨x, y⟩ := p
        by_cases h2 : x = 1
        · subst h2
          by_cases h1 : (1 : ℝ) = y
          · subst h1; simp <;> ring
          · simp [h1] <;> ring
        · by_cases h1 : x = y
          · subst h1; simp [h2] <;> ring
          · simp [h1, h2] <;> ring
    rw [this]
    simp
  · intro i c x y ex ey
    rw [bind_ok (atS_ok ex h), bind_ok (atS_ok ey h)]
    unfold tick
    split <;> split <;> rfl

theorem countP_tally (l : List (ℝ × ℝ)) (b : Binary l) :
    ((l.countP fun p => decide (p.1 = p.2 ∧ p.1 = 1) : ℕ) : ℝ) = tally l 1 1 ∧ ((l.countP fun p => decide (p.1 ≠ p.2 ∧ p.1 = 1) : ℕ) : ℝ) = tally l 1 0 ∧
    ((l.countP fun p => decide (p.1 = p.2 ∧ p.1 ≠ 1) : ℕ) : ℝ) = tally l 0 0 ∧ ((l.countP fun p => decide (p.1 ≠ p.2 ∧ p.1 ≠ 1) : ℕ) : ℝ) = tally l 0 1 := by
  unfold tally List.count
  refine ⟨?_, ?_, ?_, ?_⟩ <;> congr 1 <;> refine List.countP_congr fun x hx => ?_ <;> obtain ⟨b1, b2⟩ := b x hx <;>
    obtain ⟨p, q⟩ := x <;> dsimp only at b1 b2 <;> rcases b1 with rfl | rfl <;> rcases b2 with rfl | rfl <;> simp

/-- C63: on `0`/`1` predictions and labels, `TF_PN` returns the number of true positives, false positives, true negatives and false
negatives. -/
theorem C63_counts (h : Heap ℝ) (xs ys : List ℝ) (hl : xs.length = ys.length) (b : Binary (xs.zip ys)) :
    TF_PN xs ys h = .ok (⟨tally (xs.zip ys) 1 1, tally (xs.zip ys) 1 0, tally (xs.zip ys) 0 0, tally (xs.zip ys) 0 1⟩, h) := by
  rw [TF_PN_run xs ys hl h]
  obtain ⟨e1, e2, e3, e4⟩ := countP_tally _ b
  rw [e1, e2, e3, e4]

theorem tally_total (l : List (ℝ × ℝ)) : ((l.countP fun p => decide (p.1 = p.2 ∧ p.1 = 1) : ℕ) : ℝ) + ((l.countP fun p => decide (p.1 ≠ p.2 ∧ p.1 = 1) : ℕ) : ℝ) +
    ((l.countP fun p => decide (p.1 = p.2 ∧ p.1 ≠ 1) : ℕ) : ℝ) + ((l.countP fun p => decide (p.1 ≠ p.2 ∧ p.1 ≠ 1) : ℕ) : ℝ) = l.length := by
  induction l with
  | nil => simp
  | cons p l ih =>
    simp only [List.countP_cons, List.length_cons]
    push_cast
    rw [← ih]
    obtain ⟨x, y⟩ := p
    by_cases h2 : x = 1
    · subst h2
      by_cases h1 : (1 : ℝ) = y
      · subst h1; simp <;> ring
      · simp [h1] <;> ring
    · by_cases h1 : x = y
      · subst h1; simp [h2] <;> ring
      · simp [h1, h2] <;> ring

/-- C63: whatever the labels, every prediction is counted exactly once. -/
theorem C63_total (h : Heap ℝ) (xs ys : List ℝ) (hl : xs.length = ys.length) :
    Runs (TF_PN xs ys) h fun c h' => h' = h ∧ c.TP + c.FP + c.TN + c.FN = xs.length := by
  refine Runs.of_eq (TF_PN_run xs ys hl h) ⟨rfl, ?_⟩
  dsimp only
  rw [tally_total, List.length_zip, ← hl, Nat.min_self]

/-- C63: precision and recall are the textbook ratios, when there is a positive prediction, respectively a positive label. -/
theorem C63_precision_recall (h : Heap ℝ) (xs ys : List ℝ) (hl : xs.length = ys.length) (b : Binary (xs.zip ys)) :
    (1 ∈ xs → precision xs ys h = .ok (tally (xs.zip ys) 1 1 / (tally (xs.zip ys) 1 1 + tally (xs.zip ys) 1 0), h) ∧
      tally (xs.zip ys) 1 1 + tally (xs.zip ys) 1 0 ≠ 0) ∧
    (1 ∈ ys → recall xs ys h = .ok (tally (xs.zip ys) 1 1 / (tally (xs.zip ys) 1 1 + tally (xs.zip ys) 0 1), h) ∧
      tally (xs.zip ys) 1 1 + tally (xs.zip ys) 0 1 ≠ 0) := by
  have pos : ∀ p q, (p, q) ∈ xs.zip ys → 0 < tally (xs.zip ys) p q := by
    intro p q e; unfold tally; exact_mod_cast List.count_pos_iff.mpr e
  have nn : ∀ p q, 0 ≤ tally (xs.zip ys) p q := fun p q => by unfold tally; positivity
  refine ⟨fun hx => ⟨?_, ?_⟩, fun hy => ⟨?_, ?_⟩⟩
  · unfold precision; rw [bind_ok (C63_counts h xs ys hl b)]; rfl
  · obtain ⟨i, hi, e⟩ := List.mem_iff_getElem.mp hx
    have hm : (xs[i], ys[i]'(hl ▸ hi)) ∈ xs.zip ys := by
      refine List.mem_iff_getElem.mpr ⟨i, by rw [List.length_zip, ← hl, Nat.min_self]; exact hi, by simp⟩
    have := (b _ hm).2
    rw [e] at hm
    dsimp only at this
    rcases this with q | q <;> rw [q] at hm <;> have := pos _ _ hm <;> have := nn 1 1 <;> have := nn 1 0 <;> linarith
  · unfold recall; rw [bind_ok (C63_counts h xs ys hl b)]; rfl
  · obtain ⟨i, hi, e⟩ := List.mem_iff_getElem.mp hy
    have hm : (xs[i]'(hl ▸ hi), ys[i]) ∈ xs.zip ys := by
      refine List.mem_iff_getElem.mpr ⟨i, by rw [List.length_zip, hl, Nat.min_self]; exact hi, by simp⟩
    have := (b _ hm).1
    rw [e] at hm
    dsimp only at this
    rcases this with q | q <;> rw [q] at hm <;> have := pos _ _ hm <;> have := nn 1 1 <;> have := nn 0 1 <;> linarith

/-- C63: accuracy is the fraction of the positions at which prediction and label agree, for any labels. -/
theorem C63_accuracy (h : Heap ℝ) (xs ys : List ℝ) (hl : xs.length = ys.length) (_hn : xs ≠ []) :
    accuracy xs ys h = .ok (((xs.zip ys).countP (fun p => decide (p.1 = p.2)) : ℕ) / (xs.length : ℝ), h) := by
  unfold accuracy
  rw [bind_ok (TF_PN_run xs ys hl h)]
  dsimp only
  have t := tally_total (xs.zip ys)
  rw [List.length_zip, ← hl, Nat.min_self] at t
  have e : (((xs.zip ys).countP fun p => decide (p.1 = p.2 ∧ p.1 = 1) : ℕ) : ℝ) + ((xs.zip ys).countP fun p => decide (p.1 = p.2 ∧ p.1 ≠ 1) : ℕ) =
      ((xs.zip ys).countP (fun p => decide (p.1 = p.2)) : ℕ) := by
    generalize xs.zip ys = l
    induction l with
    | nil => simp
    | cons p l ih =>
      simp only [List.countP_cons]
      push_cast
      rw [← ih]
      obtain ⟨x, y⟩ := p
      by_cases h2 : x = 1
      · subst h2
        by_cases h1 : (1 : ℝ) = y
        · subst h1; simp <;> ring
        · simp [h1] <;> ring
      · by_cases h1 : x = y
        · subst h1; simp [h2] <;> ring
        · simp [h1, h2] <;> ring
  rw [e]
  show Out.ok (_, h) = _
  congr 3
  rw [← t]; ring

/-- C63: the F1 score is `2 TP / (2 TP + FP + FN)` when there is a true positive. -/
theorem C63_f1 (h : Heap ℝ) (xs ys : List ℝ) (hl : xs.length = ys.length) (b : Binary (xs.zip ys)) (hp : (1, 1) ∈ xs.zip ys) :
    f1_score xs ys h = .ok (2 * tally (xs.zip ys) 1 1 / (2 * tally (xs.zip ys) 1 1 + tally (xs.zip ys) 1 0 + tally (xs.zip ys) 0 1), h) := by
  have hx : (1 : ℝ) ∈ xs := (List.of_mem_zip hp).1
  have hy : (1 : ℝ) ∈ ys := (List.of_mem_zip hp).2
  obtain ⟨p, q⟩ := C63_precision_recall h xs ys hl b
  obtain ⟨p, p0⟩ := p hx
  obtain ⟨q, q0⟩ := q hy
  unfold f1_score
  rw [bind_ok p, bind_ok q, bind_ok p, bind_ok q]
  show Out.ok (_, h) = _
  congr 2
  have t0 : 0 < tally (xs.zip ys) 1 1 := by unfold tally; exact_mod_cast List.count_pos_iff.mpr hp
  have n1 : 0 ≤ tally (xs.zip ys) 1 0 := by unfold tally; positivity
  have n2 : 0 ≤ tally (xs.zip ys) 0 1 := by unfold tally; positivity
  generalize tally (xs.zip ys) 1 1 = a at *
  generalize tally (xs.zip ys) 1 0 = c at *
  generalize tally (xs.zip ys) 0 1 = d at *
  have s1 : 0 < a + c := by linarith
  have s2 : 0 < a + d := by linarith
  have s3 : 0 < 2 * a + c + d := by linarith
  have s4 : a / (a + c) + a / (a + d) ≠ 0 := by positivity
  rw [div_eq_div_iff s4 s3.ne']
  field_simp
  ring

/-- C63 fails for a list of labels that is shorter than the predictions: reading past its end is undefined. -/
theorem C63_short_fails (h : Heap ℝ) (xs ys : List ℝ) (hl : ys.length < xs.length) :
    TF_PN xs ys h = .ub ∧ precision xs ys h = .ub ∧ recall xs ys h = .ub ∧ accuracy xs ys h = .ub ∧ f1_score xs ys h = .ub := by
  have e : TF_PN xs ys h = .ub := by
    unfold TF_PN
    refine foldN_ub _ ys.length hl (fun k => ((xs.zip ys).take k).foldl (fun c p => tick c p.1 p.2) ⟨0, 0, 0, 0⟩) _ _ h (by simp) ?_ ?_
    · intro i hi
      have hx : i < xs.length := by omega
      have hz : i < (xs.zip ys).length := by rw [List.length_zip]; omega
      generalize e : List.foldl _ _ (List.take i (xs.zip ys)) = c
      rw [bind_ok (atS_lt hx h), bind_ok (atS_lt hi h), List.take_add_one, List.getElem?_eq_getElem hz]
      simp only [Option.toList, List.foldl_append, List.foldl_cons, List.foldl_nil, List.getElem_zip, e]
      unfold tick
      split <;> split <;> rfl
    · generalize List.foldl _ _ (List.take _ (xs.zip ys)) = c
      rw [bind_ok (atS_lt hl h), bind_ub (atS_ub le_rfl h)]
  refine ⟨e, ?_, ?_, ?_, ?_⟩
  · unfold precision; rw [bind_ub e]
  · unfold recall; rw [bind_ub e]
  · unfold accuracy; rw [bind_ub e]
  · unfold f1_score; rw [bind_ub (show precision xs ys h = .ub by unfold precision; rw [bind_ub e])]

/-- The hypotheses of C63 are met by a list with one outcome of every kind. -/
example : Binary ([1, 1, 0, 0].zip [1, 0, 0, 1]) ∧ (1, 1) ∈ ([1, 1, 0, 0] : List ℝ).zip [1, 0, 0, 1] := by
  constructor
  · intro x hx; simp at hx; rcases hx with rfl | rfl | rfl | rfl <;> simp
  · simp

end Verif.Utilities
