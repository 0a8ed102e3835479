import Verif.Props.StatMoments
import Verif.Props.VectorMisc
import Verif.Props.VectorSort
import Verif.Lemmas.New

/-!
# C37, C38, C39: median, range, midrange, mode
-/

namespace Verif
open Spec

theorem real_swo : SortArray.SWO ℝ := ⟨fun _ _ h => not_lt.mpr h.le, fun _ _ _ h1 h2 => not_lt.mpr ((not_lt.mp h1).trans (not_lt.mp h2))⟩

open SortArray in
theorem Vec.sort_setBuf (h : Heap ℝ) (w : h.WF) (this : Nat) :
    ∃ d, Vec.sort this h = .ok ((), h.setBuf (.v this) d) ∧ d.Perm (h.buf (.v this)) ∧ d.Pairwise (· ≤ ·) := by
  have hx : (h.size (.v this)).x = (h.buf (.v this)).length := by
    rw [w.len, Size.count, (w.vec this).1, (w.vec this).2]; simp
  unfold Vec.sort
  by_cases e : (h.size (.v this)).x = 0
  · have hb : h.buf (.v this) = [] := List.length_eq_zero_iff.mp (by omega)
    refine ⟨h.buf (.v this), ?_, List.Perm.refl _, by rw [hb]; exact List.Pairwise.nil⟩
    rw [bind_ok (getSize_run _ _), if_pos e, setBuf_self]; rfl
  · obtain ⟨g, g1, g2, g3⟩ := sort_range_run (h := h) (l := .v this) (n := (h.buf (.v this)).length) real_swo
      fun i => (h.buf (.v this))[i]?.getD (h.junk 0 0)
    have est : St h (.v this) (h.buf (.v this)).length (fun i => (h.buf (.v this))[i]?.getD (h.junk 0 0)) = h := by
      unfold St
      rw [← tab_of_list, setBuf_self]
    rw [est] at g1
    refine ⟨tab (h.buf (.v this)).length g, by rw [bind_ok (getSize_run _ _), if_neg e, hx]; exact g1, ?_, ?_⟩
    · refine g2.perm.trans ?_
      rw [← tab_of_list]
    · rw [List.pairwise_iff_getElem]
      intro i j hi hj hij
      simp only [tab_length] at hi hj
      have := g3 i j (Nat.zero_le _) hij hj
      simpa [tab, SortArray.le] using this

/-- What `median` returns, in terms of the sorted elements. -/
theorem Stat.median_run (h : Heap ℝ) (w : h.WF) (x : Nat) (hl : h.live (.v x)) :
    Runs (Stat.median (some x)) h fun r h' => h'.WF ∧ Keeps h h' (fun _ => False) ∧
      ∃ s : List ℝ, s.Perm (h.buf (.v x)) ∧ s.Pairwise (· ≤ ·) ∧
        r = if s.length % 2 = 0 then
          (if s.length = 0 then 0 else (s.getD (s.length / 2 - 1) 0 + s.getD (s.length / 2) 0) / 2)
        else if s.length = 1 then 0 else s.getD (s.length / 2 - 1) 0 := by
  obtain ⟨h1, e1, c1⟩ := duplicateFast_run (.v x) h (w.len _) hl
  have w1 : h1.WF := c1.wf w (by simp [w.len]) (fun _ _ => w.vec x) (by intro i e; cases e)
  have e1' : Vec.duplicate_fast x h = .ok (some (.v h.next), h1) := e1
  have b1 : h1.buf (.v h.next) = h.buf (.v x) := c1.buf
  obtain ⟨s, e2, p, srt⟩ := Vec.sort_setBuf h1 w1 h.next
  have hlen : s.length = (h1.buf (.v h.next)).length := p.length_eq
  have w2 : (h1.setBuf (.v h.next) s).WF := by
    refine ⟨fun l => ?_, w1.vec, w1.mat⟩
    rw [setBuf_size]
    by_cases hle : l = .v h.next
    · subst hle; rw [setBuf_buf_same, hlen]; exact w1.len _
    · rw [setBuf_buf_ne _ _ hle]; exact w1.len _
  have vs : (h1.setBuf (.v h.next) s).vec h.next = s := setBuf_buf_same _ _ _
  have run : Stat.median (some x) h = .ok (if s.length % 2 = 0 then
          (if s.length = 0 then 0 else (s.getD (s.length / 2 - 1) 0 + s.getD (s.length / 2) 0) / 2)
        else if s.length = 1 then 0 else s.getD (s.length / 2 - 1) 0, h1.setBuf (.v h.next) s) := by
    unfold Stat.median
    dsimp only
    rw [bind_ok e1', bind_ok (show derefV (some (Loc.v h.next)) h1 = .ok (h.next, h1) from rfl),
      bind_ok (Vec.size_run w1 h.next), bind_ok e2, bind_ok (Vec.size_run w2 h.next), vs, show (h1.vec h.next).length = s.length from hlen.symm]
    by_cases ev : s.length % 2 = 0
    · rw [if_pos ev, if_pos ev]
      by_cases z : s.length = 0
      · have g0 : Vec.element_get h.next (((s.length / 2 : Nat) : Int) - 1) (h1.setBuf (.v h.next) s) = .ok (0, h1.setBuf (.v h.next) s) :=
          Vec.element_get_bad w2 _ _ (by rw [vs, z]; decide)
        have g1 : Vec.element_get h.next (((s.length / 2 : Nat) : Int)) (h1.setBuf (.v h.next) s) = .ok (0, h1.setBuf (.v h.next) s) :=
          Vec.element_get_bad w2 _ _ (by rw [vs, z]; decide)
        rw [bind_ok g0, bind_ok g1, if_pos z]; simp [pure, M.pure]
      · have hc : ((s.length / 2 : Nat) : Int) - 1 = ((s.length / 2 - 1 : Nat) : Int) := by omega
        have k1 : s.length / 2 - 1 < s.length := by omega
        have k2 : s.length / 2 < s.length := by omega
        rw [if_neg z, hc, bind_ok (Vec.element_get_ok w2 h.next (s.length / 2 - 1) (by rw [vs]; exact k1)),
          bind_ok (Vec.element_get_ok w2 h.next (s.length / 2) (by rw [vs]; exact k2))]
        simp [pure, M.pure, vs, List.getD_eq_getElem?_getD, k1, k2]
    · rw [if_neg ev, if_neg ev]
      by_cases z : s.length = 1
      · rw [if_pos z]
        exact Vec.element_get_bad w2 _ _ (by rw [vs, z]; decide)
      · have hc : ((s.length / 2 : Nat) : Int) - 1 = ((s.length / 2 - 1 : Nat) : Int) := by omega
        have k1 : s.length / 2 - 1 < s.length := by omega
        rw [if_neg z, hc, Vec.element_get_ok w2 h.next (s.length / 2 - 1) (by rw [vs]; exact k1)]
        simp [vs, List.getD_eq_getElem?_getD, k1]
  refine Runs.of_eq run ⟨w2, ?_, s, by rw [← b1]; exact p, srt, rfl⟩
  refine (c1.keeps fun _ => False).trans_new (T := (· = .v h.next))
    ⟨Nat.le_refl _, fun l _ hne => ⟨setBuf_buf_ne _ _ hne, rfl⟩⟩ fun l e hl => ?_
  subst e
  exact absurd hl (Nat.lt_irrefl _)

/-! ## C37 -/

theorem le_countP_of {s : List ℝ} {p : ℝ → Bool} {k : Nat} {t : List ℝ} (ht : t.Sublist s) (hk : t.length = k)
    (h : ∀ a ∈ t, p a = true) : k ≤ s.countP p := by
  rw [← hk, ← List.countP_eq_length.mpr h]
  exact ht.countP_le

theorem sorted_take_le {s : List ℝ} (srt : s.Pairwise (· ≤ ·)) {k j : Nat} (hk : k ≤ j + 1) (hj : j < s.length) :
    ∀ a ∈ s.take k, a ≤ s[j] := by
  intro a ha
  obtain ⟨i, hi, rfl⟩ := List.mem_iff_getElem.mp ha
  rw [List.length_take] at hi
  rw [List.getElem_take]
  rcases Nat.lt_or_ge i j with q | q
  · exact List.pairwise_iff_getElem.mp srt i j (by omega) hj q
  · have : i = j := by omega
    subst this; rfl

theorem sorted_le_drop {s : List ℝ} (srt : s.Pairwise (· ≤ ·)) {k j : Nat} (hk : j ≤ k) (hj : j < s.length) :
    ∀ a ∈ s.drop k, s[j] ≤ a := by
  intro a ha
  obtain ⟨i, hi, rfl⟩ := List.mem_iff_getElem.mp ha
  rw [List.length_drop] at hi
  rw [List.getElem_drop]
  rcases Nat.lt_or_ge j (k + i) with q | q
  · exact List.pairwise_iff_getElem.mp srt j (k + i) hj (by omega) q
  · have : k + i = j := by omega
    simp only [this]; rfl

theorem IsMedian.perm {s l : List ℝ} (p : s.Perm l) {m : ℝ} (h : IsMedian s m) : IsMedian l m := by
  unfold IsMedian at *
  rwa [p.length_eq, p.countP_eq, p.countP_eq] at h

/-- **C37**, even sizes: on a non-empty vector of even size `median` returns a median (at least half of the elements are
`≤` it, at least half are `≥` it), and changes no existing object. Missing: odd sizes, where it is false
(`C37_median_odd_fails`). -/
theorem C37_median_even_partial (h : Heap ℝ) (w : h.WF) (x : Nat) (hl : h.live (.v x)) (hne : h.buf (.v x) ≠ [])
    (he : (h.buf (.v x)).length % 2 = 0) :
    Runs (Stat.median (some x)) h fun r h' => Keeps h h' (fun _ => False) ∧ IsMedian (h.buf (.v x)) r := by
  refine Runs.mono (Stat.median_run h w x hl) ?_
  rintro r h' ⟨_, k, s, p, srt, rfl⟩
  refine ⟨k, IsMedian.perm p ?_⟩
  have hl0 := List.length_pos_of_ne_nil hne
  rw [← p.length_eq] at he hl0
  rw [if_pos he, if_neg (by omega)]
  have k1 : s.length / 2 - 1 < s.length := by omega
  have k2 : s.length / 2 < s.length := by omega
  have hle : s[s.length / 2 - 1] ≤ s[s.length / 2] := List.pairwise_iff_getElem.mp srt _ _ k1 k2 (by omega)
  simp only [List.getD_eq_getElem?_getD, List.getElem?_eq_getElem k1, List.getElem?_eq_getElem k2, Option.getD_some]
  constructor
  · have := le_countP_of (s := s) (p := fun a => decide (a ≤ (s[s.length / 2 - 1] + s[s.length / 2]) / 2))
      (k := s.length / 2) (List.take_sublist (s.length / 2) s) (by simp; omega) fun a ha => by
        have := sorted_take_le srt (j := s.length / 2 - 1) (by omega) k1 a ha
        simp only [decide_eq_true_eq]; linarith
    omega
  · have := le_countP_of (s := s) (p := fun a => decide ((s[s.length / 2 - 1] + s[s.length / 2]) / 2 ≤ a))
      (k := s.length / 2) (List.drop_sublist (s.length / 2) s) (by simp; omega) fun a ha => by
        have := sorted_le_drop srt (le_refl _) k2 a ha
        simp only [decide_eq_true_eq]; linarith
    omega

/-- **C37**, odd sizes fail: of a vector with an odd number (at least three) of different elements, `median` never
returns a median; of a vector with one element it returns 0. -/
theorem C37_median_odd_fails (h : Heap ℝ) (w : h.WF) (x : Nat) (hl : h.live (.v x))
    (ho : (h.buf (.v x)).length % 2 = 1) :
    Runs (Stat.median (some x)) h fun r _ =>
      ((h.buf (.v x)).length = 1 → r = 0) ∧
      ((h.buf (.v x)).length ≠ 1 → (h.buf (.v x)).Nodup → ¬ IsMedian (h.buf (.v x)) r) := by
  refine Runs.mono (Stat.median_run h w x hl) ?_
  rintro r h' ⟨_, _, s, p, srt, rfl⟩
  rw [← p.length_eq] at ho ⊢
  rw [if_neg (by omega)]
  refine ⟨fun e => by rw [if_pos e], fun n1 nd => ?_⟩
  rw [if_neg n1]
  intro hm
  have hm := IsMedian.perm p.symm hm
  have nds : s.Nodup := p.nodup_iff.mpr nd
  have k1 : s.length / 2 - 1 < s.length := by omega
  have hg : s.getD (s.length / 2 - 1) 0 = s[s.length / 2 - 1] := by
    simp [List.getD_eq_getElem?_getD, List.getElem?_eq_getElem k1]
  rw [hg] at hm
  have h1 := hm.1
  have above : ∀ a ∈ s.drop (s.length / 2), s[s.length / 2 - 1] < a := by
    intro a ha
    have hle := sorted_le_drop srt (j := s.length / 2 - 1) (by omega) k1 a ha
    refine lt_of_le_of_ne hle fun e => ?_
    obtain ⟨i, hi, rfl⟩ := List.mem_iff_getElem.mp ha
    rw [List.length_drop] at hi
    rw [List.getElem_drop] at e
    have := (List.nodup_iff_injective_getElem.mp nds) (a₁ := ⟨_, k1⟩) (a₂ := ⟨s.length / 2 + i, by omega⟩) e
    have := congrArg Fin.val this
    simp only at this
    omega
  generalize s[s.length / 2 - 1] = m at above h1
  have split : (s.countP fun a => decide (a ≤ m)) =
      ((s.take (s.length / 2)).countP fun a => decide (a ≤ m)) + ((s.drop (s.length / 2)).countP fun a => decide (a ≤ m)) := by
    rw [← List.countP_append, List.take_append_drop]
  have z : ((s.drop (s.length / 2)).countP fun a => decide (a ≤ m)) = 0 := by
    rw [List.countP_eq_zero]
    intro a ha
    simpa using above a ha
  have l : ((s.take (s.length / 2)).countP fun a => decide (a ≤ m)) ≤ (s.take (s.length / 2)).length :=
    List.countP_le_length
  rw [List.length_take] at l
  omega

/-- The hypotheses are met by [3, 1, 2]: the code returns 1. -/
example : (Stat.median (some 0) (Heap.ofLists (0 : Int) [[3, 1, 2]] [])).valOf = some 1 ∧
    (Stat.median (some 0) (Heap.ofLists (0 : Int) [[3, 1, 2, 6]] [])).valOf = some 2 ∧
    (Stat.median (some 0) (Heap.ofLists (0 : Int) [[3]] [])).valOf = some 0 := by decide +kernel
example : ¬ IsMedian [3, 1, (2 : Int)] 1 ∧ IsMedian [3, 1, (2 : Int)] 2 := by unfold IsMedian; decide

/-! ## C38 -/

/-- `m` is an element of `l` and no element is larger / smaller. -/
def IsMax (l : List ℝ) (m : ℝ) : Prop := m ∈ l ∧ ∀ a ∈ l, a ≤ m
/-- `m` is an element of `l` and no element is smaller. -/
def IsMin (l : List ℝ) (m : ℝ) : Prop := m ∈ l ∧ ∀ a ∈ l, m ≤ a

theorem Stat.range_run [HasInf ℝ] (h : Heap ℝ) (w : h.WF) (x : Nat) (hne : h.buf (.v x) ≠ [])
    (hb : ∀ a ∈ h.buf (.v x), -(HasInf.inf : ℝ) < a ∧ a < (HasInf.inf : ℝ)) :
    ∃ a b, Stat.range (some x) h = .ok (a - b, h) ∧ IsMax (h.buf (.v x)) a ∧ IsMin (h.buf (.v x)) b := by
  rcases maxIdx_fold _ _ fun a ha => (hb a ha).1 with ⟨h0, _⟩ | ⟨i, m, e1, _, e3, e4, _⟩
  · exact absurd h0 hne
  rcases minIdx_fold _ _ fun a ha => (hb a ha).2 with ⟨h0, _⟩ | ⟨j, n, f1, _, f3, f4, _⟩
  · exact absurd h0 hne
  refine ⟨m, n, ?_, ⟨List.mem_of_getElem? e3, e4⟩, List.mem_of_getElem? f3, f4⟩
  unfold Stat.range
  dsimp only
  rw [bind_ok (Vec.max_element_run w x), bind_ok (Vec.min_element_run w x), e1, f1]; rfl

/-- **C38** (range): the largest minus the smallest element, for a non-empty vector of elements between `-Math_INF` and
`Math_INF`. -/
theorem C38_range [HasInf ℝ] (h : Heap ℝ) (w : h.WF) (x : Nat) (hne : h.buf (.v x) ≠ [])
    (hb : ∀ a ∈ h.buf (.v x), -(HasInf.inf : ℝ) < a ∧ a < (HasInf.inf : ℝ)) :
    Runs (Stat.range (some x)) h fun r h' => h' = h ∧
      ∃ a b, IsMax (h.buf (.v x)) a ∧ IsMin (h.buf (.v x)) b ∧ r = a - b := by
  obtain ⟨a, b, e, ha, hb⟩ := Stat.range_run h w x hne hb
  exact Runs.of_eq e ⟨rfl, a, b, ha, hb, rfl⟩

/-- **C38** (midrange) fails: `midrange` returns half the range, which is `(max + min) / 2` only if the smallest element
is 0. -/
theorem C38_midrange_fails [HasInf ℝ] (h : Heap ℝ) (w : h.WF) (x : Nat) (hne : h.buf (.v x) ≠ [])
    (hb : ∀ a ∈ h.buf (.v x), -(HasInf.inf : ℝ) < a ∧ a < (HasInf.inf : ℝ)) :
    Runs (Stat.midrange (some x)) h fun r h' => h' = h ∧
      ∃ a b, IsMax (h.buf (.v x)) a ∧ IsMin (h.buf (.v x)) b ∧ r = (a - b) / 2 ∧ (r = (a + b) / 2 ↔ b = 0) := by
  obtain ⟨a, b, e, ha, hb⟩ := Stat.range_run h w x hne hb
  refine Runs.of_eq (a := (a - b) / 2) (h' := h) ?_ ⟨rfl, a, b, ha, hb, rfl, ?_⟩
  · unfold Stat.midrange
    dsimp only
    rw [bind_ok e]; simp [pure, M.pure]
  · constructor
    · intro q; linarith
    · rintro rfl; ring

/-- The hypotheses are met with, e.g., `Math_INF` read as 10^30. -/
example : ∀ a ∈ [3, -1, (2 : ℝ)], -(10 ^ 30 : ℝ) < a ∧ a < (10 ^ 30 : ℝ) := by
  intro a ha
  simp only [List.mem_cons, List.not_mem_nil, or_false] at ha
  rcases ha with rfl | rfl | rfl <;> norm_num

/-! ## C39 -/

section mode
variable {R : Type} [DecidableEq R] [Zero R]

omit [Zero R] in
theorem addNew_fold (l s : List R) (hs : s.Nodup) :
    (l.foldl Stat.addNew s).Nodup ∧ (∀ v, v ∈ l.foldl Stat.addNew s ↔ v ∈ s ∨ v ∈ l) ∧
    (l.foldl Stat.addNew s).length ≤ s.length + l.length := by
  induction l generalizing s with
  | nil => exact ⟨hs, by simp, by simp⟩
  | cons x l ih =>
    rw [List.foldl_cons]
    by_cases hx : x ∈ s
    · have e : Stat.addNew s x = s := by simp [Stat.addNew, hx]
      rw [e]
      obtain ⟨i1, i2, i3⟩ := ih s hs
      refine ⟨i1, fun v => ?_, by simp; omega⟩
      rw [i2, List.mem_cons]
      constructor
      · rintro (q | q) <;> tauto
      · rintro (q | rfl | q) <;> tauto
    · have e : Stat.addNew s x = s ++ [x] := by simp [Stat.addNew, hx]
      rw [e]
      obtain ⟨i1, i2, i3⟩ := ih (s ++ [x]) (by
        rw [List.nodup_append]
        refine ⟨hs, by simp, ?_⟩
        intro a ha b hb
        simp only [List.mem_singleton] at hb
        subst hb
        intro e; subst e; exact hx ha)
      refine ⟨i1, fun v => ?_, by simp at i3 ⊢; omega⟩
      rw [i2, List.mem_append, List.mem_singleton, List.mem_cons]
      tauto

omit [Zero R] in
theorem mapAdd_fold (l : List R) (m : R → Int) (v : R) : l.foldl Stat.mapAdd m v = m v + l.count v := by
  induction l generalizing m with
  | nil => simp
  | cons x l ih =>
    rw [List.foldl_cons, ih, List.count_cons]
    by_cases e : v = x
    · subst e; simp [Stat.mapAdd]; omega
    · have e' : ¬ x = v := fun q => e q.symm
      simp [Stat.mapAdd, e, e']

theorem Stat.vec_to_setnv_run (h : Heap R) (w : h.WF) (x : Nat) :
    Runs (Stat.vec_to_setnv x) h fun r h' => ∃ o, r = some (.v o) ∧ ¬ h.live (.v o) ∧ h'.live (.v o) ∧ h'.WF ∧
      Keeps h h' (fun _ => False) ∧ h'.vec o = (h.buf (.v x)).foldl Stat.addNew [] := by
  unfold Stat.vec_to_setnv
  have e : foldN (h.vec x).length ([] : List R) (fun i s => do
      let y ← Vec.element_get x (i : Int)
      pure (Stat.addNew s y)) h = .ok ((h.buf (.v x)).foldl Stat.addNew [], h) := by
    have := foldN_read (h.vec x).length (fun k => ((h.buf (.v x)).take k).foldl Stat.addNew ([] : List R))
      (fun i s => do
        let y ← Vec.element_get x (i : Int)
        pure (Stat.addNew s y)) [] h (by simp) (by
        intro i hi
        rw [bind_ok (Vec.element_get_ok w x i hi), List.take_add_one,
          List.getElem?_eq_getElem (show i < (h.buf (.v x)).length from hi), List.foldl_append]
        rfl)
    rw [this]
    have e : (h.buf (.v x)).take (h.vec x).length = h.buf (.v x) := List.take_length
    simp only [e]
  refine Runs.step (Vec.size_run w x) (Runs.step e ?_)
  refine Runs.newV w ?_
  intro h1 w1 k1 f1 l1 s1
  obtain ⟨h2, e2, u2⟩ := Vec.set_from_vector_run w1 h.next ((h.buf (.v x)).foldl Stat.addNew [])
  refine Runs.step e2 ?_
  refine ⟨h.next, rfl, f1, by show _ < h2.next; rw [u2.next]; exact l1, u2.wf w1, ?_, u2.vec_same⟩
  exact k1.trans_new u2.keeps fun l e hl => by subst e; exact absurd hl f1

/-- **C39.** On a non-empty vector `mode` returns a new vector that contains exactly the values of maximal multiplicity,
each of them once; no existing object changes. -/
theorem C39_mode (h : Heap R) (w : h.WF) (x : Nat) (hl : h.live (.v x)) (hne : h.buf (.v x) ≠ []) :
    Runs (Stat.mode (some x)) h fun r h' => ∃ o, r = some (.v o) ∧ ¬ h.live (.v o) ∧ h'.WF ∧
      Keeps h h' (fun _ => False) ∧ (h'.buf (.v o)).Nodup ∧
      ∀ v, v ∈ h'.buf (.v o) ↔ v ∈ h.buf (.v x) ∧ ∀ u, (h.buf (.v x)).count u ≤ (h.buf (.v x)).count v := by
  set l := h.buf (.v x) with hl'
  obtain ⟨nd, mem, len⟩ := addNew_fold l [] List.nodup_nil
  set s := l.foldl Stat.addNew [] with hs
  have mem : ∀ v, v ∈ s ↔ v ∈ l := fun v => by rw [mem]; simp
  have len : s.length ≤ l.length := by simpa using len
  have sne : s ≠ [] := by
    obtain ⟨a, ha⟩ := List.exists_mem_of_ne_nil l hne
    exact List.ne_nil_of_mem ((mem a).mpr ha)
  have spos := List.length_pos_of_ne_nil sne
  unfold Stat.mode
  dsimp only
  refine Runs.bind (Runs.mono (Stat.vec_to_setnv_run h w x) ?_)
  rintro r h1 ⟨o, rfl, fo, lo, w1, k1, b1⟩
  have bx : h1.buf (.v x) = l := (k1.2 _ hl not_false).1
  refine Runs.step (show derefV (some (Loc.v o)) h1 = .ok (o, h1) from rfl) (Runs.step (Vec.size_run w1 o)
    (Runs.step (Vec.size_run w1 x) ?_))
  rw [b1]
  have vx : h1.vec x = l := bx
  rw [vx]
  have e0 : foldN (σ := R → Int) s.length (fun _ => (0 : Int)) (fun i m => do
      let xi ← load (.v x) i
      pure (Stat.mapSet m xi 0)) h1 = .ok (fun _ => (0 : Int), h1) := by
    refine foldN_read s.length (fun _ => fun _ => (0 : Int)) _ _ h1 rfl ?_
    intro i hi
    rw [bind_ok (load_ok' (show i < (h1.buf (.v x)).length by rw [bx]; omega))]
    simp only [pure, M.pure]
    congr 2
    funext v
    simp [Stat.mapSet]
  have e1 : foldN (σ := R → Int) l.length (fun _ => (0 : Int)) (fun i m => do
      let xi ← load (.v x) i
      pure (Stat.mapAdd m xi)) h1 = .ok (fun v => ((l.count v : Nat) : Int), h1) := by
    have := foldN_load (.v x) l.length (fun _ => (0 : Int)) Stat.mapAdd h1 (by rw [bx])
    refine this.trans ?_
    congr 2
    funext v
    rw [bx, mapAdd_fold]; simp
  refine Runs.step e0 (Runs.step e1 ?_)
  refine Runs.newV w1 ?_
  intro h2 w2 k2 f2 l2 s2
  have hov : h2.buf (.v o) = s := (k2.2 _ lo not_false).1.trans b1
  have hno : Loc.v o ≠ Loc.v h1.next := fun e => f2 (by rw [← e]; exact lo)
  refine Runs.step (load_ok' (show 0 < (h2.buf (.v o)).length by rw [hov]; exact spos)) ?_
  have hg0 : (h2.buf (.v o))[0]'(by rw [hov]; exact spos) = s[0] := by simp only [hov]
  rw [hg0]
  refine Runs.bind (Runs.mono (Runs.foldN s.length (fun k (mx : Int) hh => hh.WF ∧ Keeps h2 hh (· = .v h1.next) ∧
      hh.next = h2.next ∧
      (∀ v ∈ s.take k, (l.count v : Int) ≤ mx) ∧ (∃ v ∈ s, mx = (l.count v : Int)) ∧
      hh.vec h1.next = (s.take k).filter fun v => decide ((l.count v : Int) = mx)) _ _ h2
    ⟨w2, Keeps.refl _ _, rfl, by simp, ⟨s[0], List.getElem_mem _, rfl⟩, ?_⟩ ?_) ?_)
  · have : (h2.buf (.v h1.next)).length = 0 := by rw [w2.len, s2]; rfl
    simpa [Heap.vec] using List.length_eq_zero_iff.mp this
  · rintro i mx h3 hi ⟨w3, k3, n3, le3, ex3, v3⟩
    have ho3 : h3.buf (.v o) = s := (k3.2 _ (k2.live lo) hno).1.trans hov
    refine Runs.step (load_ok' (show i < (h3.buf (.v o)).length by rw [ho3]; exact hi)) ?_
    have hg : (h3.buf (.v o))[i]'(by rw [ho3]; exact hi) = s[i] := by simp only [ho3]
    rw [hg]
    have tk : s.take (i + 1) = s.take i ++ [s[i]] := by
      rw [List.take_add_one, List.getElem?_eq_getElem hi]; rfl
    by_cases c1 : mx < (l.count s[i] : Int)
    · rw [if_pos c1]
      obtain ⟨h4, e4, u4⟩ := Vec.clear_run (h := h3) h1.next
      have w4 := u4.wf w3
      obtain ⟨h5, e5, u5⟩ := Vec.push_back_run w4 h1.next s[i]
      refine Runs.step e4 (Runs.step e5 ?_)
      refine ⟨u5.wf w4, k3.trans (u4.keeps.trans u5.keeps), by rw [u5.next, u4.next, n3], ?_, ⟨_, List.getElem_mem hi, rfl⟩, ?_⟩
      · intro v hv
        rw [tk, List.mem_append, List.mem_singleton] at hv
        rcases hv with q | rfl
        · exact (le3 v q).trans c1.le
        · exact le_refl _
      · rw [u5.vec_same, u4.vec_same, tk, List.filter_append]
        have : (s.take i).filter (fun v => decide ((l.count v : Int) = l.count s[i])) = [] := by
          rw [List.filter_eq_nil_iff]
          intro v hv
          have := le3 v hv
          simp only [decide_eq_true_eq]
          omega
        rw [this]
        simp
    · rw [if_neg c1]
      by_cases c2 : (l.count s[i] : Int) = mx
      · rw [if_pos c2]
        obtain ⟨h5, e5, u5⟩ := Vec.push_back_run w3 h1.next s[i]
        refine Runs.step e5 ?_
        refine ⟨u5.wf w3, k3.trans u5.keeps, by rw [u5.next, n3], ?_, ex3, ?_⟩
        · intro v hv
          rw [tk, List.mem_append, List.mem_singleton] at hv
          rcases hv with q | rfl
          · exact le3 v q
          · exact c2.le
        · rw [u5.vec_same, v3, tk, List.filter_append]
          simp [c2]
      · rw [if_neg c2]
        refine ⟨w3, k3, n3, ?_, ex3, ?_⟩
        · intro v hv
          rw [tk, List.mem_append, List.mem_singleton] at hv
          rcases hv with q | rfl
          · exact le3 v q
          · omega
        · rw [v3, tk, List.filter_append]
          simp [c2]
  · rintro mx h3 ⟨w3, k3, _, le3, ⟨v0, hv0, emx⟩, v3⟩
    rw [List.take_length] at le3 v3
    refine ⟨h1.next, rfl, fun q => f2 (k1.live q), w3, ?_, ?_, ?_⟩
    · refine (k1.trans k2).trans_new k3 fun l e hl => ?_
      subst e; exact absurd (k1.live hl) f2
    · have : h3.buf (.v h1.next) = _ := v3
      rw [this]; exact nd.filter _
    · intro v
      have : h3.buf (.v h1.next) = _ := v3
      rw [this, List.mem_filter, mem, decide_eq_true_eq]
      constructor
      · rintro ⟨hv, e⟩
        refine ⟨hv, fun u => ?_⟩
        by_cases hu : u ∈ l
        · have := le3 u ((mem u).mpr hu)
          omega
        · rw [List.count_eq_zero.mpr hu]; omega
      · rintro ⟨hv, hm⟩
        refine ⟨hv, ?_⟩
        have h1 := hm v0
        have h2 := le3 v ((mem v).mpr hv)
        omega
end mode

example : (Stat.mode (some 0) (Heap.ofLists (0 : Int) [[3, 1, 2, 1, 3, 5]] [])).bufOf (.v 2) = some [3, 1] := by
  decide +kernel

/-- **C39**, why the vector must not be empty: the code reads the first element of an empty array. -/
theorem C39_mode_empty_fails (h : Heap ℝ) (w : h.WF) (x : Nat) (hl : h.live (.v x)) (he : h.buf (.v x) = []) :
    Stat.mode (some x) h = .ub := by
  have r := Stat.vec_to_setnv_run h w x
  rw [runs_iff] at r
  obtain ⟨_, h1, e, o, rfl, fo, lo, w1, k1, b1⟩ := r
  rw [he] at b1
  have b1 : h1.vec o = [] := b1
  have vx : h1.vec x = [] := (k1.2 _ hl not_false).1.trans he
  unfold Stat.mode
  dsimp only
  rw [bind_ok e, bind_ok (show derefV (some (Loc.v o)) h1 = .ok (o, h1) from rfl), bind_ok (Vec.size_run w1 o),
    bind_ok (Vec.size_run w1 x), b1, vx]
  refine (bind_ok (a := fun _ => (0 : Int)) (h' := h1) rfl).trans ?_
  refine (bind_ok (a := fun _ => (0 : Int)) (h' := h1) rfl).trans ?_
  refine (bind_ok (m := newVec) rfl).trans ?_
  refine bind_ub (load_ub ?_)
  have hno : Loc.v o ≠ Loc.v h1.next := fun e => by
    have := lo
    rw [e] at this
    exact absurd this (Nat.lt_irrefl _)
  show ((h1.setBuf (.v h1.next) []).buf (.v o)).length ≤ 0
  rw [setBuf_buf_ne _ _ hno]
  have : h1.buf (.v o) = [] := b1
  rw [this]; simp

end Verif
