import Verif.Spec.Classification
import Verif.Spec.Matrix
import Verif.Lemmas.StdVector
import Verif.Lemmas.New
import Verif.Lemmas.Example

/-! # C62: the performance of a set of predictions -/

namespace Verif.Utilities
open Spec Classical
variable {m n : Nat}

theorem roundC_eq_iff (x : ℝ) (y : Int) : roundC x = y ↔ Nearest x y := by
  unfold roundC Nearest
  split
  · next hx =>
    rw [Int.cast_inj, Int.floor_eq_iff]
    constructor
    · rintro ⟨h1, h2⟩
      have hy : 0 ≤ y := by
        have : (-1 : ℝ) < y := by linarith
        have : (-1 : ℤ) < y := by exact_mod_cast this
        omega
      have hy' : (0 : ℝ) ≤ y := by exact_mod_cast hy
      refine ⟨abs_le.mpr ⟨by linarith, by linarith⟩, fun e => ?_⟩
      rw [abs_of_nonneg hx, abs_of_nonneg hy']
      rcases abs_eq (by norm_num : (0:ℝ) ≤ 1/2) |>.mp e with e | e <;> linarith
    · rintro ⟨h1, h2⟩
      obtain ⟨h3, h4⟩ := abs_le.mp h1
      refine ⟨by linarith, ?_⟩
      rcases lt_or_eq_of_le h4 with h5 | h5
      · linarith
      · have := h2 (by rw [h5]; norm_num)
        rw [abs_of_nonneg hx] at this
        have hy : (y : ℝ) < 0 ∨ 0 ≤ (y : ℝ) := lt_or_ge _ _
        rcases hy with hy | hy
        · rw [abs_of_neg hy] at this
          have : (y : ℝ) ≤ -1 := by
            have : y ≤ -1 := by have : y < 0 := by exact_mod_cast hy
                                omega
            exact_mod_cast this
          linarith
        · rw [abs_of_nonneg hy] at this; linarith
  · next hx =>
    have hx := lt_of_not_ge hx
    rw [Int.cast_inj, Int.ceil_eq_iff]
    constructor
    · rintro ⟨h1, h2⟩
      have hy : y ≤ 0 := by
        have : (y : ℝ) < 1 := by linarith
        have : y < 1 := by exact_mod_cast this
        omega
      have hy' : (y : ℝ) ≤ 0 := by exact_mod_cast hy
      refine ⟨abs_le.mpr ⟨by linarith, by linarith⟩, fun e => ?_⟩
      rw [abs_of_neg hx, abs_of_nonpos hy']
      rcases abs_eq (by norm_num : (0:ℝ) ≤ 1/2) |>.mp e with e | e <;> linarith
    · rintro ⟨h1, h2⟩
      obtain ⟨h3, h4⟩ := abs_le.mp h1
      refine ⟨?_, by linarith⟩
      rcases lt_or_eq_of_le h3 with h5 | h5
      · linarith
      · have := h2 (by rw [← h5]; norm_num)
        rw [abs_of_neg hx] at this
        rcases lt_or_ge 0 (y : ℝ) with hy | hy
        · rw [abs_of_pos hy] at this
          have : (1 : ℝ) ≤ y := by
            have : 1 ≤ y := by have : 0 < y := by exact_mod_cast hy
                               omega
            exact_mod_cast this
          linarith
        · rw [abs_of_nonpos hy] at this; linarith

theorem roundC_int (x : ℝ) : ∃ k : Int, roundC x = k := by
  unfold roundC; split <;> exact ⟨_, rfl⟩

/-- The approximate comparison decides equality of integers of moderate size. -/
theorem isEqualApprox_int (a b : Int) (hb : |(b : ℝ)| < 99999) : isEqualApprox (a : ℝ) (b : ℝ) = true ↔ a = b := by
  unfold isEqualApprox
  dsimp only
  rw [isEqualApproxS_iff, absC_eq]
  constructor
  · rintro (e | e)
    · exact_mod_cast e
    · by_contra hne
      have h1 : (1 : ℝ) ≤ |(a : ℝ) - b| := by
        have : 1 ≤ |a - b| := Int.one_le_abs (sub_ne_zero.mpr hne)
        exact_mod_cast this
      unfold cmpEps at e
      split at e
      · linarith
      · have h2 : |(a : ℝ)| ≤ |(a : ℝ) - b| + |(b : ℝ)| := by
          calc |(a : ℝ)| = |((a : ℝ) - b) + b| := by ring_nf
            _ ≤ _ := abs_add_le _ _
        generalize |(a : ℝ)| = A at *
        generalize |(b : ℝ)| = B at *
        generalize |(a : ℝ) - b| = D at *
        linarith
  · rintro rfl; exact Or.inl rfl

/-- Counting with the code's comparison. -/
theorem match_iff (p : ℝ) (y : Int) (hy : |(y : ℝ)| < 99999) : isEqualApprox (roundC p) (y : ℝ) = true ↔ Nearest p y := by
  obtain ⟨k, hk⟩ := roundC_int p
  rw [hk, isEqualApprox_int k y hy, ← roundC_eq_iff, hk, Int.cast_inj]

/-- How many of the first `k` indices satisfy `P`. -/
noncomputable def hits (P : Nat → Prop) (k : Nat) : Nat := ∑ i ∈ Finset.range k, if P i then 1 else 0

theorem hits_succ (P : Nat → Prop) (k : Nat) : hits P (k + 1) = if P k then hits P k + 1 else hits P k := by
  unfold hits; rw [Finset.sum_range_succ]; split <;> rfl

theorem hits_le (P : Nat → Prop) (k : Nat) : hits P k ≤ k := by
  induction k with
  | zero => simp [hits]
  | succ k ih => rw [hits_succ]; split <;> omega

theorem hits_eq_iff (P : Nat → Prop) (k : Nat) : hits P k = k ↔ ∀ i < k, P i := by
  induction k with
  | zero => simp [hits]
  | succ k ih =>
    have := hits_le P k
    rw [hits_succ]
    constructor
    · intro e i hi
      split at e
      · next hk =>
        rcases Nat.lt_succ_iff_lt_or_eq.mp hi with h1 | rfl
        · exact ih.mp (by omega) i h1
        · exact hk
      · omega
    · intro e
      rw [if_pos (e k (by omega)), ih.mpr fun i hi => e i (by omega)]

theorem hits_card (P : Nat → Prop) (n : Nat) (Q : Fin n → Prop) (e : ∀ i : Fin n, P i ↔ Q i) :
    hits P n = (Finset.univ.filter Q).card := by
  rw [Finset.card_filter, hits, ← Fin.sum_univ_eq_sum_range (fun i => if P i then 1 else 0) n]
  exact Finset.sum_congr rfl fun i _ => by simp only [e i]

/-- C62: for integer labels (below 99999 in absolute value), `performance_vec` is the fraction of the predictions whose nearest
integer is the label. -/
theorem C62_vec (h : Heap ℝ) (w : h.WF) (a b : Nat) (p : Fin n → ℝ) (y : Fin n → Int) (_hn : 0 < n) (ha : IsVec h a p)
    (hb : IsVec h b fun i => (y i : ℝ)) (hy : ∀ i, |(y i : ℝ)| < 99999) :
    performance_vec (some a) (some b) h = .ok (fraction fun i => Nearest (p i) (y i), h) := by
  obtain ⟨f, ef, ca⟩ := ha.cells w
  obtain ⟨g, eg, cb⟩ := hb.cells w
  unfold performance_vec
  dsimp only
  have sz : Vec.size a h = .ok (n, h) := by unfold Vec.size; rw [bind_ok (getSize_run _ _), ca.1]; rfl
  rw [bind_ok sz]
  rw [bind_ok (foldN_read n (hits fun i => isEqualApprox (roundC (f i)) (g i) = true) _ _ h (by simp [hits]) (by
    intro i hi
    rw [bind_ok (Vec.get_cells w ca hi), bind_ok (Vec.get_cells w cb hi), hits_succ]
    show Out.ok (_, h) = _
    by_cases hP : isEqualApprox (roundC (f i)) (g i) = true <;> simp [hP])), bind_ok sz]
  show Out.ok (_, h) = _
  unfold fraction
  rw [hits_card _ n (fun i => Nearest (p i) (y i))]
  intro i
  rw [← ef i, ← eg i]
  exact match_iff _ _ (hy i)

/-- C62: for integer labels, `performance_mat` is the fraction of the rows all of whose predictions are right. -/
theorem C62_mat (h : Heap ℝ) (w : h.WF) (a b : Nat) (p : Matrix (Fin m) (Fin n) ℝ) (y : Matrix (Fin m) (Fin n) Int) (_hm : 0 < m)
    (hn : 0 < n) (ha : IsMat h a p) (hb : IsMat h b (y.map fun k => (k : ℝ))) (hy : ∀ i j, |(y i j : ℝ)| < 99999) :
    performance_mat (some a) (some b) h = .ok (fraction fun i : Fin m => ∀ j, Nearest (p i j) (y i j), h) := by
  obtain ⟨f, ef, ca⟩ := ha.cells w
  obtain ⟨g, eg, cb⟩ := hb.cells w
  unfold performance_mat
  dsimp only
  let P : Nat → Nat → Prop := fun i j => isEqualApprox (roundC (f i j)) (g i j) = true
  rw [bind_ok (Mat.size_run a h), ca.1]
  dsimp only
  rw [bind_ok (foldN_read m (fun k => (hits (fun i => ∀ j < n, P i j) k : ℝ)) _ _ h (by simp [hits]) (by
    intro i hi
    rw [bind_ok (foldN_read n (fun k => (hits (P i) k, (hits (fun i => ∀ j < n, P i j) i : ℝ) + if k = n ∧ hits (P i) n = n then 1 else 0)) _ _ h
      (by simp [hits]; omega) ?_)]
    · show Out.ok (_, h) = _
      rw [hits_succ]
      simp only [true_and, hits_eq_iff]
      split <;> simp
    · intro j hj
      rw [bind_ok (Mat.element_get_run ca hi hj), bind_ok (Mat.element_get_run cb hi hj)]
      show Out.ok (_, h) = _
      have e := hits_succ (P i) j
      have l := hits_le (P i) j
      simp only [P] at e ⊢
      rw [← e]
      congr 3
      have l' := hits_le (P i) (j + 1)
      simp only [P] at l l'
      by_cases hjn : j + 1 = n
      · rw [hjn]
        rw [hjn] at l'
        simp only [true_and]
        rw [if_neg (show ¬ (j = n ∧ _) from fun q => by omega)]
        split <;> simp
      · rw [if_neg (by omega), if_neg (fun q => by omega), if_neg (fun q => hjn q.1)]))]
  show Out.ok (_, h) = _
  unfold fraction
  rw [hits_card _ m (fun i => ∀ j, Nearest (p i j) (y i j))]
  intro i
  have e : ∀ j : Fin n, P i j ↔ Nearest (p i j) (y i j) := by
    intro j
    simp only [P]
    rw [← ef i j, ← eg i j]
    exact match_iff _ _ (hy i j)
  constructor
  · intro q j; exact (e j).mp (q j j.2)
  · intro q j hj; exact (e ⟨j, hj⟩).mpr (q ⟨j, hj⟩)

/-- C62: `performance` on `std::vector`s is the fraction of the predictions whose nearest integer is the label, whatever the size
of the labels. -/
theorem C62_list (h : Heap ℝ) (ph : List ℝ) (y : List Int) (hl : ph.length = y.length) :
    performance ph (List.map (fun k : Int => (k : ℝ)) y) h =
      .ok (fraction fun i : Fin ph.length => Nearest ph[i] (y[(i : Nat)]'(hl ▸ i.2)), h) := by
  unfold performance
  rw [bind_ok (foldN_read ph.length (fun k => (hits (fun i => ∃ p q, ph[i]? = some p ∧ y[i]? = some q ∧ Nearest p q) k : ℝ)) _ _ h
    (by simp [hits]) (by
    intro i hi
    have hi' : i < y.length := hl ▸ hi
    rw [bind_ok (atS_lt hi h), bind_ok (atS_lt (by simpa using hi') h), hits_succ]
    show Out.ok (_, h) = _
    rw [List.getElem_map]
    have e : (∃ p q, ph[i]? = some p ∧ y[i]? = some q ∧ Nearest p q) ↔ roundC ph[i] = (y[i] : ℝ) := by
      rw [roundC_eq_iff]
      simp [hi, hi']
    by_cases hP : roundC ph[i] = (y[i] : ℝ)
    · rw [if_pos hP, if_pos (e.mpr hP)]; simp
    · rw [if_neg hP, if_neg (fun q => hP (e.mp q))]))]
  show Out.ok (_, h) = _
  unfold fraction
  rw [hits_card _ ph.length (fun i : Fin ph.length => Nearest ph[i] (y[(i : Nat)]'(hl ▸ i.2)))]
  intro i
  have hi' : i.1 < y.length := hl ▸ i.2
  simp [hi']

/-- C62: `performance` on nested `std::vector`s with rows of equal length is the fraction of the rows all of whose predictions are
right. -/
theorem C62_nested (h : Heap ℝ) (p : Fin m → Fin n → ℝ) (y : Fin m → Fin n → Int) (hn : 0 < n) :
    performance2 (List.ofFn fun i => List.ofFn (p i)) (List.ofFn fun i => List.ofFn fun j => (y i j : ℝ)) h =
      .ok (fraction fun i : Fin m => ∀ j, Nearest (p i j) (y i j), h) := by
  let P : Nat → Nat → Prop := fun i j => ∃ (hi : i < m) (hj : j < n), Nearest (p ⟨i, hi⟩ ⟨j, hj⟩) (y ⟨i, hi⟩ ⟨j, hj⟩)
  unfold performance2
  rw [bind_ok (foldN_read _ (fun k => (hits (fun i => ∀ j < n, P i j) k : ℝ)) _ _ h (by simp [hits]) (by
    intro i hi
    have hi : i < m := by simpa using hi
    rw [bind_ok (atS_lt (by simpa using hi) h), bind_ok (foldN_read _ (fun k => (hits (P i) k,
      (hits (fun i => ∀ j < n, P i j) i : ℝ) + if k = n ∧ hits (P i) n = n then 1 else 0)) _ _ h
      (by simp [hits]; omega) ?_)]
    · show Out.ok (_, h) = _
      rw [hits_succ]
      simp only [List.getElem_ofFn, List.length_ofFn, true_and, hits_eq_iff]
      split <;> simp
    · intro j hj
      have hj : j < n := by simpa using hj
      rw [bind_ok (atS_lt (by simpa using hj) h), bind_ok (atS_lt (by simpa using hi) h), bind_ok (atS_lt (by simpa using hj) h),
        bind_ok (atS_lt (by simp; omega) h)]
      show Out.ok (_, h) = _
      simp only [List.getElem_ofFn, List.length_ofFn]
      have e := hits_succ (P i) j
      have l := hits_le (P i) j
      have l' := hits_le (P i) (j + 1)
      have eP : P i j ↔ roundC (p ⟨i, hi⟩ ⟨j, hj⟩) = (y ⟨i, hi⟩ ⟨j, hj⟩ : ℝ) := by
        rw [roundC_eq_iff]; simp [P, hi, hj]
      have e2 : (if roundC (p ⟨i, hi⟩ ⟨j, hj⟩) = (y ⟨i, hi⟩ ⟨j, hj⟩ : ℝ) then hits (P i) j + 1 else hits (P i) j) = hits (P i) (j + 1) := by
        rw [e]
        by_cases hP : P i j
        · rw [if_pos hP, if_pos (eP.mp hP)]
        · rw [if_neg hP, if_neg (fun q => hP (eP.mpr q))]
      rw [e2]
      congr 3
      by_cases hjn : j + 1 = n
      · rw [hjn]
        simp only [true_and]
        rw [if_neg (show ¬ (j = n ∧ _) from fun q => by omega)]
        split <;> simp
      · rw [if_neg (by omega), if_neg (fun q => by omega), if_neg (fun q => hjn q.1)]))]
  show Out.ok (_, h) = _
  unfold fraction
  rw [List.length_ofFn, hits_card _ m (fun i => ∀ j, Nearest (p i j) (y i j))]
  intro i
  constructor
  · intro q j
    obtain ⟨_, _, r⟩ := q j j.2
    exact r
  · intro q j hj; exact ⟨i.2, hj, q ⟨j, hj⟩⟩

/-- C62: `performance_pool_int_array_vec` is the fraction of the indices at which the integer prediction is the nearest integer to
the output. -/
theorem C62_pool (h : Heap ℝ) (w : h.WF) (ph : List Int) (b : Nat) (y : Fin ph.length → ℝ) (hb : IsVec h b y) :
    performance_pool_int_array_vec ph (some b) h = .ok (fraction fun i : Fin ph.length => Nearest (y i) ph[i], h) := by
  obtain ⟨g, eg, cb⟩ := hb.cells w
  unfold performance_pool_int_array_vec
  dsimp only
  rw [bind_ok (foldN_read ph.length (fun k => (hits (fun i => ∃ q, ph[i]? = some q ∧ Nearest (g i) q) k : ℝ)) _ _ h
    (by simp [hits]) (by
    intro i hi
    rw [bind_ok (atS_lt hi h), bind_ok (Vec.get_cells w cb hi), hits_succ]
    show Out.ok (_, h) = _
    have e : (∃ q, ph[i]? = some q ∧ Nearest (g i) q) ↔ (ph[i] : ℝ) = roundC (g i) := by
      rw [eq_comm, roundC_eq_iff]; simp [hi]
    by_cases hP : (ph[i] : ℝ) = roundC (g i)
    · rw [if_pos hP, if_pos (e.mpr hP)]; simp
    · rw [if_neg hP, if_neg (fun q => hP (e.mp q))]))]
  show Out.ok (_, h) = _
  unfold fraction
  rw [hits_card _ ph.length (fun i : Fin ph.length => Nearest (y i) ph[i])]
  intro i
  simp [eg]

/-- C62: a missing argument gives `0`. -/
theorem C62_null (h : Heap ℝ) (a b : Option Nat) (ph : List Int) (e : a = none ∨ b = none) :
    performance_vec a b h = .ok (0, h) ∧ performance_mat a b h = .ok (0, h) ∧
      performance_pool_int_array_vec ph none h = .ok (0, h) := by
  refine ⟨?_, ?_, rfl⟩ <;> rcases e with rfl | rfl <;> first | rfl | (cases a <;> rfl)

/-- C62: a fraction is a number from 0 to 1; it is 1 exactly when every prediction is right. -/
theorem C62_range (P : Fin n → Prop) (hn : 0 < n) : 0 ≤ fraction P ∧ fraction P ≤ 1 ∧ (fraction P = 1 ↔ ∀ i, P i) := by
  have hn' : (0 : ℝ) < n := by exact_mod_cast hn
  have hc : (Finset.univ.filter P).card ≤ n := by simpa using Finset.card_le_univ (Finset.univ.filter P)
  have hc' : ((Finset.univ.filter P).card : ℝ) ≤ n := by exact_mod_cast hc
  unfold fraction
  refine ⟨by positivity, (div_le_one hn').mpr hc', ?_⟩
  rw [div_eq_one_iff_eq hn'.ne', Nat.cast_inj]
  constructor
  · intro e i
    have : Finset.univ.filter P = Finset.univ := Finset.eq_univ_of_card _ (by simpa using e)
    have hi : i ∈ Finset.univ.filter P := by rw [this]; exact Finset.mem_univ i
    exact (Finset.mem_filter.mp hi).2
  · intro e
    rw [Finset.filter_true_of_mem fun i _ => e i]; simp

/-- The hypotheses of `C62_vec` are met by two predictions, one of them right. -/
example : ∃ (h : Heap ℝ) (p : Fin 2 → ℝ) (y : Fin 2 → Int), h.WF ∧ IsVec h 0 p ∧ IsVec h 1 (fun i => (y i : ℝ)) ∧
    (∀ i, |(y i : ℝ)| < 99999) ∧ Nearest (p 0) (y 0) ∧ ¬ Nearest (p 1) (y 1) := by
  refine ⟨Heap.ofLists 0 [[9 / 10, 3 / 10], [1, 1]] [], ![9 / 10, 3 / 10], ![1, 1], Heap.ofLists_wf _ _ _ (by simp), ⟨rfl, ?_⟩, ⟨rfl, ?_⟩, ?_, ?_, ?_⟩
  · intro i; fin_cases i <;> rfl
  · intro i; fin_cases i <;> simp [Heap.ofLists]
  · intro i; fin_cases i <;> norm_num
  · norm_num [Nearest, abs_le]
  · norm_num [Nearest, abs_le]

end Verif.Utilities
