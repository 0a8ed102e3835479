import Verif.Spec.Batches
import Verif.Lemmas.StdVector

/-! # C61: mini-batches of `std::vector`s -/

namespace Verif.Utilities
open Spec
variable {R α β : Type}

/-- The first `i` pieces of `q` elements. -/
def pieces (xs : List α) (q i : Nat) : List (List α) := (List.range i).map fun t => (xs.drop (q * t)).take q

theorem pieces_succ (xs : List α) (q i : Nat) : pieces xs q (i + 1) = pieces xs q i ++ [(xs.drop (q * i)).take q] := by
  simp [pieces, List.range_succ]

theorem pieces_flatten (xs : List α) (q i : Nat) : (pieces xs q i).flatten = xs.take (q * i) := by
  induction i with
  | zero => simp [pieces]
  | succ i ih => rw [pieces_succ, List.flatten_append, ih, Nat.mul_succ, List.take_add]; simp

theorem pieces_length (xs : List α) (q i : Nat) : (pieces xs q i).length = i := by simp [pieces]

/-- The pieces, `r` more elements being added to the last. -/
def piecesPlus (xs : List α) (q k r : Nat) : List (List α) := pieces xs q k ++ [(xs.drop (q * k)).take (q + r)]

theorem piecesPlus_batches (xs : List α) (k : Nat) :
    Batches xs (k + 1) (piecesPlus xs (xs.length / (k + 1)) k (xs.length % (k + 1))) := by
  have hd := Nat.div_add_mod xs.length (k + 1)
  generalize hq : xs.length / (k + 1) = q at *
  generalize hr : xs.length % (k + 1) = r at *
  have hl : xs.length = q * k + (q + r) := by rw [← hd]; ring
  unfold piecesPlus
  refine ⟨?_, by simp [pieces_length], ?_⟩
  · rw [List.flatten_append, pieces_flatten]
    simp only [List.flatten_cons, List.flatten_nil, List.append_nil]
    rw [List.take_of_length_le (l := xs.drop (q * k)) (by simp; omega), List.take_append_drop]
  · intro i hi
    have hi' : i < k + 1 := by simpa [pieces_length] using hi
    rw [hq, hr]
    by_cases e : i = k
    · subst e
      rw [if_pos rfl, List.getElem_append_right (by simp [pieces_length])]
      simp [hl]
    · have : i < k := by omega
      rw [if_neg (by omega), List.getElem_append_left (by simpa [pieces_length] using this)]
      have : q * i + q ≤ q * k := by rw [← Nat.mul_succ]; exact Nat.mul_le_mul_left _ this
      simp [pieces, hl]
      omega

theorem take_snoc (xs : List α) (a j : Nat) (hj : a + j < xs.length) :
    (xs.drop a).take j ++ [xs[a + j]] = (xs.drop a).take (j + 1) := by
  rw [List.take_add_one, List.getElem?_drop, List.getElem?_eq_getElem hj]; rfl

theorem remains_iff (n k : Nat) : remains n ((k : Int) + 1) (((n / (k + 1) : Nat)) : Int) = true ↔ n % (k + 1) ≠ 0 := by
  unfold remains
  have hk : ((k : Rat) + 1) ≠ 0 := by positivity
  rw [decide_eq_true_iff, not_iff_not]
  have hd : ((n : Nat) : Rat) = (k + 1) * ((n / (k + 1) : Nat) : Rat) + ((n % (k + 1) : Nat) : Rat) := by
    exact_mod_cast (Nat.div_add_mod n (k + 1)).symm
  simp only [Int.cast_natCast, Int.cast_add, Int.cast_one]
  rw [hd]
  have : (((k : Rat) + 1) * ((n / (k + 1) : Nat) : Rat) + ((n % (k + 1) : Nat) : Rat)) / (k + 1) - ((n / (k + 1) : Nat) : Rat) =
      ((n % (k + 1) : Nat) : Rat) / (k + 1) := by field_simp; ring
  rw [this, div_eq_zero_iff]
  simp [hk]

theorem pushAt_last (v : List (List α)) (l : List α) (x : α) (h : Heap R) :
    pushAt (v ++ [l]) (v.length : Int) x h = .ok (v ++ [l ++ [x]], h) := by
  unfold pushAt
  rw [if_pos (by simp [idxOk])]
  show Out.ok (_, h) = _
  congr 2
  rw [Int.toNat_natCast]
  induction v with
  | nil => rfl
  | cons a v ih => simp [ih]

/-- C61: for a positive number `k` of batches, `createMiniBatches` cuts the list into `k` consecutive pieces, the remaining elements going
to the last one. -/
theorem C61_list (h : Heap R) (xs : List α) (k : Nat) (hk : 0 < k) :
    ∃ bs, createMiniBatches xs (k : Int) h = .ok (bs, h) ∧ Batches xs k bs := by
  obtain ⟨k, rfl⟩ : ∃ k', k = k' + 1 := ⟨k - 1, by omega⟩
  refine ⟨_, ?_, piecesPlus_batches xs k⟩
  have hd := Nat.div_add_mod xs.length (k + 1)
  have hrm := remains_iff xs.length k
  have htd : ((xs.length : Nat) : Int).tdiv (((k + 1 : Nat)) : Int) = ((xs.length / (k + 1) : Nat) : Int) := Int.ofNat_tdiv ..
  unfold createMiniBatches
  dsimp only
  rw [if_neg (by omega), htd]
  generalize hq : xs.length / (k + 1) = q at *
  generalize hr : xs.length % (k + 1) = r at *
  have hl : xs.length = q * k + (q + r) := by rw [← hd]; ring
  rw [Int.toNat_natCast, bind_ok (foldN_read (k + 1) (pieces xs q) _ _ h (by simp [pieces]) (by
    intro i hi
    rw [Int.toNat_natCast, bind_ok (foldN_read q (fun j => (xs.drop (q * i)).take j) _ _ h (by simp) (by
      intro j hj
      have hij : q * i + j < xs.length := by
        have : q * i + q ≤ q * k + q := by gcongr; omega
        omega
      rw [show ((q : Int) * (i : Int) + (j : Int)).toNat = q * i + j by omega, bind_ok (atS_lt hij h), ← take_snoc xs _ _ hij]; rfl)),
      pieces_succ]; rfl))]
  by_cases e : r = 0
  · subst e
    rw [if_neg (by push_cast; simp [hrm])]
    show Out.ok (_, h) = _
    rw [pieces_succ]; rfl
  · rw [if_pos (by push_cast; exact hrm.mpr e)]
    have hcnt : ((xs.length : Nat) : Int) - (q : Int) * ((k + 1 : Nat) : Int) = (r : Int) := by
      rw [← hd]; push_cast; ring
    rw [hcnt, Int.toNat_natCast]
    refine foldN_read r (fun i => piecesPlus xs q k i) _ _ h (by rw [pieces_succ]; rfl) (by
      intro i hi
      have hi' : q * k + (q + i) < xs.length := by omega
      have ei : ((q : Int) * ((k + 1 : Nat) : Int) + (i : Int)).toNat = q * k + (q + i) := by
        rw [show ((q : Int) * ((k + 1 : Nat) : Int) + (i : Int)) = ((q * k + (q + i) : Nat) : Int) by push_cast; ring, Int.toNat_natCast]
      rw [ei, bind_ok (atS_lt hi' h), show ((k + 1 : Nat) : Int) - 1 = ((pieces xs q k).length : Int) by rw [pieces_length]; omega]
      rw [show piecesPlus xs q k i = pieces xs q k ++ [(xs.drop (q * k)).take (q + i)] from rfl, pushAt_last]
      rw [take_snoc xs _ _ hi']; rfl)

/-- C61: the paired version cuts the inputs and the outputs at the same places. -/
theorem C61_pairs (h : Heap R) (xs : List α) (ys : List β) (hxy : xs.length = ys.length) (k : Nat) (hk : 0 < k) :
    ∃ bs cs, createMiniBatches2 xs ys (k : Int) h = .ok ((bs, cs), h) ∧ Batches xs k bs ∧ Batches ys k cs := by
  obtain ⟨k, rfl⟩ : ∃ k', k = k' + 1 := ⟨k - 1, by omega⟩
  refine ⟨_, _, ?_, piecesPlus_batches xs k, piecesPlus_batches ys k⟩
  rw [← hxy]
  have hd := Nat.div_add_mod xs.length (k + 1)
  have hrm := remains_iff xs.length k
  have htd : ((xs.length : Nat) : Int).tdiv (((k + 1 : Nat)) : Int) = ((xs.length / (k + 1) : Nat) : Int) := Int.ofNat_tdiv ..
  unfold createMiniBatches2
  dsimp only
  rw [if_neg (by omega), htd]
  generalize hq : xs.length / (k + 1) = q at *
  generalize hr : xs.length % (k + 1) = r at *
  have hl : xs.length = q * k + (q + r) := by rw [← hd]; ring
  rw [Int.toNat_natCast, bind_ok (foldN_read (k + 1) (fun i => (pieces xs q i, pieces ys q i)) _ _ h (by simp [pieces]) (by
    intro i hi
    rw [Int.toNat_natCast, bind_ok (foldN_read q (fun j => ((xs.drop (q * i)).take j, (ys.drop (q * i)).take j)) _ _ h (by simp) (by
      intro j hj
      have hij : q * i + j < xs.length := by
        have : q * i + q ≤ q * k + q := by gcongr; omega
        omega
      have hij' : q * i + j < ys.length := hxy ▸ hij
      rw [show ((q : Int) * (i : Int) + (j : Int)).toNat = q * i + j by omega, bind_ok (atS_lt hij h), bind_ok (atS_lt hij' h),
        ← take_snoc xs _ _ hij, ← take_snoc ys _ _ hij']; rfl)),
      pieces_succ, pieces_succ]; rfl))]
  by_cases e : r = 0
  · subst e
    rw [if_neg (by push_cast; simp [hrm])]
    show Out.ok (_, h) = _
    rw [pieces_succ, pieces_succ]; rfl
  · rw [if_pos (by push_cast; exact hrm.mpr e)]
    have hcnt : ((xs.length : Nat) : Int) - (q : Int) * ((k + 1 : Nat) : Int) = (r : Int) := by
      rw [← hd]; push_cast; ring
    rw [hcnt, Int.toNat_natCast]
    refine foldN_read r (fun i => (piecesPlus xs q k i, piecesPlus ys q k i)) _ _ h (by rw [pieces_succ, pieces_succ]; rfl) (by
      intro i hi
      have hi' : q * k + (q + i) < xs.length := by omega
      have hi'' : q * k + (q + i) < ys.length := hxy ▸ hi'
      have ei : ((q : Int) * ((k + 1 : Nat) : Int) + (i : Int)).toNat = q * k + (q + i) := by
        rw [show ((q : Int) * ((k + 1 : Nat) : Int) + (i : Int)) = ((q * k + (q + i) : Nat) : Int) by push_cast; ring, Int.toNat_natCast]
      rw [ei, bind_ok (atS_lt hi' h), show ((k + 1 : Nat) : Int) - 1 = ((pieces xs q k).length : Int) by rw [pieces_length]; omega]
      dsimp only
      rw [show piecesPlus xs q k i = pieces xs q k ++ [(xs.drop (q * k)).take (q + i)] from rfl, bind_ok (pushAt_last ..),
        bind_ok (atS_lt hi'' h), show ((pieces xs q k).length : Int) = ((pieces ys q k).length : Int) by simp [pieces_length],
        show piecesPlus ys q k i = pieces ys q k ++ [(ys.drop (q * k)).take (q + i)] from rfl, bind_ok (pushAt_last ..),
        take_snoc xs _ _ hi', take_snoc ys _ _ hi'']; rfl)

/-- C61: zero batches, and a negative number of batches that leaves a remainder, are undefined behaviour. -/
theorem C61_nonpositive_fails (h : Heap R) (xs : List α) (k : Int) (hk : k ≤ 0) (hr : k = 0 ∨ ¬ k ∣ (xs.length : Int)) :
    createMiniBatches xs k h = .ub := by
  unfold createMiniBatches
  dsimp only
  by_cases h0 : k = 0
  · rw [if_pos h0]; rfl
  rw [if_neg h0]
  have hr := hr.resolve_left h0
  rw [show k.toNat = 0 by omega, show foldN 0 ([] : List (List α)) _ = pure [] from rfl, bind_ok (show (pure [] : M R (List (List α))) h = Out.ok ([], h) from rfl)]
  have hkq : (k : Rat) ≠ 0 := by exact_mod_cast h0
  have hne : (xs.length : Int) - (xs.length : Int).tdiv k * k ≠ 0 := fun e => hr ⟨(xs.length : Int).tdiv k, by rw [mul_comm]; omega⟩
  rw [if_pos]
  · have h1 := Int.mul_tdiv_add_tmod (xs.length : Int) k
    have h2 := Int.tmod_nonneg k (show 0 ≤ (xs.length : Int) by omega)
    rw [mul_comm] at h1
    have hpos : 0 < ((xs.length : Int) - (xs.length : Int).tdiv k * k).toNat := by omega
    refine foldN_ub _ 0 hpos (fun _ => []) _ _ h rfl (by intro i hi; omega) ?_
    have h3 : (xs.length : Int).tdiv k ≤ 0 := Int.tdiv_nonpos_of_nonneg_of_nonpos (by omega) hk
    have h4 : 0 ≤ (xs.length : Int).tdiv k * k := mul_nonneg_of_nonpos_of_nonpos h3 hk
    generalize (xs.length : Int).tdiv k * k = e at *
    have h5 : (e + ((0 : Nat) : Int)).toNat < xs.length := by omega
    rw [bind_ok (atS_lt h5 h)]
    unfold pushAt
    rw [if_neg (by simp [idxOk])]; rfl
  · unfold remains
    rw [decide_eq_true_iff]
    intro e
    apply hne
    have : ((xs.length : Nat) : Rat) - ((xs.length : Int).tdiv k : Rat) * (k : Rat) = 0 := by
      field_simp at e
      linarith
    exact_mod_cast this

/-- Seven elements in three batches. -/
example : (createMiniBatches [1, 2, 3, 4, 5, 6, 7] 3 (Heap.init (fun _ _ => 0) : Heap Int)).valOf = some [[1, 2], [3, 4], [5, 6, 7]] := by
  decide +kernel

end Verif.Utilities
