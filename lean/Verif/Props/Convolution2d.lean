import Verif.Lemmas.Conv3
import Verif.Lemmas.Harris
import Verif.Lemmas.Example
import Verif.Lemmas.ExampleTen

/-!
# C92: convolution of images; C96: convolution of volumes
-/

namespace Verif
open Spec Convolutions
variable {m n F D r c : Nat}

/-- **C92 (stride 1)**: `convolve_2d(input, filter, 1, P)` returns a new square matrix, one cell for every position of the filter on the
image with `P` rows and columns of zeros around it, holding the sum of the products of the filter with the image under it. (The number of
cells is that of the rows of the image.) -/
theorem C92_convolve_2d (h : Heap ℝ) (w : h.WF) (a b : Nat) (A : Matrix (Fin m) (Fin n) ℝ) (hA : IsMat h a A) (la : h.live (.m a))
    (K : Matrix (Fin F) (Fin F) ℝ) (hK : IsMat h b K) (lb : h.live (.m b)) (P : Nat) (hF : F ≤ m + 2 * P) :
    ReturnsMat (convolve_2d (some (.m a)) (some (.m b)) 1 P) h (convolution A K 1 P (m + 2 * P - F + 1)) := by
  have := convolve_2d_run w hA la hK lb (S := 1) (P := P) (L := m + 2 * P - F + 1) le_rfl hF (by rw [Nat.div_one])
  simp only [Nat.cast_one, start_one] at this
  refine cast (congrArg _ ?_) this
  funext i j
  simp [convolution]

/-- **C92 (other strides, at most two windows a side)**: with a stride that leaves at most two positions of the filter in each direction the
result is the convolution with that stride. -/
theorem C92_stride_partial (h : Heap ℝ) (w : h.WF) (a b : Nat) (A : Matrix (Fin m) (Fin n) ℝ) (hA : IsMat h a A) (la : h.live (.m a))
    (K : Matrix (Fin F) (Fin F) ℝ) (hK : IsMat h b K) (lb : h.live (.m b)) (S P : Nat) (hS : 1 ≤ S) (hF : F ≤ m + 2 * P)
    (hL : (m + 2 * P - F) / S + 1 ≤ 2) :
    ReturnsMat (convolve_2d (some (.m a)) (some (.m b)) S P) h (convolution A K S P ((m + 2 * P - F) / S + 1)) := by
  refine cast (congrArg _ ?_) (convolve_2d_run w hA la hK lb hS hF rfl)
  funext i j
  have e : ∀ i : Fin ((m + 2 * P - F) / S + 1), start S i = i.val * S := by
    intro i
    have := i.2
    unfold start
    split_ifs with h
    · simp [h]
    · have : i.val = 1 := by omega
      rw [this]; push_cast; ring
  simp only [convolution, e]

/-- **C92 (exact, any stride)**: in general the window number `i ≥ 1` is taken at row (or column) `i + S − 1` instead of `i · S`. -/
theorem C92_any_stride_partial (h : Heap ℝ) (w : h.WF) (a b : Nat) (A : Matrix (Fin m) (Fin n) ℝ) (hA : IsMat h a A) (la : h.live (.m a))
    (K : Matrix (Fin F) (Fin F) ℝ) (hK : IsMat h b K) (lb : h.live (.m b)) (S P : Nat) (hS : 1 ≤ S) (hF : F ≤ m + 2 * P) :
    ReturnsMat (convolve_2d (some (.m a)) (some (.m b)) S P) h (fun i j : Fin ((m + 2 * P - F) / S + 1) =>
      overlap A K ((if i.val = 0 then 0 else i.val + (S - 1 : Int)) - P) ((if j.val = 0 then 0 else j.val + (S - 1 : Int)) - P)) :=
  convolve_2d_run w hA la hK lb hS hF rfl

/-- **C92 (false for strides above 1)**: for every stride `S ≥ 2` and every image with at least `2 S + 1` rows, on which the one-cell filter
`1` has a third window, there are cells for which the result is not the convolution: the third window is taken one row after the second. -/
theorem C92_stride_fails (h : Heap ℝ) (w : h.WF) (a b : Nat) (A : Matrix (Fin m) (Fin n) ℝ) (hA : IsMat h a A) (la : h.live (.m a))
    (hK : IsMat h b (fun _ _ => 1 : Matrix (Fin 1) (Fin 1) ℝ)) (lb : h.live (.m b)) (S : Nat) (hS : 2 ≤ S) (hm : 2 * S + 1 ≤ m) (hn : 1 ≤ n)
    (hd : A ⟨S + 1, by omega⟩ ⟨0, by omega⟩ ≠ A ⟨2 * S, by omega⟩ ⟨0, by omega⟩) :
    ¬ ReturnsMat (convolve_2d (some (.m a)) (some (.m b)) S 0) h (convolution A (fun _ _ => 1 : Matrix (Fin 1) (Fin 1) ℝ) S 0 ((m - 1) / S + 1)) := by
  intro q
  have q' := convolve_2d_run w hA la hK lb (S := S) (P := 0) (L := (m - 1) / S + 1) (by omega) (by omega) (by simp)
  obtain ⟨r1, h1, e1, o1, er1, _, _, _, _, i1⟩ := runs_iff.mp q
  obtain ⟨r2, h2, e2, o2, er2, _, _, _, _, i2⟩ := runs_iff.mp q'
  simp only [Nat.cast_zero] at e2
  rw [e1] at e2
  injection e2 with e2
  injection e2 with e2 e3
  subst e2 e3 er1
  cases er2
  have h2 : 2 < (m - 1) / S + 1 := by
    have : 2 ≤ (m - 1) / S := (Nat.le_div_iff_mul_le (by omega)).mpr (by omega)
    omega
  have u1 := i1.2 ⟨2, h2⟩ ⟨0, by omega⟩
  have u2 := i2.2 ⟨2, h2⟩ ⟨0, by omega⟩
  rw [u1] at u2
  injection u2 with u2
  refine hd ?_
  have s2 : start S 2 = ((S + 1 : Nat) : Int) := by unfold start; rw [if_neg (by omega)]; push_cast; ring
  have v1 : convolution A (fun _ _ => 1 : Matrix (Fin 1) (Fin 1) ℝ) S 0 ((m - 1) / S + 1) ⟨2, h2⟩ ⟨0, by omega⟩ = A ⟨2 * S, by omega⟩ ⟨0, by omega⟩ := by
    rw [← ext_in (A := A) ⟨2 * S, by omega⟩ ⟨0, by omega⟩]
    simp [convolution, overlap, window]
  have v2 : overlap A (fun _ _ => 1 : Matrix (Fin 1) (Fin 1) ℝ) (start S 2 - (0 : Nat)) (start S 0 - (0 : Nat)) = A ⟨S + 1, by omega⟩ ⟨0, by omega⟩ := by
    rw [s2, ← ext_in (A := A) ⟨S + 1, by omega⟩ ⟨0, by omega⟩]
    simp [overlap, window, start]
  rw [v1] at u2
  rw [u2]
  exact v2.symm

/-- A heap with a 5 by 5 image in matrix 0 and the filter `1` in matrix 1. -/
noncomputable def exHeapConv : Heap ℝ :=
  Heap.ofLists 0 [] [(5, 5, [0, 0, 0, 0, 0, 1, 0, 0, 0, 0, 2, 0, 0, 0, 0, 3, 0, 0, 0, 0, 4, 0, 0, 0, 0]), (1, 1, [1])]

/-- The hypotheses of the theorems above are met. -/
example : exHeapConv.WF ∧ IsMat exHeapConv 0 (fun i j => if j.val = 0 then (i.val : ℝ) else 0 : Matrix (Fin 5) (Fin 5) ℝ) ∧ exHeapConv.live (.m 0) ∧
    IsMat exHeapConv 1 (fun _ _ => 1 : Matrix (Fin 1) (Fin 1) ℝ) ∧ exHeapConv.live (.m 1) ∧
    (fun i j => if j.val = 0 then (i.val : ℝ) else 0 : Matrix (Fin 5) (Fin 5) ℝ) ⟨2 + 1, by omega⟩ ⟨0, by omega⟩ ≠
      (fun i j => if j.val = 0 then (i.val : ℝ) else 0 : Matrix (Fin 5) (Fin 5) ℝ) ⟨2 * 2, by omega⟩ ⟨0, by omega⟩ := by
  refine ⟨Heap.ofLists_wf _ _ _ (by simp), ⟨by simp [exHeapConv, Heap.ofLists], fun i j => by fin_cases i <;> fin_cases j <;> simp [exHeapConv, Heap.ofLists]⟩,
    by simp [exHeapConv, Heap.ofLists, Heap.live, Loc.id], ⟨by simp [exHeapConv, Heap.ofLists], fun i j => by fin_cases i; fin_cases j; simp [exHeapConv, Heap.ofLists]⟩,
    by simp [exHeapConv, Heap.ofLists, Heap.live, Loc.id], by norm_num⟩

/-! ## C96 -/

/-- **C96 (exact, one filter, no padding)**: `convolve_3d(input, filter, S, 0)` with a filter of as many channels as the input returns a new
tensor of one slice, but the input is read with the indices in the order row, column, channel where `element_get` expects channel, row,
column. -/
theorem C96_convolve_3d_partial (h : Heap ℝ) (w : h.WF) (a b : Nat) (T : Fin D → Fin r → Fin c → ℝ) (hA : IsTen h a T) (la : h.live (.t a))
    (hD : 1 ≤ D) (K : Fin D → Fin F → Fin F → ℝ) (hK : IsTen h b K) (lb : h.live (.t b)) (hF0 : 1 ≤ F) (hF : F ≤ r) :
    ReturnsTen (convolve_3d (some (.t a)) (some (.t b)) 1 0) h (fun (_ : Fin 1) (i j : Fin (r - F + 1)) =>
      ∑ t : Fin D, ∑ k : Fin F, ∑ p : Fin F, ext3 T (i.val + k.val) (j.val + p.val) t.val * K t k p) := by
  have := convolve_3d_run (C := 1) w hA la hD (K := fun z => K ⟨z.val, by omega⟩)
    ⟨by rw [hK.1, Nat.one_mul], fun z y x => hK.2 ⟨z.val, by omega⟩ y x⟩ lb (S := 1) (L := r - F + 1) le_rfl hF0 hF (by rw [Nat.div_one])
  simp only [Nat.cast_one, start_one] at this
  exact this

/-- **C96 (several filters: false)**: with a filter tensor of `C ≥ 2` times the number of channels, the result has `C` slices whose cells are
all 0, whatever the input and the filters are (the lengths of the two flattened operands differ, and the product of vectors of different
lengths is 0). -/
theorem C96_several_filters_fails (h : Heap ℝ) (w : h.WF) (a b C : Nat) (T : Fin D → Fin r → Fin c → ℝ) (hA : IsTen h a T) (la : h.live (.t a))
    (hD : 1 ≤ D) (hC : 2 ≤ C) (K : Fin (C * D) → Fin F → Fin F → ℝ) (hK : IsTen h b K) (lb : h.live (.t b)) (S : Nat) (hS : 1 ≤ S) (hF0 : 1 ≤ F)
    (hF : F ≤ r) :
    ReturnsTen (convolve_3d (some (.t a)) (some (.t b)) S 0) h (fun (_ : Fin C) (_ _ : Fin ((r - F) / S + 1)) => 0) := by
  refine cast (congrArg _ ?_) (convolve_3d_run w hA la hD hK lb hS hF0 hF rfl)
  funext z i j
  rw [dif_neg (by omega)]

/-- **C96 (exact, any stride, with padding)**: `convolve_3d(input, filter, S, P)` with `C` filters, padding `P ≥ 1` and a filter that fits into the padded image
returns a new tensor of `C` slices of `(r + 2P - F) / S + 1` by as many cells. For one filter each cell is the sum over a window of a padded volume, but the volume
is padded reading its cells with the indices in the order row, column, channel where channel, row, column is expected, and the padded volume is read in the same
wrong order again; its windows begin at `start S i`. For several filters all cells are 0. -/
theorem C96_padded_partial (h : Heap ℝ) (w : h.WF) (a b C : Nat) (T : Fin D → Fin r → Fin c → ℝ) (hA : IsTen h a T) (la : h.live (.t a))
    (hD : 1 ≤ D) (K : Fin (C * D) → Fin F → Fin F → ℝ) (hK : IsTen h b K) (lb : h.live (.t b)) (S P : Nat) (hS : 1 ≤ S) (hP : 1 ≤ P) (hF0 : 1 ≤ F)
    (hF : F ≤ r + 2 * P) :
    ReturnsTen (convolve_3d (some (.t a)) (some (.t b)) S P) h (fun (_ : Fin C) (i j : Fin ((r + 2 * P - F) / S + 1)) =>
      if hC : C = 1 then ∑ t : Fin D, ∑ k : Fin F, ∑ p : Fin F,
        ext3 (fun (z : Fin D) (y x : Fin (r + 2 * P)) => padCell T P z.val y.val x.val) (start S i + k.val) (start S j + p.val) t.val *
          K ⟨t.val, by subst hC; omega⟩ k p else 0) :=
  convolve_3d_of hA hD hK lb hS hF0 hF rfl (padded3_run w hA la hP)

/-- **C96 (one channel with padding: false)**: an image of one channel and two rows or more, convolved with the filter `1` and padding 1, is the image
surrounded by zeros; the code returns 0 in the place of the cell in the second row of the image, whatever it is. -/
theorem C96_padded_fails (h : Heap ℝ) (w : h.WF) (a b : Nat) (T : Fin 1 → Fin r → Fin c → ℝ) (hA : IsTen h a T) (la : h.live (.t a))
    (hr : 2 ≤ r) (hc : 1 ≤ c) (hT : T 0 ⟨1, hr⟩ ⟨0, hc⟩ ≠ 0) (hK : IsTen h b (fun _ _ _ => 1 : Fin 1 → Fin 1 → Fin 1 → ℝ)) (lb : h.live (.t b)) :
    ¬ ReturnsTen (convolve_3d (some (.t a)) (some (.t b)) 1 1) h (fun (_ : Fin 1) (i j : Fin ((r + 2 * 1 - 1) / 1 + 1)) =>
      ext3 T 0 (i.val - 1) (j.val - 1)) := by
  intro q
  have q' := C96_padded_partial h w a b 1 T hA la le_rfl (fun _ _ _ => 1) hK lb 1 1 le_rfl le_rfl le_rfl (by omega)
  obtain ⟨r1, h1, e1, o1, er1, _, _, _, _, i1⟩ := runs_iff.mp q
  obtain ⟨r2, h2, e2, o2, er2, _, _, _, _, i2⟩ := runs_iff.mp q'
  simp only [Nat.cast_one] at e2
  rw [e1] at e2
  injection e2 with e2
  injection e2 with e2 e3
  subst e2 e3 er1
  cases er2
  have u1 := i1.2 0 ⟨2, by omega⟩ ⟨1, by omega⟩
  have u2 := i2.2 0 ⟨2, by omega⟩ ⟨1, by omega⟩
  rw [u1] at u2
  injection u2 with u2
  refine hT ?_
  rw [← ext3_in (T := T) 0 ⟨1, hr⟩ ⟨0, hc⟩]
  refine Eq.trans ?_ (u2.trans ?_)
  · norm_num
  · simp only [dite_true]
    refine Finset.sum_eq_zero fun t _ => Finset.sum_eq_zero fun k _ => Finset.sum_eq_zero fun p _ => ?_
    rw [ext3_out (by simp [start]), zero_mul]

/-- **C96 (single filter: false)**: for the volume of two channels of 2 by 2 cells that is 1 in channel 0, row 0, column 1 and 0 elsewhere, the
convolution with the filter of one cell a channel with weights 1, 0 is that first channel; the code returns a different slice. -/
theorem C96_convolve_3d_fails (h : Heap ℝ) (w : h.WF) (a b : Nat)
    (hA : IsTen h a (fun z y x => if z.val = 0 ∧ y.val = 0 ∧ x.val = 1 then 1 else 0 : Fin 2 → Fin 2 → Fin 2 → ℝ)) (la : h.live (.t a))
    (hK : IsTen h b (fun z _ _ => if z.val = 0 then 1 else 0 : Fin 2 → Fin 1 → Fin 1 → ℝ)) (lb : h.live (.t b)) :
    ¬ ReturnsTen (convolve_3d (some (.t a)) (some (.t b)) 1 0) h (fun (_ : Fin 1) (i j : Fin 2) =>
      convolution3 (fun z y x => if z.val = 0 ∧ y.val = 0 ∧ x.val = 1 then 1 else 0 : Fin 2 → Fin 2 → Fin 2 → ℝ)
        (fun z _ _ => if z.val = 0 then 1 else 0 : Fin 2 → Fin 1 → Fin 1 → ℝ) 1 2 i j) := by
  intro q
  have q' := C96_convolve_3d_partial h w a b _ hA la (by omega) _ hK lb le_rfl (by omega)
  obtain ⟨r1, h1, e1, o1, er1, _, _, _, _, i1⟩ := runs_iff.mp q
  obtain ⟨r2, h2, e2, o2, er2, _, _, _, _, i2⟩ := runs_iff.mp q'
  rw [e1] at e2
  injection e2 with e2
  injection e2 with e2 e3
  subst e2 e3 er1
  cases er2
  have u1 := i1.2 0 0 1
  have u2 := i2.2 0 (⟨0, by omega⟩ : Fin (2 - 1 + 1)) (⟨1, by omega⟩ : Fin (2 - 1 + 1))
  have e : (h1.buf (.t o1))[(0 : Fin 2).val * 2 + (1 : Fin 2).val + 2 * 2 * (0 : Fin 1).val]? =
      (h1.buf (.t o1))[0 * (2 - 1 + 1) + 1 + (2 - 1 + 1) * (2 - 1 + 1) * (0 : Fin 1).val]? := rfl
  rw [e] at u1
  rw [u1] at u2
  injection u2 with u2
  simp [convolution3, ext3] at u2

/-- A heap with that volume in tensor 0 and that filter in tensor 1. -/
noncomputable def exHeapConv3 : Heap ℝ := Heap.ofTens 0 [(⟨2, 2, 2⟩, [0, 1, 0, 0, 0, 0, 0, 0]), (⟨1, 1, 2⟩, [1, 0])]

/-- The hypotheses of the theorems above are met. -/
example : exHeapConv3.WF ∧
    IsTen exHeapConv3 0 (fun z y x => if z.val = 0 ∧ y.val = 0 ∧ x.val = 1 then 1 else 0 : Fin 2 → Fin 2 → Fin 2 → ℝ) ∧ exHeapConv3.live (.t 0) ∧
    IsTen exHeapConv3 1 (fun z _ _ => if z.val = 0 then 1 else 0 : Fin 2 → Fin 1 → Fin 1 → ℝ) ∧ exHeapConv3.live (.t 1) := by
  refine ⟨Heap.ofTens_wf _ _ (by simp [Size.count]), ⟨by simp [exHeapConv3, Heap.ofTens], fun z y x => ?_⟩,
    by simp [exHeapConv3, Heap.ofTens, Heap.live, Loc.id], ⟨by simp [exHeapConv3, Heap.ofTens], fun z y x => ?_⟩,
    by simp [exHeapConv3, Heap.ofTens, Heap.live, Loc.id]⟩
  · fin_cases z <;> fin_cases y <;> fin_cases x <;> simp [exHeapConv3, Heap.ofTens]
  · fin_cases z <;> fin_cases y <;> fin_cases x <;> simp [exHeapConv3, Heap.ofTens]

/-- A heap with an image of one channel, two rows and a column in tensor 0 and the filter `1` in tensor 1. -/
noncomputable def exHeapPad3 : Heap ℝ := Heap.ofTens 0 [(⟨1, 2, 1⟩, [5, 7]), (⟨1, 1, 1⟩, [1])]

/-- The hypotheses of `C96_padded_partial` and `C96_padded_fails` are met. -/
example : exHeapPad3.WF ∧ IsTen exHeapPad3 0 (fun _ y _ => if y.val = 0 then 5 else 7 : Fin 1 → Fin 2 → Fin 1 → ℝ) ∧ exHeapPad3.live (.t 0) ∧
    IsTen exHeapPad3 1 (fun _ _ _ => 1 : Fin 1 → Fin 1 → Fin 1 → ℝ) ∧ exHeapPad3.live (.t 1) ∧
    (fun _ y _ => if y.val = 0 then 5 else 7 : Fin 1 → Fin 2 → Fin 1 → ℝ) 0 ⟨1, by omega⟩ ⟨0, by omega⟩ ≠ 0 := by
  refine ⟨Heap.ofTens_wf _ _ (by simp [Size.count]), ⟨by simp [exHeapPad3, Heap.ofTens], fun z y x => ?_⟩,
    by simp [exHeapPad3, Heap.ofTens, Heap.live, Loc.id], ⟨by simp [exHeapPad3, Heap.ofTens], fun z y x => ?_⟩,
    by simp [exHeapPad3, Heap.ofTens, Heap.live, Loc.id], by norm_num⟩
  · fin_cases z; fin_cases y <;> fin_cases x <;> simp [exHeapPad3, Heap.ofTens]
  · fin_cases z; fin_cases y; fin_cases x; simp [exHeapPad3, Heap.ofTens]

end Verif
