import Verif.Lemmas.Harris
import Verif.Lemmas.Example
import Verif.Lemmas.ExampleTen

/-!
# C93: pooling
-/

namespace Verif
open Spec Convolutions
variable {m n F d : Nat} [HasInf ℝ]

/-- **C93 (stride 1)**: `pool_2d(input, F, 1, type)` returns a new matrix with the average, least or greatest value of every window of `F`
rows and columns of the image (which is assumed at least as wide as high, so that every window lies in it). For the least and greatest
value, the values of the image must lie strictly between the two infinities of the number type. -/
theorem C93_pool_2d (h : Heap ℝ) (w : h.WF) (a : Nat) (A : Matrix (Fin m) (Fin n) ℝ) (hA : IsMat h a A) (la : h.live (.m a)) (hmn : m ≤ n)
    (hF0 : 1 ≤ F) (hF : F ≤ m) (type : PoolType) (hinf : type ≠ .average → ∀ i j, |A i j| < HasInf.inf) :
    ReturnsMat (pool_2d (some (.m a)) F 1 type) h (fun i j : Fin (m - F + 1) =>
      pooled type fun q : Fin F × Fin F => A ⟨i.val + q.1.val, by omega⟩ ⟨j.val + q.2.val, by omega⟩) := by
  have := pool_2d_run w hA la (S := 1) (L := m - F + 1) le_rfl hF0 hF (by rw [Nat.div_one]) type
    fun e => ⟨(abs_nonneg _).trans_lt (hinf e ⟨0, by omega⟩ ⟨0, by omega⟩), hinf e⟩
  simp only [Nat.cast_one, start_one] at this
  refine cast (congrArg _ ?_) this
  funext i j
  congr 1
  funext q
  rw [← ext_in (A := A) ⟨i.val + q.1.val, by omega⟩ ⟨j.val + q.2.val, by omega⟩]
  simp

/-- **C93 (other strides, at most two windows a side)**: the result is the pooling with that stride. -/
theorem C93_stride_partial (h : Heap ℝ) (w : h.WF) (a : Nat) (A : Matrix (Fin m) (Fin n) ℝ) (hA : IsMat h a A) (la : h.live (.m a)) (hn : 1 ≤ n)
    (S : Nat) (hS : 1 ≤ S) (hF0 : 1 ≤ F) (hF : F ≤ m) (hL : (m - F) / S + 1 ≤ 2) (type : PoolType)
    (hinf : type ≠ .average → ∀ i j, |A i j| < HasInf.inf) :
    ReturnsMat (pool_2d (some (.m a)) F S type) h (pooling type F S A ((m - F) / S + 1)) := by
  refine cast (congrArg _ ?_) (pool_2d_run w hA la hS hF0 hF rfl type
    fun e => ⟨(abs_nonneg _).trans_lt (hinf e ⟨0, by omega⟩ ⟨0, by omega⟩), hinf e⟩)
  funext i j
  have e : ∀ i : Fin ((m - F) / S + 1), start S i = i.val * S := by
    intro i
    have := i.2
    unfold start
    split_ifs with h
    · simp [h]
    · have : i.val = 1 := by omega
      rw [this]; push_cast; ring
  simp only [pooling, e]

/-- **C93 (exact, any stride)**: in general the window number `i ≥ 1` is taken at row (or column) `i + S − 1` instead of `i · S`. -/
theorem C93_any_stride_partial (h : Heap ℝ) (w : h.WF) (a : Nat) (A : Matrix (Fin m) (Fin n) ℝ) (hA : IsMat h a A) (la : h.live (.m a))
    (hn : 1 ≤ n) (S : Nat) (hS : 1 ≤ S) (hF0 : 1 ≤ F) (hF : F ≤ m) (type : PoolType)
    (hinf : type ≠ .average → ∀ i j, |A i j| < HasInf.inf) :
    ReturnsMat (pool_2d (some (.m a)) F S type) h (fun i j : Fin ((m - F) / S + 1) => pooled type fun q : Fin F × Fin F =>
      ext A ((if i.val = 0 then 0 else i.val + (S - 1 : Int)) + q.1.val) ((if j.val = 0 then 0 else j.val + (S - 1 : Int)) + q.2.val)) :=
  pool_2d_run w hA la hS hF0 hF rfl type fun e => ⟨(abs_nonneg _).trans_lt (hinf e ⟨0, by omega⟩ ⟨0, by omega⟩), hinf e⟩

/-- **C93 (false for strides above 1)**: with windows of one cell and a stride `S ≥ 2` the cell in row 2, column 0 of the result is that in row
`S + 1` of the image, not that in row `2 S`. -/
theorem C93_stride_fails (h : Heap ℝ) (w : h.WF) (a : Nat) (A : Matrix (Fin m) (Fin n) ℝ) (hA : IsMat h a A) (la : h.live (.m a)) (S : Nat)
    (hS : 2 ≤ S) (hm : 2 * S + 1 ≤ m) (hn : 1 ≤ n)
    (hd : A ⟨S + 1, by omega⟩ ⟨0, by omega⟩ ≠ A ⟨2 * S, by omega⟩ ⟨0, by omega⟩) :
    ¬ ReturnsMat (pool_2d (some (.m a)) 1 S .average) h (pooling .average 1 S A ((m - 1) / S + 1)) := by
  intro q
  have q' := pool_2d_run (F := 1) w hA la (S := S) (L := (m - 1) / S + 1) (by omega) le_rfl (by omega) rfl .average (fun e => absurd rfl e)
  obtain ⟨r1, h1, e1, o1, er1, _, _, _, _, i1⟩ := runs_iff.mp q
  obtain ⟨r2, h2, e2, o2, er2, _, _, _, _, i2⟩ := runs_iff.mp q'
  rw [Nat.cast_one, e1] at e2
  injection e2 with e2
  injection e2 with e2 e3
  subst e2 e3 er1
  cases er2
  have h2 : 2 < (m - 1) / S + 1 := by
    have : 2 ≤ (m - 1) / S := (Nat.le_div_iff_mul_le (by omega)).mpr (by omega)
    omega
  have u1 := i1.2 ⟨2, h2⟩ ⟨0, by omega⟩
  have u2 := i2.2 ⟨2, h2⟩ ⟨0, by omega⟩
  rw [u1] at u2
  injection u2 with u2
  refine hd ?_
  have s2 : start S 2 = ((S + 1 : Nat) : Int) := by unfold start; rw [if_neg (by omega)]; push_cast; ring
  have v1 : pooling .average 1 S A ((m - 1) / S + 1) ⟨2, h2⟩ ⟨0, by omega⟩ = A ⟨2 * S, by omega⟩ ⟨0, by omega⟩ := by
    rw [← ext_in (A := A) ⟨2 * S, by omega⟩ ⟨0, by omega⟩]
    simp [pooling, pooled, Fintype.sum_prod_type]
  have v2 : (pooled .average fun q : Fin 1 × Fin 1 => ext A (start S 2 + q.1.val) (start S 0 + q.2.val)) = A ⟨S + 1, by omega⟩ ⟨0, by omega⟩ := by
    rw [s2, ← ext_in (A := A) ⟨S + 1, by omega⟩ ⟨0, by omega⟩]
    simp [pooled, start, Fintype.sum_prod_type]
  rw [v1] at u2
  rw [u2]
  exact v2.symm

/-- **C93 (volumes)**: `pool_3d` with stride 1 pools every slice for itself. -/
theorem C93_pool_3d (h : Heap ℝ) (w : h.WF) (a : Nat) (A : Fin d → Fin m → Fin n → ℝ) (hA : IsTen h a A) (la : h.live (.t a)) (hmn : m ≤ n)
    (hF0 : 1 ≤ F) (hF : F ≤ m) (type : PoolType) (h0 : (0 : ℝ) < HasInf.inf) (hinf : type ≠ .average → ∀ z i j, |A z i j| < HasInf.inf) :
    ReturnsTen (pool_3d (some (.t a)) F 1 type) h (fun z (i j : Fin (m - F + 1)) =>
      pooled type fun q : Fin F × Fin F => A z ⟨i.val + q.1.val, by omega⟩ ⟨j.val + q.2.val, by omega⟩) := by
  have := pool_3d_run w hA la (S := 1) (L := m - F + 1) le_rfl hF0 hF (by rw [Nat.div_one]) type fun e => ⟨h0, hinf e⟩
  simp only [Nat.cast_one, start_one] at this
  refine cast (congrArg _ ?_) this
  funext z i j
  congr 1
  funext q
  have e := ext_in (A := Matrix.of (A z)) ⟨i.val + q.1.val, by omega⟩ ⟨j.val + q.2.val, by omega⟩
  rw [Matrix.of_apply] at e
  rw [← e]
  simp

/-- **C93 (whole images)**: `global_pool_2d` returns the average, least or greatest cell of the image, `global_pool_3d` a new vector with
that of every slice. -/
theorem C93_global (h : Heap ℝ) (w : h.WF) (a b : Nat) (A : Matrix (Fin m) (Fin n) ℝ) (hA : IsMat h a A) (la : h.live (.m a))
    (T : Fin d → Fin m → Fin n → ℝ) (hT : IsTen h b T) (lb : h.live (.t b)) (hm : 1 ≤ m) (hn : 1 ≤ n) (type : PoolType)
    (hinf : type ≠ .average → ∀ i j, |A i j| < HasInf.inf) (hinf' : type ≠ .average → ∀ z i j, |T z i j| < HasInf.inf) :
    ReturnsVal (global_pool_2d (some (.m a)) type) h (pooled type fun q : Fin m × Fin n => A q.1 q.2) ∧
    ReturnsVec (global_pool_3d (some (.t b)) type) h (fun z => pooled type fun q : Fin m × Fin n => T z q.1 q.2) :=
  ⟨global_pool_2d_run w hA la hm hn type hinf, global_pool_3d_run w hT lb hm hn type hinf'⟩

/-- What the least and greatest value mean here, and that they are attained. -/
theorem C93_meaning {ι : Type} [Fintype ι] [Nonempty ι] (f : ι → ℝ) :
    (∃ i, pooled .min f = f i) ∧ (∀ i, pooled .min f ≤ f i) ∧ (∃ i, pooled .max f = f i) ∧ ∀ i, f i ≤ pooled .max f := by
  obtain ⟨i, hi⟩ := exists_eq_ciInf_of_finite (f := f)
  obtain ⟨j, hj⟩ := exists_eq_ciSup_of_finite (f := f)
  exact ⟨⟨i, hi.symm⟩, ciInf_le (Set.finite_range f).bddBelow, ⟨j, hj.symm⟩, le_ciSup (Set.finite_range f).bddAbove⟩

/-- A heap with a 3 by 3 image in matrix 0. -/
noncomputable def exHeapPool : Heap ℝ := Heap.ofLists 0 [] [(3, 3, [1, 2, 3, 4, 5, 6, 7, 8, 9])]
/-- A heap with a volume of two slices. -/
noncomputable def exHeapPool3 : Heap ℝ := Heap.ofTens 0 [(⟨2, 2, 2⟩, [0, 1, 2, 3, 4, 5, 6, 7])]

/-- The hypotheses of the theorems above are met (with any infinity above 9). -/
example (hi : (9 : ℝ) < HasInf.inf) : exHeapPool.WF ∧ IsMat exHeapPool 0 (fun i j => 3 * i.val + j.val + 1 : Matrix (Fin 3) (Fin 3) ℝ) ∧
    exHeapPool.live (.m 0) ∧ (∀ i j, |(fun i j => 3 * i.val + j.val + 1 : Matrix (Fin 3) (Fin 3) ℝ) i j| < HasInf.inf) ∧ exHeapPool3.WF ∧
    IsTen exHeapPool3 0 (fun z y x => 4 * z.val + 2 * y.val + x.val : Fin 2 → Fin 2 → Fin 2 → ℝ) ∧ exHeapPool3.live (.t 0) := by
  refine ⟨Heap.ofLists_wf _ _ _ (by simp), ⟨by simp [exHeapPool, Heap.ofLists], fun i j => ?_⟩, by simp [exHeapPool, Heap.ofLists, Heap.live, Loc.id],
    fun i j => ?_, Heap.ofTens_wf _ _ (by simp [Size.count]), ⟨by simp [exHeapPool3, Heap.ofTens], fun z y x => ?_⟩,
    by simp [exHeapPool3, Heap.ofTens, Heap.live, Loc.id]⟩
  · fin_cases i <;> fin_cases j <;> norm_num [exHeapPool, Heap.ofLists]
  · refine lt_of_le_of_lt ?_ hi
    rw [abs_of_nonneg (by positivity)]
    have h1 : (i.val : ℝ) ≤ 2 := by have := i.2; exact_mod_cast (by omega : i.val ≤ 2)
    have h2 : (j.val : ℝ) ≤ 2 := by have := j.2; exact_mod_cast (by omega : j.val ≤ 2)
    simp only
    linarith
  · fin_cases z <;> fin_cases y <;> fin_cases x <;> norm_num [exHeapPool3, Heap.ofTens]

end Verif
