import Verif.Lemmas.Cost
import Verif.Lemmas.Reg
import Verif.Lemmas.Example

/-!
# C57: the losses of `MLPPCost`
-/

namespace Verif
open Spec Cost Finset
variable {m n : Nat}

/-- **C57.** Regression losses of vectors: the root mean squared, mean absolute and mean bias error. Nothing changes. -/
theorem C57_regression (h : Heap ℝ) (w : h.WF) (a b : Nat) (p y : Fin n → ℝ) (_hn : 0 < n) (ha : IsVec h a p) (hb : IsVec h b y) :
    rmsev (some (.v a)) (some (.v b)) h = .ok (rmse p y, h) ∧
    maev (some (.v a)) (some (.v b)) h = .ok (mae p y, h) ∧
    mbev (some (.v a)) (some (.v b)) h = .ok (mbe p y, h) := by
  refine ⟨(lossOf_vec w ha hb).trans ?_, (lossOf_vec w ha hb).trans ?_, (lossOf_vec w ha hb).trans ?_⟩ <;>
    simp [num, rmse, mae, mbe, sqErr, absErr, biasErr, absC_eq, Size.count, pow_two]

/-- **C57.** Classification losses of vectors. -/
theorem C57_classification (h : Heap ℝ) (w : h.WF) (a b : Nat) (p y : Fin n → ℝ) (_hn : 0 < n) (ha : IsVec h a p) (hb : IsVec h b y) :
    ((∀ i, 0 ≤ p i ∧ p i ≤ 1) → log_lossv (some (.v a)) (some (.v b)) h = .ok (logLoss (1e-8) p y, h)) ∧
    ((∀ i, 0 < p i) → cross_entropyv (some (.v a)) (some (.v b)) h = .ok (crossEntropy p y, h)) ∧
    hinge_lossv (some (.v a)) (some (.v b)) h = .ok (hinge p y, h) ∧
    wasserstein_lossv (some (.v a)) (some (.v b)) h = .ok (wasserstein p y, h) := by
  refine ⟨fun _ => (lossOf_vec w ha hb).trans ?_, fun _ => (lossOf_vec w ha hb).trans ?_, (lossOf_vec w ha hb).trans ?_,
    (lossOf_vec w ha hb).trans ?_⟩
  · simp [num, logLoss, logTerm, Size.count]; norm_num [eps]
  · simp [crossEntropy, ceTerm]
  · simp [num, hinge, hingeTerm, Size.count, maxC_eq]
  · simp [num, wasserstein, wassTerm, Size.count]

/-- **C57.** The Huber loss of vectors, of matrices. -/
theorem C57_huber (h : Heap ℝ) (w : h.WF) (a b : Nat) (d : ℝ) :
    (∀ p y : Fin n → ℝ, IsVec h a p → IsVec h b y → huber_lossv (some (.v a)) (some (.v b)) d h = .ok (huber d p y, h)) ∧
    (∀ A B : Matrix (Fin m) (Fin n) ℝ, IsMat h a A → IsMat h b B →
      huber_lossm (some (.m a)) (some (.m b)) d h = .ok (huber d (cells A) (cells B), h)) := by
  have e : ∀ p q : ℝ, huberTerm d p q = if |p - q| ≤ d then (p - q) ^ 2 else 2 * d * |p - q| - d ^ 2 := by
    intro p q
    unfold huberTerm
    rw [absC_eq, abs_sub_comm]
    split <;> ring
  refine ⟨fun p y ha hb => (lossOf_vec w ha hb).trans ?_, fun p y ha hb => (lossOf_mat w ha hb).trans ?_⟩ <;>
    simp only [e, huber]

/-- **C57.** The losses of matrices are those of the family of all cells. -/
theorem C57_matrix (h : Heap ℝ) (w : h.WF) (a b : Nat) (A B : Matrix (Fin m) (Fin n) ℝ) (_hn : 0 < n) (_hm : 0 < m)
    (ha : IsMat h a A) (hb : IsMat h b B) :
    maem (some (.m a)) (some (.m b)) h = .ok (mae (cells A) (cells B), h) ∧
    mbem (some (.m a)) (some (.m b)) h = .ok (mbe (cells A) (cells B), h) ∧
    ((∀ i j, 0 ≤ A i j ∧ A i j ≤ 1) → log_lossm (some (.m a)) (some (.m b)) h = .ok (logLoss (1e-8) (cells A) (cells B), h)) ∧
    ((∀ i j, 0 < A i j) → cross_entropym (some (.m a)) (some (.m b)) h = .ok (crossEntropy (cells A) (cells B), h)) ∧
    hinge_lossm (some (.m a)) (some (.m b)) h = .ok (hinge (cells A) (cells B), h) ∧
    wasserstein_lossm (some (.m a)) (some (.m b)) h = .ok (wasserstein (cells A) (cells B), h) := by
  have hc : num (Fin m × Fin n) = ((n * m : ℕ) : ℝ) := by simp [num, mul_comm]
  refine ⟨(lossOf_mat w ha hb).trans ?_, (lossOf_mat w ha hb).trans ?_, fun _ => (lossOf_mat w ha hb).trans ?_,
    fun _ => (lossOf_mat w ha hb).trans ?_, (lossOf_mat w ha hb).trans ?_, (lossOf_mat w ha hb).trans ?_⟩
  · simp only [mae, hc, absErr, absC_eq, Size.count, Nat.mul_one]
  · simp only [mbe, hc, biasErr, Size.count, Nat.mul_one]
  · simp only [logLoss, hc, logTerm, Size.count, Nat.mul_one]; norm_num [eps]
  · simp only [crossEntropy, ceTerm, neg_mul, one_mul]
  · simp only [hinge, hc, hingeTerm, maxC_eq, Size.count, Nat.mul_one]
  · simp only [wasserstein, hc, wassTerm, Size.count, Nat.mul_one]

/-- **C57**, partial. What `msev` and `msem` return: half the sum of the squared errors *times* the number of entries, that is the
(half) mean squared error times the square of that number. -/
theorem C57_mse_partial (h : Heap ℝ) (w : h.WF) (a b : Nat) :
    (∀ p y : Fin n → ℝ, IsVec h a p → IsVec h b y →
      msev (some (.v a)) (some (.v b)) h = .ok ((n : ℝ) ^ 2 * halfMse p y, h)) ∧
    (∀ A B : Matrix (Fin m) (Fin n) ℝ, IsMat h a A → IsMat h b B →
      msem (some (.m a)) (some (.m b)) h = .ok (((n * m : ℕ) : ℝ) ^ 2 * halfMse (cells A) (cells B), h)) := by
  have e : ∀ (k : ℕ) (s : ℝ), s / 2 * k = (k : ℝ) ^ 2 * (s / (2 * k)) := by
    intro k s
    rcases Nat.eq_zero_or_pos k with rfl | hk
    · simp
    · have : (k : ℝ) ≠ 0 := by positivity
      field_simp
  refine ⟨fun p y ha hb => (lossOf_vec w ha hb).trans ?_, fun A B ha hb => (lossOf_mat w ha hb).trans ?_⟩
  · simp only [halfMse, sqErr, num, Fintype.card_fin, pow_two (_ - _), count_vec, e]
  · simp only [halfMse, sqErr, num, Fintype.card_prod, Fintype.card_fin, pow_two (_ - _), count_mat, e, mul_comm m n]

/-- **C57**, refuted for `msev`: for two or more elements and a prediction that differs from the target, the returned number is
neither the mean squared error nor half of it. -/
theorem C57_mse_fails (h : Heap ℝ) (w : h.WF) (a b : Nat) (p y : Fin n → ℝ) (hn : 2 ≤ n) (hp : p ≠ y) (ha : IsVec h a p)
    (hb : IsVec h b y) (x : ℝ) (hx : x = halfMse p y ∨ x = 2 * halfMse p y) : msev (some (.v a)) (some (.v b)) h ≠ .ok (x, h) := by
  rw [(C57_mse_partial (m := 0) h w a b).1 p y ha hb]
  intro e
  have e := (Prod.mk.inj (Out.ok.inj e)).1
  have hn' : (2 : ℝ) ≤ n := by exact_mod_cast hn
  have pos : 0 < halfMse p y := by
    obtain ⟨i, hi⟩ := Function.ne_iff.1 hp
    unfold halfMse
    refine div_pos (Finset.sum_pos' (fun _ _ => sq_nonneg _) ⟨i, mem_univ _, ?_⟩) ?_
    · have : p i - y i ≠ 0 := sub_ne_zero.2 hi
      positivity
    · simp [num]; linarith
  have : (4 : ℝ) ≤ (n : ℝ) ^ 2 := by nlinarith
  rcases hx with rfl | rfl <;> nlinarith

/-- **C57**, partial: `rmsem` divides by the number of rows, so it is the root mean squared error for one column only. -/
theorem C57_rmsem_partial (h : Heap ℝ) (w : h.WF) (a b : Nat) (A B : Matrix (Fin m) (Fin n) ℝ) (_hm : 0 < m) (hn : 0 < n)
    (ha : IsMat h a A) (hb : IsMat h b B) :
    rmsem (some (.m a)) (some (.m b)) h = .ok (Real.sqrt n * rmse (cells A) (cells B), h) := by
  refine (lossOf_mat w ha hb).trans ?_
  unfold rmse
  rw [← Real.sqrt_mul (by positivity)]
  have : (n : ℝ) ≠ 0 := by positivity
  simp only [sqErr, num, Fintype.card_prod, Fintype.card_fin, pow_two, Nat.cast_mul]
  congr 4
  field_simp

/-- **C57**, refuted for `rmsem` with two or more columns. -/
theorem C57_rmsem_fails (h : Heap ℝ) (w : h.WF) (a b : Nat) (A B : Matrix (Fin m) (Fin n) ℝ) (hm : 0 < m) (hn : 2 ≤ n) (hp : A ≠ B)
    (ha : IsMat h a A) (hb : IsMat h b B) : rmsem (some (.m a)) (some (.m b)) h ≠ .ok (rmse (cells A) (cells B), h) := by
  rw [C57_rmsem_partial h w a b A B hm (by omega) ha hb]
  intro e
  have e := (Prod.mk.inj (Out.ok.inj e)).1
  have pos : 0 < rmse (cells A) (cells B) := by
    obtain ⟨i, hi⟩ := Function.ne_iff.1 hp
    obtain ⟨j, hj⟩ := Function.ne_iff.1 hi
    unfold rmse
    refine Real.sqrt_pos.2 (div_pos (Finset.sum_pos' (fun _ _ => sq_nonneg _) ⟨(i, j), mem_univ _, ?_⟩) ?_)
    · have : A i j - B i j ≠ 0 := sub_ne_zero.2 hj
      simp only [cells]; positivity
    · have : (0 : ℝ) < n := by exact_mod_cast (by omega : 0 < n)
      have : (0 : ℝ) < m := by exact_mod_cast hm
      simp [num]; positivity
  have : (1 : ℝ) < Real.sqrt n := by
    rw [Real.lt_sqrt (by norm_num)]; norm_num; omega
  nlinarith

/-- **C57.** Vectors of different lengths: every loss returns zero and changes nothing. -/
theorem C57_mismatch (h : Heap ℝ) (a b : Nat) (d : ℝ) (hs : (h.size (.v a)).count ≠ (h.size (.v b)).count) :
    ∀ loss ∈ [msev, rmsev, maev, mbev, log_lossv, cross_entropyv, (fun a b => huber_lossv a b d), hinge_lossv, wasserstein_lossv],
      loss (some (.v a)) (some (.v b)) h = .ok (0, h) := by
  intro loss hl
  simp only [List.mem_cons, List.not_mem_nil, or_false] at hl
  rcases hl with rfl | rfl | rfl | rfl | rfl | rfl | rfl | rfl | rfl <;> exact lossOf_mismatch hs

/-- **C57.** Matrices with different numbers of cells: every loss returns zero and changes nothing. -/
theorem C57_mismatch_matrix (h : Heap ℝ) (a b : Nat) (d : ℝ) (hs : (h.size (.m a)).count ≠ (h.size (.m b)).count) :
    ∀ loss ∈ [msem, rmsem, maem, mbem, log_lossm, cross_entropym, (fun a b => huber_lossm a b d), hinge_lossm, wasserstein_lossm],
      loss (some (.m a)) (some (.m b)) h = .ok (0, h) := by
  intro loss hl
  simp only [List.mem_cons, List.not_mem_nil, or_false] at hl
  rcases hl with rfl | rfl | rfl | rfl | rfl | rfl | rfl | rfl | rfl <;> exact lossOf_mismatch hs

/-- **C57**, refuted for matrices of different shape with the same number of cells: a row and a column are compared cell by cell. -/
theorem C57_shape_fails (j : ℝ) :
    maem (some (.m 0)) (some (.m 1)) (Heap.ofLists j [] [(2, 1, [1, 2]), (1, 2, [5, 7])]) =
      .ok (9 / 2, Heap.ofLists j [] [(2, 1, [1, 2]), (1, 2, [5, 7])]) := by
  have w := Heap.ofLists_wf j [] [(2, 1, [1, 2]), (1, 2, [5, 7])] (by simp)
  refine (lossOf_run w (a := .m 0) (b := .m 1) (by rfl)).trans ?_
  have e : (List.zipWith absErr ((Heap.ofLists j [] [(2, 1, [1, 2]), (1, 2, [5, 7])]).buf (.m 0))
      ((Heap.ofLists j [] [(2, 1, [1, 2]), (1, 2, [5, 7])]).buf (.m 1))) = [absErr 1 5, absErr 2 7] := rfl
  have c : ((Heap.ofLists j [] [(2, 1, [1, 2]), (1, 2, [5, 7])]).size (.m 0)).count = 2 := rfl
  rw [e, c]
  norm_num [absErr, absC_eq]

/-- **C57**, refuted for null operands: every loss dereferences them. -/
theorem C57_null_fails (h : Heap ℝ) (r : Ref) (d : ℝ) :
    ∀ loss ∈ [msev, rmsev, maev, mbev, log_lossv, cross_entropyv, (fun a b => huber_lossv a b d), hinge_lossv, wasserstein_lossv,
      msem, rmsem, maem, mbem, log_lossm, cross_entropym, (fun a b => huber_lossm a b d), hinge_lossm, wasserstein_lossm],
      loss none r h = .ub ∧ loss r none h = .ub := by
  intro loss hl
  simp only [List.mem_cons, List.not_mem_nil, or_false] at hl
  rcases hl with rfl | rfl | rfl | rfl | rfl | rfl | rfl | rfl | rfl | rfl | rfl | rfl | rfl | rfl | rfl | rfl | rfl | rfl <;>
    exact ⟨lossOf_null (Or.inl rfl), lossOf_null (Or.inr rfl)⟩

/-- **C57.** The regularised hinge loss: `C` times the hinge loss plus half the sum of the squared weights. -/
theorem C57_hinge_weights (h : Heap ℝ) (w : h.WF) (a b c k : Nat) (p y : Fin n → ℝ) (v : Fin k → ℝ) (C : ℝ) (hn : 0 < n) (ha : IsVec h a p)
    (hb : IsVec h b y) (hc : IsVec h c v) :
    hinge_losswv (some (.v a)) (some (.v b)) (some (.v c)) C h = .ok (C * hinge p y + 1 / 2 * ∑ i, v i ^ 2, h) := by
  unfold hinge_losswv
  rw [bind_ok (C57_classification h w a b p y hn ha hb).2.2.1, bind_ok (Reg.reg_termv_run w hc 1 0 .ridge)]
  rfl

/-- **C57**, refuted for `hinge_losswm`: the weights, a matrix, are handed to a function that takes a vector and arrive as null; no
call returns. -/
theorem C57_hinge_weights_matrix_fails (h : Heap ℝ) (w : h.WF) (a b : Nat) (A B : Matrix (Fin m) (Fin n) ℝ) (C : ℝ) (hn : 0 < n)
    (hm : 0 < m) (ha : IsMat h a A) (hb : IsMat h b B) (weights : Ref) :
    hinge_losswm (some (.m a)) (some (.m b)) weights C h = .ub := by
  unfold hinge_losswm
  rw [bind_ok (C57_matrix h w a b A B hn hm ha hb).2.2.2.2.1]
  match weights with
  | none | some (.v _) | some (.m _) | some (.t _) => rfl

/-- The hypotheses of the C57 theorems are met by vectors of two elements and 2 × 1 matrices. -/
example (j : ℝ) : let h := Heap.ofLists j [[1/2, 1/4], [1, 0]] [(2, 1, [1/2, 1/4]), (2, 1, [1, 0])]
    h.WF ∧ IsVec h 0 (![1/2, 1/4] : Fin 2 → ℝ) ∧ IsVec h 1 (![1, 0] : Fin 2 → ℝ) ∧ IsMat h 0 (!![1/2, 1/4] : Matrix (Fin 1) (Fin 2) ℝ) ∧
      IsMat h 1 (!![1, 0] : Matrix (Fin 1) (Fin 2) ℝ) ∧ (∀ i, 0 < (![1/2, 1/4] : Fin 2 → ℝ) i ∧ (![1/2, 1/4] : Fin 2 → ℝ) i ≤ 1) := by
  refine ⟨Heap.ofLists_wf _ _ _ (by simp), ⟨rfl, fun i => by fin_cases i <;> rfl⟩, ⟨rfl, fun i => by fin_cases i <;> rfl⟩,
    ⟨rfl, by intro i j; fin_cases i; fin_cases j <;> rfl⟩, ⟨rfl, by intro i j; fin_cases i; fin_cases j <;> rfl⟩, fun i => ?_⟩
  fin_cases i <;> norm_num

end Verif
