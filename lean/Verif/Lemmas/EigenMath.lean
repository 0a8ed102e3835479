import Verif.Spec.Eigen
import Mathlib.LinearAlgebra.Matrix.NonsingularInverse
import Mathlib.LinearAlgebra.Matrix.Trace

/-! # The Jacobi rounds of `eigen`, as functions of matrices -/

namespace Verif.Eigen
open Matrix Spec
variable {n : Nat}

/-- An entry of a matrix, 0 outside of it. -/
def at0 (A : Matrix (Fin n) (Fin n) ℝ) (i j : Nat) : ℝ := if h : i < n ∧ j < n then A ⟨i, h.1⟩ ⟨j, h.2⟩ else 0

theorem at0_fin (A : Matrix (Fin n) (Fin n) ℝ) (i j : Fin n) : at0 A i j = A i j := by simp [at0]

/-- The entries of row `i` before column `j` have been looked at. -/
noncomputable def pivotRow (A : Matrix (Fin n) (Fin n) ℝ) (i : Nat) (p : Pivot) (j : Nat) : Pivot :=
  (List.range j).foldl (fun p j => pivotStep i j (at0 A i j) p) p

/-- The rows before `i` have been looked at. -/
noncomputable def pivotRows (A : Matrix (Fin n) (Fin n) ℝ) (i : Nat) : Pivot :=
  (List.range i).foldl (fun p i => pivotRow A i p n) ⟨at0 A 0 1, 0, 1⟩

/-- The pivot the search finds. -/
noncomputable def pivotOf (A : Matrix (Fin n) (Fin n) ℝ) : Pivot := pivotRows A n

/-- The pivot is an off-diagonal entry. -/
def Pivot.Ok (A : Matrix (Fin n) (Fin n) ℝ) (p : Pivot) : Prop := ∃ i j : Fin n, i ≠ j ∧ p = ⟨A i j, i, j⟩

theorem pivotStep_ok {A : Matrix (Fin n) (Fin n) ℝ} {p : Pivot} (hp : p.Ok A) {i j : Nat} (hi : i < n) (hj : j < n) :
    (pivotStep i j (at0 A i j) p).Ok A := by
  have key : i ≠ j → (⟨at0 A i j, i, j⟩ : Pivot).Ok A := fun ne =>
    ⟨⟨i, hi⟩, ⟨j, hj⟩, fun e => ne (congrArg Fin.val e), by simp [at0, hi, hj]⟩
  unfold pivotStep
  split
  · next c => exact key c.1
  · split
    · next c =>
      split
      · exact key c.1
      · exact hp
    · exact hp

theorem pivotRow_ok {A : Matrix (Fin n) (Fin n) ℝ} {p : Pivot} (hp : p.Ok A) {i : Nat} (hi : i < n) : ∀ j, j ≤ n → (pivotRow A i p j).Ok A
  | 0, _ => hp
  | j + 1, hj => by
    unfold pivotRow
    rw [List.range_succ, List.foldl_append]
    exact pivotStep_ok (pivotRow_ok hp hi j (by omega)) hi (by omega)

theorem pivotRows_ok {A : Matrix (Fin n) (Fin n) ℝ} (hn : 2 ≤ n) : ∀ i, i ≤ n → (pivotRows A i).Ok A
  | 0, _ => ⟨⟨0, by omega⟩, ⟨1, by omega⟩, by simp, by
    have h0 : 0 < n := by omega
    have h1 : 1 < n := by omega
    simp [pivotRows, at0, h0, h1]⟩
  | i + 1, hi => by
    unfold pivotRows
    rw [List.range_succ, List.foldl_append]
    exact pivotRow_ok (pivotRows_ok hn i (by omega)) (by omega) n le_rfl

theorem pivotOf_ok (A : Matrix (Fin n) (Fin n) ℝ) (hn : 2 ≤ n) : (pivotOf A).Ok A := pivotRows_ok hn n le_rfl

/-- The rotation `P`. -/
noncomputable def rot (i j : Fin n) (θ : ℝ) : Matrix (Fin n) (Fin n) ℝ := fun a b =>
  if a = j ∧ b = i then Real.sin θ else if a = j ∧ b = j then Real.cos θ else if a = i ∧ b = i then Real.cos θ
  else if a = i ∧ b = j then -Real.sin θ else if a = b then 1 else 0

theorem rot_dot {i j : Fin n} (hij : i ≠ j) (θ : ℝ) (f : Fin n → ℝ) (a : Fin n) :
    ∑ k, rot i j θ k a * f k = if a = i then Real.cos θ * f i + Real.sin θ * f j
      else if a = j then -Real.sin θ * f i + Real.cos θ * f j else f a := by
  by_cases h1 : a = i
  · subst h1
    rw [if_pos rfl, Finset.sum_eq_add a j hij]
    · simp [rot, hij]
    · rintro c - ⟨h, h'⟩
      simp [rot, h, h']
    · simp
    · simp
  by_cases h2 : a = j
  · subst h2
    rw [if_neg h1, if_pos rfl, Finset.sum_eq_add i a hij]
    · simp [rot, hij, Ne.symm hij]
    · rintro c - ⟨h, h'⟩
      simp [rot, h, h']
    · simp
    · simp
  rw [if_neg h1, if_neg h2, Finset.sum_eq_single a]
  · simp [rot, h1, h2]
  · intro b _ hb
    simp [rot, h1, h2, hb]
  · simp

theorem rot_orth {i j : Fin n} (hij : i ≠ j) (θ : ℝ) : (rot i j θ).transpose * rot i j θ = 1 := by
  ext a b
  rw [Matrix.mul_apply]
  simp only [Matrix.transpose_apply]
  rw [rot_dot hij]
  have hsc := Real.sin_sq_add_cos_sq θ
  have hji := Ne.symm hij
  by_cases h1 : a = i
  · subst h1
    by_cases h3 : b = a
    · subst h3; simp [rot, hij, Matrix.one_apply_eq]; nlinarith
    by_cases h4 : b = j
    · subst h4; simp [rot, hij, hji]; ring
    · simp [rot, h3, h4, hij, hji, Ne.symm h3, Ne.symm h4]
  by_cases h2 : a = j
  · subst h2
    by_cases h3 : b = a
    · subst h3; simp [rot, hij, hji]; nlinarith
    by_cases h4 : b = i
    · subst h4; simp [rot, hij, hji]; ring
    · simp [rot, h3, h4, hij, hji, Ne.symm h3, Ne.symm h4]
  · rw [if_neg h1, if_neg h2]
    simp [rot, h1, h2, Matrix.one_apply]

theorem orth_inv {P : Matrix (Fin n) (Fin n) ℝ} (h : P.transpose * P = 1) : P⁻¹ = P.transpose := Matrix.inv_eq_left_inv h

theorem orth_comm {P : Matrix (Fin n) (Fin n) ℝ} (h : P.transpose * P = 1) : P * P.transpose = 1 := mul_eq_one_comm.mp h

/-- The small off-diagonal entries erased. -/
noncomputable def clean (A : Matrix (Fin n) (Fin n) ℝ) : Matrix (Fin n) (Fin n) ℝ := fun i j => if i ≠ j ∧ small (A i j) = true then 0 else A i j

/-- All off-diagonal entries erased. -/
def diagPart (A : Matrix (Fin n) (Fin n) ℝ) : Matrix (Fin n) (Fin n) ℝ := fun i j => if i ≠ j then 0 else A i j

/-- `is_equal_approx`. -/
def Close (A B : Matrix (Fin n) (Fin n) ℝ) : Prop := ∀ i j, A i j = B i j ∨ |A i j - B i j| < eps

/-- The angle used for the pivot. -/
noncomputable def angleOf (A : Matrix (Fin n) (Fin n) ℝ) (p : Pivot) : ℝ := angle p.a_ij (at0 A p.sub_i p.sub_i) (at0 A p.sub_j p.sub_j)

/-- `P`, for indices of the pivot. -/
noncomputable def rotN (i j : Nat) (θ : ℝ) : Matrix (Fin n) (Fin n) ℝ := fun a b =>
  if a.val = j ∧ b.val = i then Real.sin θ else if a.val = j ∧ b.val = j then Real.cos θ else if a.val = i ∧ b.val = i then Real.cos θ
  else if a.val = i ∧ b.val = j then -Real.sin θ else if a = b then 1 else 0

theorem rotN_fin (i j : Fin n) (θ : ℝ) : (rotN i j θ : Matrix (Fin n) (Fin n) ℝ) = rot i j θ := by
  funext a b
  simp [rotN, rot, Fin.ext_iff]

/-- The rotation of a round. -/
noncomputable def rotOf (A : Matrix (Fin n) (Fin n) ℝ) : Matrix (Fin n) (Fin n) ℝ :=
  rotN (pivotOf A).sub_i (pivotOf A).sub_j (angleOf A (pivotOf A))

/-- The matrix after the small entries have been erased. -/
noncomputable def nextOf (A : Matrix (Fin n) (Fin n) ℝ) : Matrix (Fin n) (Fin n) ℝ := clean ((rotOf A)⁻¹ * A * rotOf A)

/-- `non_zero`. -/
def NonZero (A : Matrix (Fin n) (Fin n) ℝ) : Prop := ∃ i j, i ≠ j ∧ small (A i j) = true

open Classical in
/-- A round: `diagonal` and `a_new`. -/
noncomputable def stepOf (A : Matrix (Fin n) (Fin n) ℝ) : Bool × Matrix (Fin n) (Fin n) ℝ :=
  if Close (nextOf A) A then (true, diagPart (nextOf A)) else (!decide (NonZero (nextOf A)), nextOf A)

/-- The whole loop. -/
noncomputable def jac : Nat → Matrix (Fin n) (Fin n) ℝ → Matrix (Fin n) (Fin n) ℝ → Option (Matrix (Fin n) (Fin n) ℝ × Matrix (Fin n) (Fin n) ℝ)
  | 0, _, _ => none
  | k + 1, A, V => if (stepOf A).1 = true then some ((stepOf A).2, V * rotOf A) else jac k (stepOf A).2 (V * rotOf A)

/-- What a round does, in terms of the pivot. -/
theorem rotOf_eq (A : Matrix (Fin n) (Fin n) ℝ) (hn : 2 ≤ n) : ∃ i j : Fin n, i ≠ j ∧ pivotOf A = ⟨A i j, i, j⟩ ∧
    rotOf A = rot i j (angle (A i j) (A i i) (A j j)) := by
  obtain ⟨i, j, hij, e⟩ := pivotOf_ok A hn
  refine ⟨i, j, hij, e, ?_⟩
  rw [rotOf, e, angleOf, rotN_fin]
  dsimp only
  rw [at0_fin, at0_fin]

theorem rotOf_orth (A : Matrix (Fin n) (Fin n) ℝ) (hn : 2 ≤ n) : (rotOf A).transpose * rotOf A = 1 := by
  obtain ⟨i, j, hij, -, e⟩ := rotOf_eq A hn
  rw [e]; exact rot_orth hij _

theorem nextOf_eq (A : Matrix (Fin n) (Fin n) ℝ) (hn : 2 ≤ n) : nextOf A = clean ((rotOf A).transpose * A * rotOf A) := by
  rw [nextOf, orth_inv (rotOf_orth A hn)]

theorem trace_clean (A : Matrix (Fin n) (Fin n) ℝ) : (clean A).trace = A.trace := by
  simp [Matrix.trace, clean]

theorem trace_diagPart (A : Matrix (Fin n) (Fin n) ℝ) : (diagPart A).trace = A.trace := by
  simp [Matrix.trace, diagPart]

theorem trace_conj {P : Matrix (Fin n) (Fin n) ℝ} (h : P.transpose * P = 1) (A : Matrix (Fin n) (Fin n) ℝ) :
    (P.transpose * A * P).trace = A.trace := by
  rw [Matrix.trace_mul_comm, ← Matrix.mul_assoc, orth_comm h, Matrix.one_mul]

theorem trace_nextOf (A : Matrix (Fin n) (Fin n) ℝ) (hn : 2 ≤ n) : (nextOf A).trace = A.trace := by
  rw [nextOf_eq A hn, trace_clean, trace_conj (rotOf_orth A hn)]

theorem trace_stepOf (A : Matrix (Fin n) (Fin n) ℝ) (hn : 2 ≤ n) : (stepOf A).2.trace = A.trace := by
  unfold stepOf
  split
  · rw [trace_diagPart, trace_nextOf A hn]
  · exact trace_nextOf A hn

theorem symm_clean {A : Matrix (Fin n) (Fin n) ℝ} (h : A.transpose = A) : (clean A).transpose = clean A := by
  funext i j
  have e : A j i = A i j := congrFun (congrFun h i) j
  show clean A j i = clean A i j
  simp only [clean, e, ne_comm (a := j)]

theorem symm_conj {A : Matrix (Fin n) (Fin n) ℝ} (h : A.transpose = A) (P : Matrix (Fin n) (Fin n) ℝ) :
    (P.transpose * A * P).transpose = P.transpose * A * P := by
  rw [Matrix.transpose_mul, Matrix.transpose_mul, Matrix.transpose_transpose, h, Matrix.mul_assoc]

theorem symm_nextOf {A : Matrix (Fin n) (Fin n) ℝ} (h : A.transpose = A) (hn : 2 ≤ n) : (nextOf A).transpose = nextOf A := by
  rw [nextOf_eq A hn]; exact symm_clean (symm_conj h _)

/-- The angle makes the pivot vanish. -/
theorem angle_zero (x a b : ℝ) : Real.cos (angle x a b) * Real.sin (angle x a b) * (b - a) +
    x * (Real.cos (angle x a b) ^ 2 - Real.sin (angle x a b) ^ 2) = 0 := by
  have hs : ∀ t : ℝ, Real.cos t * Real.sin t = Real.sin (2 * t) / 2 := fun t => by rw [Real.sin_two_mul]; ring
  have hc : ∀ t : ℝ, Real.cos t ^ 2 - Real.sin t ^ 2 = Real.cos (2 * t) := fun t => (Real.cos_two_mul' t).symm
  rw [hs, hc]
  unfold angle
  split
  · next e =>
    have : 2 * (MathFns.pi / 4) = Real.pi / 2 := by show 2 * (Real.pi / 4) = _; ring
    rw [this, Real.cos_pi_div_two, e]; ring
  · next ne =>
    have hne : a - b ≠ 0 := sub_ne_zero.mpr ne
    rw [show 2 * (1 / 2 * Real.arctan (2 * x / (a - b))) = Real.arctan (2 * x / (a - b)) by ring]
    have hcos := Real.cos_arctan_pos (2 * x / (a - b))
    have htan := Real.tan_arctan (2 * x / (a - b))
    rw [Real.tan_eq_sin_div_cos, div_eq_iff hcos.ne'] at htan
    rw [htan]
    field_simp
    ring

theorem conj_apply (i j : Fin n) (θ : ℝ) (A : Matrix (Fin n) (Fin n) ℝ) (a b : Fin n) :
    ((rot i j θ).transpose * A * rot i j θ) a b = ∑ k, rot i j θ k b * ∑ l, rot i j θ l a * A l k := by
  rw [Matrix.mul_apply]
  refine Finset.sum_congr rfl fun k _ => ?_
  rw [Matrix.mul_apply, mul_comm]
  rfl

theorem conj_pivot {i j : Fin n} (hij : i ≠ j) {A : Matrix (Fin n) (Fin n) ℝ} (h : A.transpose = A) :
    ((rot i j (angle (A i j) (A i i) (A j j))).transpose * A * rot i j (angle (A i j) (A i i) (A j j))) i j = 0 := by
  have e : A j i = A i j := congrFun (congrFun h i) j
  have z := angle_zero (A i j) (A i i) (A j j)
  rw [conj_apply i j]
  generalize angle (A i j) (A i i) (A j j) = θ at z ⊢
  rw [rot_dot hij, if_neg (Ne.symm hij), if_pos rfl, rot_dot hij, rot_dot hij, if_pos rfl, if_pos rfl, e]
  linear_combination z

theorem small_zero : small 0 = true := by
  have f : ⌊(2 : ℝ)⁻¹⌋ = 0 := by norm_num [Int.floor_eq_iff]
  simp [small, isZeroApprox, roundC, eps, absC, f]

/-- After a round on a symmetric matrix some off-diagonal entry is zero, so that the loop ends only because nothing changed. -/
theorem nonZero_next {A : Matrix (Fin n) (Fin n) ℝ} (h : A.transpose = A) (hn : 2 ≤ n) : NonZero (nextOf A) := by
  obtain ⟨i, j, hij, -, e⟩ := rotOf_eq A hn
  refine ⟨i, j, hij, ?_⟩
  rw [nextOf_eq A hn, e]
  unfold clean
  rw [conj_pivot hij h]
  simp [small_zero]

theorem stepOf_symm {A : Matrix (Fin n) (Fin n) ℝ} (h : A.transpose = A) (hn : 2 ≤ n) :
    ((stepOf A).1 = true → (stepOf A).2 = diagPart (nextOf A)) ∧ ((stepOf A).1 = false → (stepOf A).2 = nextOf A) := by
  have nz := nonZero_next h hn
  unfold stepOf
  split
  · simp
  · simp [nz]

theorem symm_diagPart (A : Matrix (Fin n) (Fin n) ℝ) : (diagPart A).transpose = diagPart A := by
  funext i j
  show diagPart A j i = diagPart A i j
  unfold diagPart
  by_cases e : i = j
  · subst e; rfl
  · simp [e, Ne.symm e]

/-- What is known of the result of the loop. -/
theorem jac_inv (hn : 2 ≤ n) : ∀ k (A V : Matrix (Fin n) (Fin n) ℝ) B W, jac k A V = some (B, W) →
    B.trace = A.trace ∧ (V.transpose * V = 1 → W.transpose * W = 1) ∧ (A.transpose = A → ∀ i j, i ≠ j → B i j = 0)
  | 0, _, _, _, _, e => by cases e
  | k + 1, A, V, B, W, e => by
    have orthV : V.transpose * V = 1 → (V * rotOf A).transpose * (V * rotOf A) = 1 := fun hv => by
      rw [Matrix.transpose_mul, Matrix.mul_assoc, ← Matrix.mul_assoc V.transpose, hv, Matrix.one_mul, rotOf_orth A hn]
    unfold jac at e
    split at e
    · next d =>
      cases e
      refine ⟨trace_stepOf A hn, orthV, fun hs i j hij => ?_⟩
      rw [(stepOf_symm hs hn).1 d]
      simp [diagPart, hij]
    · next d =>
      obtain ⟨t, o, s⟩ := jac_inv hn k _ _ B W e
      refine ⟨t.trans (trace_stepOf A hn), fun hv => o (orthV hv), fun hs => s ?_⟩
      rw [(stepOf_symm hs hn).2 (by simpa using d)]
      exact symm_nextOf hs hn

/-! ## Diagonal matrices -/

/-- The off-diagonal entries are zero. -/
def IsDiagonal (A : Matrix (Fin n) (Fin n) ℝ) : Prop := ∀ i j, i ≠ j → A i j = 0

theorem clean_diag {A : Matrix (Fin n) (Fin n) ℝ} (h : IsDiagonal A) : clean A = A := by
  funext i j
  unfold clean
  split
  · next c => exact (h i j c.1).symm
  · rfl

theorem diagPart_diag {A : Matrix (Fin n) (Fin n) ℝ} (h : IsDiagonal A) : diagPart A = A := by
  funext i j
  unfold diagPart
  split
  · next c => exact (h i j c).symm
  · rfl

theorem diag_eq {A : Matrix (Fin n) (Fin n) ℝ} (h : IsDiagonal A) : A = Matrix.diagonal fun i => A i i := by
  funext i j
  by_cases e : i = j
  · subst e; simp
  · simp [e, h i j e]

theorem rot_zero {i j : Fin n} (hij : i ≠ j) : rot i j 0 = 1 := by
  funext a b
  simp only [rot, Real.sin_zero, Real.cos_zero, neg_zero, Matrix.one_apply]
  grind

/-- A diagonal matrix commutes with the rotation of a round. -/
theorem rotOf_comm {A : Matrix (Fin n) (Fin n) ℝ} (h : IsDiagonal A) (hn : 2 ≤ n) : A * rotOf A = rotOf A * A := by
  obtain ⟨i, j, hij, -, e⟩ := rotOf_eq A hn
  rw [e, h i j hij]
  unfold angle
  split
  · next q =>
    rw [diag_eq h]
    ext a b
    rw [Matrix.diagonal_mul, Matrix.mul_diagonal]
    unfold rot
    by_cases h1 : a = i <;> by_cases h2 : a = j <;> by_cases h3 : b = i <;> by_cases h4 : b = j <;> simp [h1, h2, h3, h4] <;> grind
  · rw [show (1 / 2 : ℝ) * Real.arctan (2 * 0 / (A i i - A j j)) = 0 by simp, rot_zero hij, Matrix.mul_one, Matrix.one_mul]

theorem nextOf_diag {A : Matrix (Fin n) (Fin n) ℝ} (h : IsDiagonal A) (hn : 2 ≤ n) : nextOf A = A := by
  rw [nextOf_eq A hn, Matrix.mul_assoc, rotOf_comm h hn, ← Matrix.mul_assoc, rotOf_orth A hn, Matrix.one_mul, clean_diag h]

theorem jac_diag {A : Matrix (Fin n) (Fin n) ℝ} (h : IsDiagonal A) (hn : 2 ≤ n) (k : Nat) (V : Matrix (Fin n) (Fin n) ℝ) :
    jac (k + 1) A V = some (A, V * rotOf A) := by
  have c : stepOf A = (true, A) := by
    unfold stepOf
    rw [if_pos (by rw [nextOf_diag h hn]; exact fun i j => .inl rfl), nextOf_diag h hn, diagPart_diag h]
  unfold jac
  rw [c]
  simp

/-- If the matrix becomes diagonal in one round without anything being lost, it is diagonalised in at most two rounds. -/
theorem jac_exact {A : Matrix (Fin n) (Fin n) ℝ} (hn : 2 ≤ n) (h : IsDiagonal ((rotOf A).transpose * A * rotOf A)) (k : Nat) :
    ∃ B W, jac (k + 2) A 1 = some (B, W) ∧ W.transpose * W = 1 ∧ A * W = W * B ∧ IsDiagonal B := by
  have e : nextOf A = (rotOf A).transpose * A * rotOf A := by rw [nextOf_eq A hn, clean_diag h]
  have key : A * rotOf A = rotOf A * nextOf A := by
    rw [e, ← Matrix.mul_assoc, ← Matrix.mul_assoc, orth_comm (rotOf_orth A hn), Matrix.one_mul]
  have d : IsDiagonal (nextOf A) := e ▸ h
  have s2 : (stepOf A).2 = nextOf A := by
    unfold stepOf
    split
    · exact diagPart_diag d
    · rfl
  unfold jac
  rw [Matrix.one_mul, s2]
  by_cases c : (stepOf A).1 = true
  · exact ⟨nextOf A, rotOf A, if_pos c, rotOf_orth A hn, key, d⟩
  · refine ⟨nextOf A, rotOf A * rotOf (nextOf A), ?_, ?_, ?_, d⟩
    · rw [if_neg c, jac_diag d hn]
    · rw [Matrix.transpose_mul, Matrix.mul_assoc, ← Matrix.mul_assoc (rotOf A).transpose, rotOf_orth A hn, Matrix.one_mul,
        rotOf_orth _ hn]
    · rw [← Matrix.mul_assoc, key, Matrix.mul_assoc, rotOf_comm d hn, Matrix.mul_assoc]

theorem jac_two {A : Matrix (Fin 2) (Fin 2) ℝ} (h : A.transpose = A) (k : Nat) :
    ∃ B W, jac (k + 2) A 1 = some (B, W) ∧ W.transpose * W = 1 ∧ A * W = W * B ∧ IsDiagonal B := by
  refine jac_exact le_rfl ?_ k
  obtain ⟨i, j, hij, -, e⟩ := rotOf_eq A le_rfl
  have z := conj_pivot hij h
  have s := symm_conj h (rotOf A)
  rw [← e] at z
  have z' : ((rotOf A).transpose * A * rotOf A) j i = 0 := by rw [← s]; exact z
  intro a b hab
  have : (a = i ∧ b = j) ∨ (a = j ∧ b = i) := by
    clear * - hij hab; revert a b i j; decide
  rcases this with ⟨rfl, rfl⟩ | ⟨rfl, rfl⟩
  · exact z
  · exact z'

/-! ## The part after the loop -/

/-- The last index below `k` at which `d` is `x`, 0 if there is none. -/
noncomputable def lastIdx (d : Nat → ℝ) (x : ℝ) (k : Nat) : Nat := (List.range k).foldl (fun f j => if x = d j then j else f) 0

theorem lastIdx_spec {d : Nat → ℝ} {x : ℝ} : ∀ {k}, (∃ j, j < k ∧ x = d j) → lastIdx d x k < k ∧ x = d (lastIdx d x k)
  | 0, ⟨j, hj, _⟩ => by omega
  | k + 1, ⟨j, hj, e⟩ => by
    unfold lastIdx
    rw [List.range_succ, List.foldl_append]
    show (if x = d k then k else lastIdx d x k) < k + 1 ∧ x = d (if x = d k then k else lastIdx d x k)
    split
    · next c => exact ⟨by omega, c⟩
    · next c =>
      have : j < k := by
        rcases Nat.lt_succ_iff_lt_or_eq.mp hj with q | q
        · exact q
        · subst q; exact absurd e c
      obtain ⟨a, b⟩ := lastIdx_spec ⟨j, this, e⟩
      exact ⟨by omega, b⟩

/-- How the two results are made from the matrices the loop leaves. -/
def Arranged (B W D V : Matrix (Fin n) (Fin n) ℝ) : Prop :=
  ∃ (σ : Equiv.Perm (Fin n)) (v : Fin n → Fin n), (∀ i j, i ≤ j → B (σ j) (σ j) ≤ B (σ i) (σ i)) ∧
    (∀ i j, D i j = if i = j then B (σ i) (σ i) else B i j) ∧ (∀ i j, V i j = W i (v j)) ∧
    (∀ i, B (v i) (v i) = B (σ i) (σ i)) ∧ ∀ i, (v i).val = lastIdx (fun j => at0 B j j) (B (σ i) (σ i)) n

theorem arranged_trace {B W D V : Matrix (Fin n) (Fin n) ℝ} (h : Arranged B W D V) : D.trace = B.trace := by
  obtain ⟨σ, v, -, eD, -, -⟩ := h
  simp only [Matrix.trace, Matrix.diag_apply, eD, if_true]
  exact Equiv.sum_comp σ fun i => B i i

theorem arranged_unit {B W D V : Matrix (Fin n) (Fin n) ℝ} (h : Arranged B W D V) (o : W.transpose * W = 1) : UnitColumns V := by
  obtain ⟨σ, v, -, -, eV, -⟩ := h
  intro j
  have := congrFun (congrFun o (v j)) (v j)
  rw [Matrix.mul_apply, Matrix.one_apply_eq] at this
  rw [← this]
  exact Finset.sum_congr rfl fun i _ => by rw [sq, eV]; rfl

theorem arranged_sorted {B W D V : Matrix (Fin n) (Fin n) ℝ} (h : Arranged B W D V) : ∀ i j, i ≤ j → D j j ≤ D i i := by
  obtain ⟨σ, v, hs, eD, -, -⟩ := h
  simpa [eD] using hs

theorem arranged_diag {B W D V : Matrix (Fin n) (Fin n) ℝ} (h : Arranged B W D V) (d : IsDiagonal B) : SortedDiagonal D := by
  refine ⟨fun i j hij => ?_, arranged_sorted h⟩
  obtain ⟨σ, v, -, eD, -, -⟩ := h
  simp [eD, hij, d i j hij]

theorem arranged_eig {A B W D V : Matrix (Fin n) (Fin n) ℝ} (h : Arranged B W D V) (d : IsDiagonal B) (e : A * W = W * B) : A * V = V * D := by
  have dD := (arranged_diag h d).1
  obtain ⟨σ, v, -, eD, eV, hv, -⟩ := h
  rw [diag_eq dD]
  ext a b
  rw [Matrix.mul_diagonal]
  have := congrFun (congrFun e a) (v b)
  rw [diag_eq d, Matrix.mul_diagonal, hv] at this
  rw [Matrix.mul_apply] at this ⊢
  simpa [eV, eD] using this

/-- The vectors are orthogonal if the values reported are all different. -/
theorem arranged_inj {B W D V : Matrix (Fin n) (Fin n) ℝ} (h : Arranged B W D V) (o : W.transpose * W = 1)
    (hd : ∀ i j, i ≠ j → D i i ≠ D j j) : V.transpose * V = 1 := by
  obtain ⟨σ, v, -, eD, eV, hv, -⟩ := h
  ext a b
  have := congrFun (congrFun o (v a)) (v b)
  rw [Matrix.mul_apply] at this ⊢
  have e2 : ∑ j, V.transpose a j * V j b = ∑ j, W.transpose (v a) j * W j (v b) :=
    Finset.sum_congr rfl fun i _ => by simp [eV]
  rw [e2, this]
  by_cases e : a = b
  · subst e; simp
  · rw [Matrix.one_apply_ne e, Matrix.one_apply_ne]
    intro q
    have := hd a b e
    simp only [eD, if_true] at this
    exact this (by rw [← hv a, ← hv b, q])

end Verif.Eigen
