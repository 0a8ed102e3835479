import Verif.Lemmas.Harris
import Verif.Lemmas.Filters
import Verif.Lemmas.Example

/-!
# C94: image gradients; C95: Gaussian filters; C97: structure tensor and Harris corners; C98: the built-in filters
-/

namespace Verif
open Spec Convolutions
variable {m n : Nat}

/-! ## C94 -/

/-- **C94 (dy)**: `dy(input)` returns a new matrix: the upper neighbour minus the lower neighbour of every cell, 0 beyond the border. -/
theorem C94_dy (h : Heap ℝ) (w : h.WF) (a : Nat) (A : Matrix (Fin m) (Fin n) ℝ) (hA : IsMat h a A) (la : h.live (.m a)) :
    ReturnsMat (dy (some (.m a))) h (slopeY A) := dy_run w hA la

/-- **C94 (dx)**: for images at most as wide as high, `dx(input)` returns a new matrix: the right neighbour minus the left neighbour of every
cell, 0 beyond the border. -/
theorem C94_dx (h : Heap ℝ) (w : h.WF) (a : Nat) (A : Matrix (Fin m) (Fin n) ℝ) (hA : IsMat h a A) (la : h.live (.m a)) (hn : n ≤ m) :
    ReturnsMat (dx (some (.m a))) h (slopeX A) := by
  rw [← codeDx_eq A hn]; exact dx_run w hA la

/-- **C94 (dx, any shape)**: in general, in the column whose number is the number of rows less one (unless that is 0) the right neighbour is left
out. -/
theorem C94_dx_partial (h : Heap ℝ) (w : h.WF) (a : Nat) (A : Matrix (Fin m) (Fin n) ℝ) (hA : IsMat h a A) (la : h.live (.m a)) :
    ReturnsMat (dx (some (.m a))) h (fun i j => if j.val ≠ 0 ∧ (j.val : Int) = m - 1 then - ext A i.val (j.val - 1) else slopeX A i j) :=
  dx_run w hA la

/-- **C94 (dx, wide images: false)**: for an image with at least two rows and more columns than rows, the result is wrong wherever the cell
to the right of that column is not 0. -/
theorem C94_wide_fails (h : Heap ℝ) (w : h.WF) (a : Nat) (A : Matrix (Fin m) (Fin n) ℝ) (hA : IsMat h a A) (la : h.live (.m a)) (hm : 2 ≤ m)
    (hn : m < n) (i : Fin m) (hi : A i ⟨m, hn⟩ ≠ 0) : ¬ ReturnsMat (dx (some (.m a))) h (slopeX A) := by
  intro q
  obtain ⟨r1, h1, e1, o1, er1, _, _, _, _, i1⟩ := runs_iff.mp q
  obtain ⟨r2, h2, e2, o2, er2, _, _, _, _, i2⟩ := runs_iff.mp (dx_run w hA la)
  rw [e1] at e2
  injection e2 with e2
  injection e2 with e2 e3
  subst e2 e3 er1
  cases er2
  have u1 := i1.2 i ⟨m - 1, by omega⟩
  rw [i2.2 i ⟨m - 1, by omega⟩] at u1
  injection u1 with u1
  unfold codeDx slopeX at u1
  rw [if_pos ⟨by simp only; omega, by simp only; omega⟩] at u1
  refine hi ?_
  rw [← ext_in (A := A) i ⟨m, hn⟩]
  have e : ((m - 1 : Nat) : Int) + 1 = (m : Int) := by omega
  simp only [e] at u1
  linarith

/-- **C94 (magnitude and direction)**: for images at most as wide as high, `grad_magnitude` and `grad_orientation` return, cell by cell, the
length and the angle of the vector with the coordinates `dx` and `dy`. -/
theorem C94_gradient (h : Heap ℝ) (w : h.WF) (a : Nat) (A : Matrix (Fin m) (Fin n) ℝ) (hA : IsMat h a A) (la : h.live (.m a)) (hn : n ≤ m) :
    ReturnsMat (grad_magnitude (some (.m a))) h (Matrix.of fun i j => Real.sqrt (slopeX A i j ^ 2 + slopeY A i j ^ 2)) ∧
    ReturnsMat (grad_orientation (some (.m a))) h (Matrix.of fun i j => Complex.arg ⟨slopeX A i j, slopeY A i j⟩) := by
  have h1 := grad_magnitude_run w ⟨a, rfl, la, hA⟩
  have h2 := grad_orientation_run w ⟨a, rfl, la, hA⟩
  rw [codeDx_eq A hn] at h1 h2
  exact ⟨h1, h2⟩

/-- **C94 (polar coordinates)**: the length and the angle determine the two slopes, and the angle lies in `(−π, π]`. -/
theorem C94_polar (x y : ℝ) :
    Real.sqrt (x ^ 2 + y ^ 2) * Real.cos (Complex.arg ⟨x, y⟩) = x ∧ Real.sqrt (x ^ 2 + y ^ 2) * Real.sin (Complex.arg ⟨x, y⟩) = y ∧
    -Real.pi < Complex.arg ⟨x, y⟩ ∧ Complex.arg ⟨x, y⟩ ≤ Real.pi := by
  have e : Real.sqrt (x ^ 2 + y ^ 2) = ‖(⟨x, y⟩ : ℂ)‖ := by rw [Complex.norm_def, Complex.normSq_mk]; congr 1; ring
  rw [e]
  exact ⟨Complex.norm_mul_cos_arg ⟨x, y⟩, Complex.norm_mul_sin_arg ⟨x, y⟩, Complex.neg_pi_lt_arg _, Complex.arg_le_pi _⟩

/-- A heap with a 2 by 2 image in matrix 0 and a 2 by 3 image in matrix 1. -/
noncomputable def exHeapImage : Heap ℝ := Heap.ofLists 0 [] [(2, 2, [1, 2, 3, 4]), (3, 2, [1, 2, 3, 4, 5, 6])]

/-- The hypotheses of the theorems above are met. -/
example : exHeapImage.WF ∧ IsMat exHeapImage 0 (fun i j => 2 * i.val + j.val + 1 : Matrix (Fin 2) (Fin 2) ℝ) ∧ exHeapImage.live (.m 0) ∧
    IsMat exHeapImage 1 (fun i j => 3 * i.val + j.val + 1 : Matrix (Fin 2) (Fin 3) ℝ) ∧ exHeapImage.live (.m 1) ∧
    (fun i j => 3 * i.val + j.val + 1 : Matrix (Fin 2) (Fin 3) ℝ) 0 2 ≠ 0 := by
  refine ⟨Heap.ofLists_wf _ _ _ (by simp), ⟨by simp [exHeapImage, Heap.ofLists], fun i j => ?_⟩, by simp [exHeapImage, Heap.ofLists, Heap.live, Loc.id],
    ⟨by simp [exHeapImage, Heap.ofLists], fun i j => ?_⟩, by simp [exHeapImage, Heap.ofLists, Heap.live, Loc.id], by norm_num⟩
  · fin_cases i <;> fin_cases j <;> norm_num [exHeapImage, Heap.ofLists]
  · fin_cases i <;> fin_cases j <;> norm_num [exHeapImage, Heap.ofLists]

/-! ## C95 -/

/-- The height of the Gaussian bell of width `σ` at `(x, y)`. -/
noncomputable def Spec.gaussWeight (σ x y : ℝ) : ℝ := 1 / (2 * Real.pi * σ ^ 2) * Real.exp (-(x ^ 2 + y ^ 2) / (2 * σ ^ 2))

theorem center_odd (r : Nat) : (((2 * r + 1 : Nat) : Int) - 1).tdiv 2 = r := by
  have : ((2 * r + 1 : Nat) : Int) - 1 = ((2 * r : Nat) : Int) := by push_cast; ring
  rw [this, show (2 : Int) = ((2 : Nat) : Int) from rfl, ← Int.ofNat_tdiv]
  congr 1; omega

theorem gaussian_odd_run {h : Heap ℝ} (w : h.WF) (r : Nat) (σ : ℝ) :
    ReturnsMat (gaussian_filter_2d ((2 * r + 1 : Nat) : Int) σ) h (fun i j : Fin (2 * r + 1) =>
      1 / (2 * Real.pi * σ ^ 2) * Real.exp (-(((i.val : ℝ) - r) ^ 2 + ((j.val : ℝ) - r) ^ 2) / 2 * σ ^ 2)) := by
  refine cast (congrArg _ ?_) (gaussian_filter_run w (2 * r + 1) σ)
  funext i j
  simp only [Matrix.of_apply, gaussian_2d, center_odd]
  push_cast
  congr 3 <;> ring

/-- **C95 (width 1, odd size)**: `gaussian_filter_2d(2 r + 1, 1)` returns a new matrix with the heights of the Gaussian bell of width 1 centred
on the middle cell. -/
theorem C95_gaussian_filter (h : Heap ℝ) (w : h.WF) (r : Nat) :
    ReturnsMat (gaussian_filter_2d ((2 * r + 1 : Nat) : Int) 1) h (fun i j : Fin (2 * r + 1) => gaussWeight 1 ((i.val : ℝ) - r) ((j.val : ℝ) - r)) := by
  refine cast (congrArg _ ?_) (gaussian_odd_run w r 1)
  funext i j
  simp only [gaussWeight]
  norm_num

/-- **C95 (exact, odd size)**: for other widths the exponent is multiplied by the square of the width where the bell has it divided. -/
theorem C95_gaussian_filter_partial (h : Heap ℝ) (w : h.WF) (r : Nat) (σ : ℝ) :
    ReturnsMat (gaussian_filter_2d ((2 * r + 1 : Nat) : Int) σ) h (fun i j : Fin (2 * r + 1) =>
      1 / (2 * Real.pi * σ ^ 2) * Real.exp (-(((i.val : ℝ) - r) ^ 2 + ((j.val : ℝ) - r) ^ 2) / 2 * σ ^ 2)) := gaussian_odd_run w r σ

/-- **C95 (symmetry, odd size)**: the filter is the same upside down, mirrored and transposed. -/
theorem C95_symmetric (h : Heap ℝ) (w : h.WF) (r : Nat) (σ : ℝ) :
    ∃ G : Matrix (Fin (2 * r + 1)) (Fin (2 * r + 1)) ℝ, ReturnsMat (gaussian_filter_2d ((2 * r + 1 : Nat) : Int) σ) h G ∧
      (∀ i j, G i.rev j = G i j) ∧ (∀ i j, G i j.rev = G i j) ∧ G.transpose = G := by
  refine ⟨_, gaussian_odd_run w r σ, fun i j => ?_, fun i j => ?_, ?_⟩
  · have e : ((i.rev.val : ℝ) - r) ^ 2 = ((i.val : ℝ) - r) ^ 2 := by
      rw [Fin.val_rev, show 2 * r + 1 - (i.val + 1) = 2 * r - i.val by omega, Nat.cast_sub (by omega)]; push_cast; ring
    simp only [e]
  · have e : ((j.rev.val : ℝ) - r) ^ 2 = ((j.val : ℝ) - r) ^ 2 := by
      rw [Fin.val_rev, show 2 * r + 1 - (j.val + 1) = 2 * r - j.val by omega, Nat.cast_sub (by omega)]; push_cast; ring
    simp only [e]
  · funext i j
    show _ * Real.exp (-((((j.val : ℝ)) - r) ^ 2 + ((i.val : ℝ) - r) ^ 2) / 2 * σ ^ 2) = _
    rw [add_comm]

/-- **C95 (other widths: false)**: for every size `2 r + 1 ≥ 3` and every width other than 0, 1 and −1 the filter is not the bell of that width. -/
theorem C95_width_fails (h : Heap ℝ) (w : h.WF) (r : Nat) (hr : 1 ≤ r) (σ : ℝ) (h0 : σ ≠ 0) (h1 : σ ^ 2 ≠ 1) :
    ¬ ReturnsMat (gaussian_filter_2d ((2 * r + 1 : Nat) : Int) σ) h (fun i j : Fin (2 * r + 1) => gaussWeight σ ((i.val : ℝ) - r) ((j.val : ℝ) - r)) := by
  intro q
  obtain ⟨r1, g1, e1, o1, er1, _, _, _, _, i1⟩ := runs_iff.mp q
  obtain ⟨r2, g2, e2, o2, er2, _, _, _, _, i2⟩ := runs_iff.mp (gaussian_odd_run w r σ)
  rw [e1] at e2
  injection e2 with e2
  injection e2 with e2 e3
  subst e2 e3 er1
  cases er2
  have u1 := i1.2 ⟨0, by omega⟩ ⟨r, by omega⟩
  rw [i2.2 ⟨0, by omega⟩ ⟨r, by omega⟩] at u1
  injection u1 with u1
  simp only [gaussWeight] at u1
  have hs : 0 < σ ^ 2 := by positivity
  have hp : 1 / (2 * Real.pi * σ ^ 2) ≠ 0 := by have := Real.pi_pos; positivity
  have u2 := Real.exp_injective (mul_left_cancel₀ hp u1)
  have hr' : (0 : ℝ) < r := by exact_mod_cast hr
  norm_num at u2
  field_simp at u2
  have u3 : (σ ^ 2) ^ 2 = 1 := by nlinarith
  have u4 : (σ ^ 2 - 1) * (σ ^ 2 + 1) = 0 := by linarith
  rcases mul_eq_zero.mp u4 with e | e
  · exact h1 (by linarith)
  · linarith

/-- **C95 (even sizes: not centred)**: for every even size `2 r ≥ 2` and every width other than 0 the first and last rows of the filter differ. -/
theorem C95_even_fails (h : Heap ℝ) (w : h.WF) (r : Nat) (hr : 1 ≤ r) (σ : ℝ) (h0 : σ ≠ 0) (G : Matrix (Fin (2 * r)) (Fin (2 * r)) ℝ)
    (q : ReturnsMat (gaussian_filter_2d ((2 * r : Nat) : Int) σ) h G) : G ⟨0, by omega⟩ ≠ G ⟨2 * r - 1, by omega⟩ := by
  obtain ⟨r1, g1, e1, o1, er1, _, _, _, _, i1⟩ := runs_iff.mp q
  obtain ⟨r2, g2, e2, o2, er2, _, _, _, _, i2⟩ := runs_iff.mp (gaussian_filter_run w (2 * r) σ)
  rw [e1] at e2
  injection e2 with e2
  injection e2 with e2 e3
  subst e2 e3 er1
  cases er2
  have c : (((2 * r : Nat) : Int) - 1).tdiv 2 = ((r - 1 : Nat) : Int) := by
    have : ((2 * r : Nat) : Int) - 1 = ((2 * r - 1 : Nat) : Int) := by omega
    rw [this, show (2 : Int) = ((2 : Nat) : Int) from rfl, ← Int.ofNat_tdiv]
    congr 1; omega
  intro eq
  have u : ∀ i j, G i j = gaussian_2d (((i.val : Int) - ((2 * r : Nat) - 1 : Int).tdiv 2 : Int) : ℝ) ((((2 * r : Nat) - 1 : Int).tdiv 2 - (j.val : Int) : Int) : ℝ) σ := by
    intro i j
    have := i1.2 i j
    rw [i2.2 i j] at this
    injection this with this
    exact this.symm
  have v := congrFun eq ⟨0, by omega⟩
  rw [u, u, c] at v
  simp only [gaussian_2d] at v
  have hs : 0 < σ ^ 2 := by positivity
  have hp : 1 / (2 * Real.pi * (σ * σ)) ≠ 0 := by have := Real.pi_pos; have : 0 < σ * σ := by nlinarith
                                                  positivity
  have v2 := Real.exp_injective (mul_left_cancel₀ hp v)
  have v3 : ((2 * r - 1 : Nat) : Int) - ((r - 1 : Nat) : Int) = r := by omega
  have v4 : ((0 : Nat) : Int) - ((r - 1 : Nat) : Int) = 1 - r := by omega
  rw [v3, v4] at v2
  push_cast at v2
  have hr' : (1 : ℝ) ≤ r := by exact_mod_cast hr
  have v5 := mul_right_cancel₀ (by positivity : σ * σ ≠ 0) v2
  nlinarith

/-! ## C97 -/

/-- **C97 (structure tensor)**: `compute_m` of a square image returns a new tensor of three slices: the squared horizontal slopes, the squared
vertical slopes and their products, each smoothed with the Gaussian weights. -/
theorem C97_compute_m (h : Heap ℝ) (w : h.WF) (a : Nat) (A : Matrix (Fin m) (Fin m) ℝ) (hA : IsMat h a A) (la : h.live (.m a)) (hm : 1 ≤ m) :
    ReturnsTen (compute_m (some (.m a))) h (fun z : Fin 3 => ![tensorXX A, tensorYY A, tensorXY A] z) := compute_m_run w hm ⟨a, rfl, la, hA⟩

/-- **C97 (the same as three matrices)**: `compute_mv` returns these as three new, different matrices. -/
theorem C97_compute_mv (h : Heap ℝ) (w : h.WF) (a : Nat) (A : Matrix (Fin m) (Fin m) ℝ) (hA : IsMat h a A) (la : h.live (.m a)) (hm : 1 ≤ m) :
    Runs (compute_mv (some (.m a))) h fun q h' => h'.WF ∧ Keeps h h' (fun _ => False) ∧ NotIn h q.1 ∧ NotIn h q.2.1 ∧ NotIn h q.2.2 ∧
      HasM h' q.1 (tensorXX A) ∧ HasM h' q.2.1 (tensorYY A) ∧ HasM h' q.2.2 (tensorXY A) ∧ q.1 ≠ q.2.1 ∧ q.1 ≠ q.2.2 ∧ q.2.1 ≠ q.2.2 :=
  compute_mv_run w hm ⟨a, rfl, la, hA⟩

/-- **C97 (corners)**: `harris_corner_detection` of a square image returns a table of its shape: `C` where the Harris response is positive, `E`
where it is negative and `N` where it is 0; nothing else changes. -/
theorem C97_harris (h : Heap ℝ) (w : h.WF) (a : Nat) (A : Matrix (Fin m) (Fin m) ℝ) (hA : IsMat h a A) (la : h.live (.m a)) (hm : 1 ≤ m) :
    ReturnsVal (harris_corner_detection (some (.m a))) h (List.ofFn fun i => List.ofFn fun j =>
      if 0 < harris A i j then 'C' else if harris A i j < 0 then 'E' else 'N') := harris_run w hm ⟨a, rfl, la, hA⟩

/-- **C97 (dark images)**: an image that is 0 everywhere has no corner and no edge. -/
theorem C97_dark (i j : Fin m) : harris (0 : Matrix (Fin m) (Fin m) ℝ) i j = 0 := by
  have hx : ∀ i j, slopeX (0 : Matrix (Fin m) (Fin m) ℝ) i j = 0 := fun i j => by simp [slopeX, ext]
  have hy : ∀ i j, slopeY (0 : Matrix (Fin m) (Fin m) ℝ) i j = 0 := fun i j => by simp [slopeY, ext]
  simp [harris, tensorXX, tensorYY, tensorXY, smooth, overlap, window, hx, hy, ext]

example : exHeapImage.WF ∧ IsMat exHeapImage 0 (fun i j => 2 * i.val + j.val + 1 : Matrix (Fin 2) (Fin 2) ℝ) ∧ exHeapImage.live (.m 0) := by
  refine ⟨Heap.ofLists_wf _ _ _ (by simp), ⟨by simp [exHeapImage, Heap.ofLists], fun i j => ?_⟩, by simp [exHeapImage, Heap.ofLists, Heap.live, Loc.id]⟩
  fin_cases i <;> fin_cases j <;> norm_num [exHeapImage, Heap.ofLists]

/-! ## C98 -/

/-- **C98 (cells)**: after construction the getters return these eight new matrices. -/
theorem C98_filters (h : Heap ℝ) (w : h.WF) : Runs create h fun f h' => h'.WF ∧ Keeps h h' (fun _ => False) ∧
    HasM h' f.prewitt_horizontal !![1, 1, 1; 0, 0, 0; -1, -1, -1] ∧ HasM h' f.prewitt_vertical !![1, 0, -1; 1, 0, -1; 1, 0, -1] ∧
    HasM h' f.sobel_horizontal !![1, 2, 1; 0, 0, 0; -1, -2, -1] ∧ HasM h' f.sobel_vertical !![-1, 0, 1; -2, 0, 2; -1, 0, 1] ∧
    HasM h' f.scharr_horizontal !![3, 10, 3; 0, 0, 0; -3, -10, -3] ∧ HasM h' f.scharr_vertical !![3, 0, -3; 10, 0, -10; 3, 0, -3] ∧
    HasM h' f.roberts_horizontal !![0, 1; -1, 0] ∧ HasM h' f.roberts_vertical !![1, 0; 0, -1] := by
  unfold create
  refine stepM (ofArray_run w _ 3 3) fun r1 h1 w1 k1 f1 a1 => ?_
  refine stepM (ofArray_run w1 _ 3 3) fun r2 h2 w2 k2 f2 a2 => ?_
  refine stepM (ofArray_run w2 _ 3 3) fun r3 h3 w3 k3 f3 a3 => ?_
  refine stepM (ofArray_run w3 _ 3 3) fun r4 h4 w4 k4 f4 a4 => ?_
  refine stepM (ofArray_run w4 _ 3 3) fun r5 h5 w5 k5 f5 a5 => ?_
  refine stepM (ofArray_run w5 _ 3 3) fun r6 h6 w6 k6 f6 a6 => ?_
  refine stepM (ofArray_run w6 _ 2 2) fun r7 h7 w7 k7 f7 a7 => ?_
  refine stepM (ofArray_run w7 _ 2 2) fun r8 h8 w8 k8 f8 a8 => ?_
  have k78 := k8
  have k68 := k7.trans k78
  have k58 := k6.trans k68
  have k48 := k5.trans k58
  have k38 := k4.trans k48
  have k28 := k3.trans k38
  have k18 := k2.trans k28
  have cv : ∀ {p : Nat} {r : Ref} {A B : Matrix (Fin p) (Fin p) ℝ}, HasM h8 r A → (∀ i j, A i j = B i j) → HasM h8 r B := by
    intro p r A B a e
    have : A = B := by ext i j; exact e i j
    exact this ▸ a
  refine Runs.of_eq rfl ⟨w8, k1.trans k18, cv (adv_hasm k18 a1) ?_, cv (adv_hasm k28 a2) ?_, cv (adv_hasm k38 a3) ?_, cv (adv_hasm k48 a4) ?_,
    cv (adv_hasm k58 a5) ?_, cv (adv_hasm k68 a6) ?_, cv (adv_hasm k78 a7) ?_, cv a8 ?_⟩ <;>
  · intro i j
    fin_cases i <;> fin_cases j <;> rfl

/-- **C98 (flat images)**: a square filter whose cells sum to 0 has response 0 everywhere on an image of one colour: `convolve_2d` with stride 1
and without padding returns a matrix of zeros. -/
theorem C98_flat {F : Nat} (h : Heap ℝ) (w : h.WF) (a b : Nat) (x : ℝ) (hA : IsMat h a (fun _ _ => x : Matrix (Fin m) (Fin n) ℝ)) (la : h.live (.m a))
    (hmn : m ≤ n) (K : Matrix (Fin F) (Fin F) ℝ) (hK : IsMat h b K) (lb : h.live (.m b)) (hF : F ≤ m) (hs : ∑ k, ∑ p, K k p = 0) :
    ReturnsMat (convolve_2d (some (.m a)) (some (.m b)) 1 0) h (0 : Matrix (Fin (m - F + 1)) (Fin (m - F + 1)) ℝ) := by
  have := convolve_2d_run w hA la hK lb (S := 1) (P := 0) (L := m - F + 1) le_rfl (by omega) (by rw [Nat.div_one]; rfl)
  simp only [Nat.cast_one, start_one] at this
  refine cast (congrArg _ ?_) this
  funext i j
  unfold overlap window
  have e : ∀ k p : Fin F, ext (fun _ _ => x : Matrix (Fin m) (Fin n) ℝ) ((i.val : Int) - (0 : Nat) + k.val) ((j.val : Int) - (0 : Nat) + p.val) = x := by
    intro k p
    have e1 := ext_in (A := (fun _ _ => x : Matrix (Fin m) (Fin n) ℝ)) ⟨i.val + k.val, by omega⟩ ⟨j.val + p.val, by omega⟩
    refine Eq.trans ?_ e1
    simp
  simp only [e]
  rw [show (0 : Matrix (Fin (m - F + 1)) (Fin (m - F + 1)) ℝ) i j = 0 from rfl]
  simp only [← Finset.mul_sum]
  rw [hs, mul_zero]

/-- **C98 (flat images, the built-in filters)**: the cells of every built-in filter sum to 0. -/
theorem C98_sums :
    (∀ K ∈ [!![1, 1, 1; 0, 0, 0; -1, -1, -1], !![1, 0, -1; 1, 0, -1; 1, 0, -1], !![1, 2, 1; 0, 0, 0; -1, -2, -1], !![-1, 0, 1; -2, 0, 2; -1, 0, 1],
      !![3, 10, 3; 0, 0, 0; -3, -10, -3], !![3, 0, -3; 10, 0, -10; 3, 0, -3]], ∑ k : Fin 3, ∑ p : Fin 3, (K k p : ℝ) = 0) ∧
    ∀ K ∈ [!![0, 1; -1, 0], !![1, 0; 0, -1]], ∑ k : Fin 2, ∑ p : Fin 2, (K k p : ℝ) = 0 := by
  constructor
  · intro K hK
    simp only [List.mem_cons, List.not_mem_nil, or_false] at hK
    rcases hK with rfl | rfl | rfl | rfl | rfl | rfl <;> simp [Fin.sum_univ_succ] <;> norm_num
  · intro K hK
    simp only [List.mem_cons, List.not_mem_nil, or_false] at hK
    rcases hK with rfl | rfl <;> simp [Fin.sum_univ_succ]

/-- **C98 (orientation)**: the vertical Prewitt and Scharr filters are the transposed horizontal ones; the vertical Sobel filter is the
transposed horizontal one with the opposite sign. -/
theorem C98_sobel_orientation_fails :
    (!![1, 0, -1; 1, 0, -1; 1, 0, -1] : Matrix (Fin 3) (Fin 3) ℝ) = (!![1, 1, 1; 0, 0, 0; -1, -1, -1] : Matrix (Fin 3) (Fin 3) ℝ).transpose ∧
    (!![3, 0, -3; 10, 0, -10; 3, 0, -3] : Matrix (Fin 3) (Fin 3) ℝ) = (!![3, 10, 3; 0, 0, 0; -3, -10, -3] : Matrix (Fin 3) (Fin 3) ℝ).transpose ∧
    (!![-1, 0, 1; -2, 0, 2; -1, 0, 1] : Matrix (Fin 3) (Fin 3) ℝ) = - (!![1, 2, 1; 0, 0, 0; -1, -2, -1] : Matrix (Fin 3) (Fin 3) ℝ).transpose ∧
    (!![-1, 0, 1; -2, 0, 2; -1, 0, 1] : Matrix (Fin 3) (Fin 3) ℝ) ≠ (!![1, 2, 1; 0, 0, 0; -1, -2, -1] : Matrix (Fin 3) (Fin 3) ℝ).transpose := by
  refine ⟨?_, ?_, ?_, fun c => ?_⟩
  · ext i j; fin_cases i <;> fin_cases j <;> rfl
  · ext i j; fin_cases i <;> fin_cases j <;> rfl
  · ext i j; fin_cases i <;> fin_cases j <;> norm_num
  · have := congrFun (congrFun c 0) 0
    norm_num at this

end Verif
