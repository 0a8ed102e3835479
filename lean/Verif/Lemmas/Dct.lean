import Verif.Spec.Transforms
import Verif.Lemmas.Gradients
import Mathlib.Tactic.FieldSimp
import Mathlib.LinearAlgebra.Matrix.NonsingularInverse
import Mathlib.LinearAlgebra.Matrix.Trace

/-! # The discrete cosine transform -/

namespace Verif
open Spec
variable {m n : Nat}

theorem sum_cos (θ : ℝ) (n : Nat) : 2 * Real.sin θ * ∑ k ∈ Finset.range n, Real.cos ((2 * k + 1) * θ) = Real.sin (2 * n * θ) := by
  induction n with
  | zero => simp
  | succ n ih =>
    rw [Finset.sum_range_succ, mul_add, ih]
    have h1 : (2 * ((n + 1 : Nat) : ℝ) * θ) = (2 * n + 1) * θ + θ := by push_cast; ring
    have h2 : (2 * (n : ℝ) * θ) = (2 * n + 1) * θ - θ := by ring
    rw [h1, h2, Real.sin_add, Real.sin_sub]
    ring

theorem sum_cos_zero {n : Nat} {s : Int} (h0 : s ≠ 0) (h1 : |s| < 2 * n) :
    ∑ k ∈ Finset.range n, Real.cos ((2 * k + 1) * (Real.pi * s / (2 * n))) = 0 := by
  have hn : 0 < n := by have := abs_nonneg s; omega
  have hn' : (0 : ℝ) < n := by exact_mod_cast hn
  have hs : Real.sin (Real.pi * s / (2 * n)) ≠ 0 := by
    rw [Real.sin_ne_zero_iff]
    intro k e
    have e1 : (k : ℝ) * (2 * n) = s := by
      have := Real.pi_ne_zero
      field_simp at e
      linarith
    have e2 : k * (2 * n) = s := by exact_mod_cast e1
    have hk : k ≠ 0 := by rintro rfl; simp at e2; exact h0 e2.symm
    have : |k| * (2 * n) = |s| := by rw [← e2, abs_mul]; simp
    have := Int.one_le_abs hk
    nlinarith
  have := sum_cos (Real.pi * s / (2 * n)) n
  rw [show 2 * (n : ℝ) * (Real.pi * s / (2 * n)) = s * Real.pi by field_simp, Real.sin_int_mul_pi] at this
  rcases mul_eq_zero.mp this with h | h
  · exact absurd (by linarith) hs
  · exact h

/-- The rows of the cosine matrix are orthonormal. -/
theorem dctMatrix_orthogonal : dctMatrix n * (dctMatrix n).transpose = 1 := by
  ext i j
  have hn : 0 < n := i.pos
  have hn' : (0 : ℝ) < n := by exact_mod_cast hn
  rw [Matrix.mul_apply]
  simp only [Matrix.transpose_apply, dctMatrix]
  have e : ∀ k : Fin n, (if i.val = 0 then Real.sqrt (1 / n) else Real.sqrt (2 / n)) * Real.cos (Real.pi * i.val * (2 * k.val + 1) / (2 * n)) *
      ((if j.val = 0 then Real.sqrt (1 / n) else Real.sqrt (2 / n)) * Real.cos (Real.pi * j.val * (2 * k.val + 1) / (2 * n))) =
      (if i.val = 0 then Real.sqrt (1 / n) else Real.sqrt (2 / n)) * (if j.val = 0 then Real.sqrt (1 / n) else Real.sqrt (2 / n)) / 2 *
      (Real.cos ((2 * (k.val : ℝ) + 1) * (Real.pi * ((i.val - j.val : Int) : ℝ) / (2 * n))) +
        Real.cos ((2 * (k.val : ℝ) + 1) * (Real.pi * ((i.val + j.val : Int) : ℝ) / (2 * n)))) := by
    intro k
    have h1 : (2 * (k.val : ℝ) + 1) * (Real.pi * ((i.val - j.val : Int) : ℝ) / (2 * n)) =
      Real.pi * i.val * (2 * k.val + 1) / (2 * n) - Real.pi * j.val * (2 * k.val + 1) / (2 * n) := by push_cast; ring
    have h2 : (2 * (k.val : ℝ) + 1) * (Real.pi * ((i.val + j.val : Int) : ℝ) / (2 * n)) =
      Real.pi * i.val * (2 * k.val + 1) / (2 * n) + Real.pi * j.val * (2 * k.val + 1) / (2 * n) := by push_cast; ring
    rw [h1, h2, Real.cos_sub, Real.cos_add]
    ring
  rw [Finset.sum_congr rfl fun k _ => e k, ← Finset.mul_sum, Finset.sum_add_distrib,
    ← Finset.sum_range (fun k => Real.cos ((2 * (k : ℝ) + 1) * (Real.pi * ((i.val - j.val : Int) : ℝ) / (2 * n)))),
    ← Finset.sum_range (fun k => Real.cos ((2 * (k : ℝ) + 1) * (Real.pi * ((i.val + j.val : Int) : ℝ) / (2 * n))))]
  by_cases hij : i = j
  · subst hij
    rw [Matrix.one_apply_eq]
    have h1 : ∑ k ∈ Finset.range n, Real.cos ((2 * (k : ℝ) + 1) * (Real.pi * ((i.val - i.val : Int) : ℝ) / (2 * n))) = n := by simp
    rw [h1]
    by_cases hi : i.val = 0
    · rw [if_pos hi, hi]
      simp
      field_simp
      rw [Real.sq_sqrt hn'.le]
      ring
    · rw [if_neg hi, sum_cos_zero (by omega) (by rw [abs_of_nonneg (by omega)]; have := i.2; omega), add_zero,
        Real.mul_self_sqrt (by positivity)]
      field_simp
  · rw [Matrix.one_apply_ne hij]
    have hv : i.val ≠ j.val := fun c => hij (Fin.ext c)
    rw [sum_cos_zero (by omega) (by rw [abs_lt]; have := i.2; have := j.2; omega),
      sum_cos_zero (by omega) (by rw [abs_of_nonneg (by omega)]; have := i.2; have := j.2; omega)]
    simp

theorem dctMatrix_orthogonal' : (dctMatrix n).transpose * dctMatrix n = 1 := mul_eq_one_comm.mp dctMatrix_orthogonal

open Transforms

theorem dctSum_run {h : Heap ℝ} {a : Nat} {A : Matrix (Fin m) (Fin n) ℝ} (hA : IsMat h a A) (M' : ℝ) (i j : Nat) :
    dctSum a ⟨n, m, 1⟩ M' i j h = .ok (∑ k : Fin m, ∑ f : Fin n,
      A k f * Real.cos ((Real.pi * i * (2 * k.val + 1)) / (2 * M')) * Real.cos ((Real.pi * j * (2 * f.val + 1)) / (2 * M')), h) := by
  let g : Nat → Nat → ℝ := fun k f => ext A k f * Real.cos ((Real.pi * i * (2 * k + 1)) / (2 * M')) * Real.cos ((Real.pi * j * (2 * f + 1)) / (2 * M'))
  have inner : ∀ (k : Nat) (s : ℝ), (foldN n s fun f sum => do
      let a ← Mat.element_get a (k : Int) (f : Int)
      pure (sum + a * Real.cos ((Real.pi * i * (2 * k + 1)) / (2 * M')) * Real.cos ((Real.pi * j * (2 * f + 1)) / (2 * M')))) h =
      .ok (s + ∑ f ∈ Finset.range n, g k f, h) := by
    intro k s
    have : Runs (foldN n s fun f sum => do
      let a ← Mat.element_get a (k : Int) (f : Int)
      pure (sum + a * Real.cos ((Real.pi * i * (2 * k + 1)) / (2 * M')) * Real.cos ((Real.pi * j * (2 * f + 1)) / (2 * M')))) h
        fun r h' => h' = h ∧ r = s + ∑ f ∈ Finset.range n, g k f := by
      refine Runs.foldN n (fun t r h' => h' = h ∧ r = s + ∑ f ∈ Finset.range t, g k f) _ s h ⟨rfl, by simp⟩ ?_
      rintro f r h1 hf ⟨rfl, rfl⟩
      refine Runs.step (Mat.element_get_ext hA _ _) (Runs.of_eq rfl ⟨rfl, ?_⟩)
      rw [Finset.sum_range_succ, add_assoc]
    obtain ⟨r, h', e, rfl, rfl⟩ := runs_iff.mp this
    exact e
  have outer : Runs (dctSum a ⟨n, m, 1⟩ M' i j) h fun r h' => h' = h ∧ r = ∑ k ∈ Finset.range m, ∑ f ∈ Finset.range n, g k f := by
    unfold dctSum
    refine Runs.foldN m (fun t r h' => h' = h ∧ r = ∑ k ∈ Finset.range t, ∑ f ∈ Finset.range n, g k f) _ 0 h ⟨rfl, by simp⟩ ?_
    rintro k r h1 hk ⟨rfl, rfl⟩
    refine Runs.of_eq (inner k _) ⟨rfl, ?_⟩
    rw [Finset.sum_range_succ]
  obtain ⟨r, h', e, rfl, rfl⟩ := runs_iff.mp outer
  rw [e, Finset.sum_range]
  congr 2
  refine Finset.sum_congr rfl fun k _ => ?_
  rw [Finset.sum_range]
  exact Finset.sum_congr rfl fun f _ => by simp only [g]; rw [ext_in]

/-- What `discrete_cosine_transform` computes, for any shape. -/
theorem dct_run {h : Heap ℝ} (w : h.WF) {a : Nat} {A : Matrix (Fin m) (Fin n) ℝ} (hA : IsMat h a A) (la : h.live (.m a)) :
    ReturnsMat (discrete_cosine_transform (some (.m a))) h (Matrix.of fun (i : Fin m) (j : Fin n) =>
      (∑ k : Fin m, ∑ f : Fin n, (A k f + -128) * Real.cos ((Real.pi * i.val * (2 * k.val + 1)) / (2 * m)) *
        Real.cos ((Real.pi * j.val * (2 * f.val + 1)) / (2 * m))) *
        (if i.val = 0 then 1 / Real.sqrt m else Real.sqrt (2 / m)) * (if j.val = 0 then 1 / Real.sqrt m else Real.sqrt (2 / m))) := by
  apply ReturnsMat.of_has
  unfold discrete_cosine_transform
  refine Runs.step (derefM_run a h) ?_
  refine stepM (show ReturnsMat (Mat.scalar_addn a (-128)) h (A.map (· + -128)) from Mat.dup_unIn_spec w hA la _) fun r h1 w1 k1 f1 a1 => ?_
  obtain ⟨o, rfl, lo, ho⟩ := a1
  refine Runs.step (derefM_run o h1) (Runs.step (size_mat ho) ?_)
  dsimp only
  have key := (fillNew w1 (g := fun (i : Fin m) (j : Fin n) => (∑ k : Fin m, ∑ f : Fin n, (A k f + -128) * Real.cos ((Real.pi * i.val * (2 * k.val + 1)) / (2 * m)) *
        Real.cos ((Real.pi * j.val * (2 * f.val + 1)) / (2 * m))) *
        (if i.val = 0 then 1 / Real.sqrt m else Real.sqrt (2 / m)) * (if j.val = 0 then 1 / Real.sqrt m else Real.sqrt (2 / m)))
    (fun i j => do
      let sum ← dctSum o ⟨n, m, 1⟩ m i j
      pure (sum * (if i = 0 then 1 / Real.sqrt m else Real.sqrt (2 / m)) * (if j = 0 then 1 / Real.sqrt m else Real.sqrt (2 / m))))
    fun i j h' w' k' => Runs.step (dctSum_run (ho.keep k' lo nofun) m i j) (Runs.of_eq rfl ⟨rfl, w', Keeps.refl _ _⟩))
  simp only [bind_assoc, pure_bind] at key
  exact key.has.mono fun r h2 ⟨w2, k2, f2, a2⟩ => ⟨w2, k1.trans k2, f2.mono k1, a2⟩

theorem dct_square {h : Heap ℝ} (w : h.WF) {a : Nat} {A : Matrix (Fin n) (Fin n) ℝ} (hA : IsMat h a A) (la : h.live (.m a)) :
    ReturnsMat (discrete_cosine_transform (some (.m a))) h (dct2 A) := by
  refine cast (congrArg _ ?_) (dct_run w hA la)
  ext i j
  simp only [Matrix.of_apply, dct2, Matrix.mul_apply, Matrix.transpose_apply, dctMatrix, Matrix.map_apply]
  rw [Finset.sum_mul, Finset.sum_mul]
  have e1 : 1 / Real.sqrt (n : ℝ) = Real.sqrt (1 / n) := by rw [Real.sqrt_div zero_le_one, Real.sqrt_one]
  rw [e1]
  simp only [Finset.sum_mul]
  rw [Finset.sum_comm]
  refine Finset.sum_congr rfl fun f _ => Finset.sum_congr rfl fun k _ => ?_
  ring

end Verif
