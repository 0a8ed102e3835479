import Verif.Model.Stat
import Verif.Spec.Stat
import Verif.Lemmas.Reduce
import Verif.Real
import Verif.Props.VectorReduce

/-! # What the `MLPPStat` functions return -/

namespace Verif
open Spec

namespace Stat
variable {h : Heap ℝ}

theorem foldl_sum (l : List ℝ) : l.foldl (fun s x => s + x) 0 = l.sum := by
  have := foldl_add_eq l (fun x => x) 0
  simpa using this

theorem foldl_sumf (l : List ℝ) (f : ℝ → ℝ) : l.foldl (fun s x => s + f x) 0 = (l.map f).sum := by
  rw [foldl_add_eq l f 0, zero_add]

theorem meanv_run (w : h.WF) (x : Nat) : meanv (some x) h = .ok (mean (h.buf (.v x)), h) := by
  unfold meanv
  dsimp only
  rw [bind_ok (Vec.size_run w x), bind_ok (foldN_load (.v x) (h.vec x).length 0 (fun s x => s + x) h rfl), foldl_sum]
  simp [mean, pure, M.pure, Heap.vec]

theorem variancev_run (w : h.WF) (x : Nat) : variancev (some x) h = .ok (sampleVar (h.buf (.v x)), h) := by
  unfold variancev
  dsimp only
  rw [bind_ok (meanv_run w x), bind_ok (Vec.size_run w x),
    bind_ok (foldN_load (.v x) (h.vec x).length 0 (fun s y => s + (y - mean (h.buf (.v x))) * (y - mean (h.buf (.v x)))) h rfl)]
  rw [foldl_sumf _ fun y => (y - mean (h.buf (.v x))) * (y - mean (h.buf (.v x)))]
  simp [sampleVar, pure, M.pure, Heap.vec, sq]

theorem standard_deviationv_run (w : h.WF) (x : Nat) :
    standard_deviationv (some x) h = .ok (Real.sqrt (sampleVar (h.buf (.v x))), h) := by
  unfold standard_deviationv
  dsimp only
  rw [bind_ok (variancev_run w x)]; rfl

theorem covariancev_run (w : h.WF) (x y : Nat) (hs : (h.buf (.v x)).length = (h.buf (.v y)).length) :
    covariancev (some x) (some y) h = .ok (sampleCov (h.buf (.v x)) (h.buf (.v y)), h) := by
  unfold covariancev
  dsimp only
  rw [bind_ok (Vec.size_run w x), bind_ok (Vec.size_run w y), if_pos (show (h.vec x).length = (h.vec y).length from hs),
    bind_ok (meanv_run w x), bind_ok (meanv_run w y),
    bind_ok (foldN_load2 (.v x) (.v y) (h.vec x).length 0
      (fun s a b => s + (a - mean (h.buf (.v x))) * (b - mean (h.buf (.v y)))) h rfl hs.symm),
    foldl_zip_add _ _ fun a b => (a - mean (h.buf (.v x))) * (b - mean (h.buf (.v y)))]
  simp [sampleCov, pure, M.pure, Heap.vec]

theorem b1_run (w : h.WF) (x y : Nat) (hs : (h.buf (.v x)).length = (h.buf (.v y)).length) :
    b1_estimation (some x) (some y) h =
      .ok (sampleCov (h.buf (.v x)) (h.buf (.v y)) / sampleVar (h.buf (.v x)), h) := by
  unfold b1_estimation
  dsimp only
  rw [bind_ok (covariancev_run w x y hs), bind_ok (variancev_run w x)]; rfl

theorem b0_run (w : h.WF) (x y : Nat) (hs : (h.buf (.v x)).length = (h.buf (.v y)).length) :
    b0_estimation (some x) (some y) h =
      .ok (mean (h.buf (.v y)) - sampleCov (h.buf (.v x)) (h.buf (.v y)) / sampleVar (h.buf (.v x)) * mean (h.buf (.v x)), h) := by
  unfold b0_estimation
  dsimp only
  rw [bind_ok (meanv_run w y), bind_ok (b1_run w x y hs), bind_ok (meanv_run w x)]; rfl

theorem correlation_run (w : h.WF) (x y : Nat) (hs : (h.buf (.v x)).length = (h.buf (.v y)).length) :
    correlation (some x) (some y) h = .ok (sampleCov (h.buf (.v x)) (h.buf (.v y)) /
      (Real.sqrt (sampleVar (h.buf (.v x))) * Real.sqrt (sampleVar (h.buf (.v y)))), h) := by
  unfold correlation
  dsimp only
  rw [bind_ok (covariancev_run w x y hs), bind_ok (standard_deviationv_run w x), bind_ok (standard_deviationv_run w y)]; rfl

theorem r2_run (w : h.WF) (x y : Nat) (hs : (h.buf (.v x)).length = (h.buf (.v y)).length) :
    r2 (some x) (some y) h = .ok (sampleCov (h.buf (.v x)) (h.buf (.v y)) /
      (Real.sqrt (sampleVar (h.buf (.v x))) * Real.sqrt (sampleVar (h.buf (.v y)))) *
      (sampleCov (h.buf (.v x)) (h.buf (.v y)) /
      (Real.sqrt (sampleVar (h.buf (.v x))) * Real.sqrt (sampleVar (h.buf (.v y))))), h) := by
  unfold r2
  dsimp only
  rw [bind_ok (correlation_run w x y hs), bind_ok (correlation_run w x y hs)]; rfl

theorem foldl_pair {α : Type} (l : List α) (f g : α → ℝ) (a b : ℝ) :
    l.foldl (fun s x => (s.1 + f x, s.2 + g x)) (a, b) = (a + (l.map f).sum, b + (l.map g).sum) := by
  induction l generalizing a b with
  | nil => simp
  | cons x l ih => simp only [List.foldl_cons, ih, List.map_cons, List.sum_cons, add_assoc]

theorem weighted_mean_run (w : h.WF) (x y : Nat) (hs : (h.buf (.v x)).length = (h.buf (.v y)).length) :
    weighted_mean (some x) (some y) h =
      .ok ((List.zipWith (fun a b => a * b) (h.buf (.v x)) (h.buf (.v y))).sum / (h.buf (.v y)).sum, h) := by
  unfold weighted_mean
  dsimp only
  rw [bind_ok (Vec.size_run w x), bind_ok (Vec.size_run w y), if_pos (show (h.vec x).length = (h.vec y).length from hs),
    bind_ok (foldN_load2 (.v x) (.v y) (h.vec x).length ((0 : ℝ), (0 : ℝ)) (fun s a b => (s.1 + a * b, s.2 + b)) h rfl hs.symm),
    foldl_pair ((h.buf (.v x)).zip (h.buf (.v y))) (fun p => p.1 * p.2) (fun p => p.2)]
  simp only [zero_add]
  rw [List.map_snd_zip (by omega), List.zip_eq_zipWith, List.map_zipWith]; rfl

theorem geometric_mean_run (w : h.WF) (x : Nat) :
    geometric_mean (some x) h = .ok ((h.buf (.v x)).prod ^ (1 / ((h.buf (.v x)).length : ℝ)), h) := by
  unfold geometric_mean
  dsimp only
  rw [bind_ok (Vec.size_run w x), bind_ok (foldN_load (.v x) (h.vec x).length 1 (fun s x => s * x) h rfl)]
  have : (h.buf (.v x)).foldl (fun s x => s * x) 1 = (h.buf (.v x)).prod := by
    rw [List.prod_eq_foldl]
  rw [this]
  simp [pure, M.pure, Heap.vec, MathFns.pow]

theorem harmonic_mean_run (w : h.WF) (x : Nat) :
    harmonic_mean (some x) h = .ok ((h.buf (.v x)).length / ((h.buf (.v x)).map fun a => 1 / a).sum, h) := by
  unfold harmonic_mean
  dsimp only
  rw [bind_ok (Vec.size_run w x), bind_ok (foldN_load (.v x) (h.vec x).length 0 (fun s x => s + 1 / x) h rfl),
    foldl_sumf _ fun x => 1 / x]
  simp [pure, M.pure, Heap.vec]

theorem rms_run (w : h.WF) (x : Nat) :
    rms (some x) h = .ok (Real.sqrt (((h.buf (.v x)).map fun a => a * a).sum / (h.buf (.v x)).length), h) := by
  unfold rms
  dsimp only
  rw [bind_ok (Vec.size_run w x), bind_ok (foldN_load (.v x) (h.vec x).length 0 (fun s x => s + x * x) h rfl),
    foldl_sumf _ fun x => x * x]
  simp [pure, M.pure, Heap.vec, MathFns.sqrt]

theorem power_mean_run (w : h.WF) (x : Nat) (p : ℝ) :
    power_mean (some x) p h =
      .ok ((((h.buf (.v x)).map fun a => a ^ p).sum / (h.buf (.v x)).length) ^ (1 / p), h) := by
  unfold power_mean
  dsimp only
  rw [bind_ok (Vec.size_run w x), bind_ok (foldN_load (.v x) (h.vec x).length 0 (fun s x => s + MathFns.pow x p) h rfl),
    foldl_sumf _ fun x => MathFns.pow x p]
  simp [pure, M.pure, Heap.vec, MathFns.pow]

theorem lehmer_mean_run (w : h.WF) (x : Nat) (p : ℝ) :
    lehmer_mean (some x) p h =
      .ok (((h.buf (.v x)).map fun a => a ^ p).sum / ((h.buf (.v x)).map fun a => a ^ (p - 1)).sum, h) := by
  unfold lehmer_mean
  dsimp only
  rw [bind_ok (Vec.size_run w x), bind_ok (foldN_load (.v x) (h.vec x).length ((0 : ℝ), (0 : ℝ))
    (fun s x => (s.1 + MathFns.pow x p, s.2 + MathFns.pow x (p - 1))) h rfl),
    foldl_pair (h.buf (.v x)) (fun x => MathFns.pow x p) fun x => MathFns.pow x (p - 1)]
  simp [pure, M.pure, MathFns.pow]

theorem weighted_lehmer_mean_run (w : h.WF) (x y : Nat) (p : ℝ) (hs : (h.buf (.v x)).length = (h.buf (.v y)).length) :
    weighted_lehmer_mean (some x) (some y) p h =
      .ok ((List.zipWith (fun a b => b * a ^ p) (h.buf (.v x)) (h.buf (.v y))).sum /
        (List.zipWith (fun a b => b * a ^ (p - 1)) (h.buf (.v x)) (h.buf (.v y))).sum, h) := by
  unfold weighted_lehmer_mean
  dsimp only
  rw [bind_ok (Vec.size_run w x), bind_ok (Vec.size_run w y), if_pos (show (h.vec x).length = (h.vec y).length from hs),
    bind_ok (foldN_load2 (.v x) (.v y) (h.vec x).length ((0 : ℝ), (0 : ℝ))
      (fun s a b => (s.1 + b * MathFns.pow a p, s.2 + b * MathFns.pow a (p - 1))) h rfl hs.symm),
    foldl_pair ((h.buf (.v x)).zip (h.buf (.v y))) (fun q => q.2 * MathFns.pow q.1 p) (fun q => q.2 * MathFns.pow q.1 (p - 1))]
  simp only [zero_add]
  rw [List.zip_eq_zipWith, List.map_zipWith, List.map_zipWith]; rfl

theorem abs_avg_deviation_run (w : h.WF) (x : Nat) :
    abs_avg_deviation (some x) h =
      .ok (((h.buf (.v x)).map fun a => |a - mean (h.buf (.v x))|).sum / (h.buf (.v x)).length, h) := by
  unfold abs_avg_deviation
  dsimp only
  rw [bind_ok (meanv_run w x), bind_ok (Vec.size_run w x),
    bind_ok (foldN_load (.v x) (h.vec x).length 0 (fun s y => s + absC (y - mean (h.buf (.v x)))) h rfl),
    foldl_sumf _ fun y => absC (y - mean (h.buf (.v x)))]
  simp [pure, M.pure, Heap.vec, absC_eq]

end Stat
end Verif
