import Verif.Lemmas.Cost
import Verif.Model.Reg

/-! # Regularisation -/

namespace Verif.Reg
open Spec SortArray Finset
variable {m n : Nat}

/-- The penalty of a kind of regularisation. -/
noncomputable def penalty {ι : Type} [Fintype ι] (l a : ℝ) : Kind → (ι → ℝ) → ℝ
  | .ridge, w => ridgePenalty l w
  | .lasso, w => lassoPenalty l w
  | .elastic_net, w => elasticPenalty l a w
  | .none, _ => 0
  | .weight_clipping, _ => 0

theorem foldN_sum {h : Heap ℝ} (l : Loc) (k : Nat) (hk : (h.buf l).length = k) (f : ℝ → ℝ) :
    foldN k 0 (fun i c => do let x ← load l i; pure (c + f x)) h = .ok (((h.buf l).map f).sum, h) := by
  rw [foldN_load l k 0 (fun c x => c + f x) h hk]
  have : ∀ (d : List ℝ) (c : ℝ), d.foldl (fun c x => c + f x) c = c + (d.map f).sum := by
    intro d
    induction d with
    | nil => simp
    | cons x d ih => intro c; rw [List.foldl_cons, ih, List.map_cons, List.sum_cons, add_assoc]
  rw [this, zero_add]

theorem termLoop_run {ι : Type} [Fintype ι] {h : Heap ℝ} {l : Loc} {k : Nat} (hk : (h.buf l).length = k) {v : ι → ℝ}
    (hv : ∀ f : ℝ → ℝ, ((h.buf l).map f).sum = ∑ i, f (v i)) (la al : ℝ) (r : Kind) :
    termLoop l k la al r h = .ok (penalty la al r v, h) := by
  cases r with
  | none => rfl
  | weight_clipping => rfl
  | ridge =>
    unfold termLoop; dsimp only
    rw [bind_ok (foldN_sum l k hk fun x => x * x), hv]
    show Out.ok (_, h) = _
    simp only [penalty, ridgePenalty, pow_two]
    congr 2; ring
  | lasso =>
    unfold termLoop; dsimp only
    rw [bind_ok (foldN_sum l k hk fun x => absC x), hv]
    show Out.ok (_, h) = _
    simp only [penalty, lassoPenalty, absC_eq]
    congr 2; ring
  | elastic_net =>
    unfold termLoop; dsimp only
    have := foldN_sum l k hk fun x => al * absC x + (1 - al) / 2 * x * x
    simp only [← add_assoc] at this
    rw [bind_ok this, hv]
    show Out.ok (_, h) = _
    simp only [penalty, elasticPenalty, absC_eq, pow_two, ← mul_assoc]
    congr 2; ring

theorem reg_termv_run {h : Heap ℝ} (w : h.WF) {a : Nat} {v : Fin n → ℝ} (ha : IsVec h a v) (la al : ℝ) (r : Kind) :
    reg_termv (some (.v a)) la al r h = .ok (penalty la al r v, h) := by
  unfold reg_termv
  rw [bind_ok (show deref (Ref.asV (some (Loc.v a))) h = .ok (.v a, h) from rfl), bind_ok (getSize_run _ _)]
  exact termLoop_run (w.len _) (vec_sum w ha) la al r

theorem reg_termm_run {h : Heap ℝ} (w : h.WF) {a : Nat} {A : Matrix (Fin m) (Fin n) ℝ} (ha : IsMat h a A) (la al : ℝ) (r : Kind) :
    reg_termm (some (.m a)) la al r h = .ok (penalty la al r (cells A), h) := by
  unfold reg_termm
  rw [bind_ok (show deref (Ref.asM (some (Loc.m a))) h = .ok (.m a, h) from rfl), bind_ok (getSize_run _ _)]
  exact termLoop_run (w.len _) (mat_sum w ha) la al r

end Verif.Reg
