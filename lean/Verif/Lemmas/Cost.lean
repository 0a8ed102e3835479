import Verif.Lemmas.Softmax
import Verif.Lemmas.LiftSpec
import Verif.Lemmas.Reduce
import Verif.Lemmas.GramSchmidt
import Verif.Model.Cost
import Verif.Spec.Cost
import Mathlib.Analysis.Calculus.Deriv.Add
import Mathlib.Analysis.Calculus.Deriv.Mul
import Mathlib.Algebra.BigOperators.Fin

/-! # Losses -/

namespace Verif
open Spec SortArray Finset
variable {m n : Nat}

theorem vec_count {h : Heap ℝ} {a : Nat} {v : Fin n → ℝ} (hv : IsVec h a v) : (h.size (.v a)).count = n := by
  rw [hv.1, count_vec]
theorem mat_count {h : Heap ℝ} {a : Nat} {A : Matrix (Fin m) (Fin n) ℝ} (hA : IsMat h a A) : (h.size (.m a)).count = n * m := by
  rw [hA.1, count_mat]

theorem sum_tab (k : Nat) (F : Nat → ℝ) : (tab k F).sum = ∑ i ∈ range k, F i := by
  unfold tab
  induction k with
  | zero => rfl
  | succ k ih => rw [List.range_succ, List.map_append, List.sum_append, ih, sum_range_succ]; simp

/-- A sum over the cells in storage order. -/
theorem sum_flat (G : Nat → Nat → ℝ) : ∑ k ∈ range (n * m), flat n G k = ∑ c : Fin m × Fin n, G c.1 c.2 := by
  rw [Fintype.sum_prod_type, ← Finset.sum_range (fun i => ∑ j : Fin n, G i j)]
  induction m with
  | zero => simp
  | succ m ih =>
    rw [Nat.mul_succ, Finset.sum_range_add, ih, sum_range_succ, Finset.sum_range (fun k => flat n G (n * m + k))]
    congr 1
    refine sum_congr rfl fun j _ => ?_
    have hj := j.2
    unfold flat
    rw [Nat.mul_add_div (by omega), Nat.mul_add_mod, Nat.div_eq_of_lt hj, Nat.mod_eq_of_lt hj, Nat.add_zero]

theorem map_tab (k : Nat) (F : Nat → ℝ) (f : ℝ → ℝ) : (tab k F).map f = tab k fun i => f (F i) := by
  unfold tab; rw [List.map_map]; rfl

theorem zipWith_tab (k : Nat) (F G : Nat → ℝ) (f : ℝ → ℝ → ℝ) : List.zipWith f (tab k F) (tab k G) = tab k fun i => f (F i) (G i) := by
  unfold tab; rw [List.zipWith_map, List.zipWith_self]

theorem vec_sum {h : Heap ℝ} (w : h.WF) {a : Nat} {p : Fin n → ℝ} (ha : IsVec h a p) (f : ℝ → ℝ) :
    ((h.buf (.v a)).map f).sum = ∑ i, f (p i) := by
  obtain ⟨F, eF, cF⟩ := ha.cells w
  rw [cF.2, map_tab, sum_tab, Finset.sum_range]
  exact sum_congr rfl fun i _ => by rw [eF]

theorem vec_sum2 {h : Heap ℝ} (w : h.WF) {a b : Nat} {p y : Fin n → ℝ} (ha : IsVec h a p) (hb : IsVec h b y) (f : ℝ → ℝ → ℝ) :
    (List.zipWith f (h.buf (.v a)) (h.buf (.v b))).sum = ∑ i, f (p i) (y i) := by
  obtain ⟨F, eF, cF⟩ := ha.cells w
  obtain ⟨G, eG, cG⟩ := hb.cells w
  rw [cF.2, cG.2, zipWith_tab, sum_tab, Finset.sum_range]
  exact sum_congr rfl fun i _ => by rw [eF, eG]

theorem mat_sum {h : Heap ℝ} (w : h.WF) {a : Nat} {A : Matrix (Fin m) (Fin n) ℝ} (ha : IsMat h a A) (f : ℝ → ℝ) :
    ((h.buf (.m a)).map f).sum = ∑ c, f (cells A c) := by
  obtain ⟨F, eF, cF⟩ := ha.cells w
  rw [cF.2, map_tab, sum_tab]
  refine (sum_flat fun i j => f (F i j)).trans ?_
  exact sum_congr rfl fun i _ => by rw [cells, eF]

theorem mat_sum2 {h : Heap ℝ} (w : h.WF) {a b : Nat} {A B : Matrix (Fin m) (Fin n) ℝ} (ha : IsMat h a A) (hb : IsMat h b B)
    (f : ℝ → ℝ → ℝ) :
    (List.zipWith f (h.buf (.m a)) (h.buf (.m b))).sum = ∑ c, f (cells A c) (cells B c) := by
  obtain ⟨F, eF, cF⟩ := ha.cells w
  obtain ⟨G, eG, cG⟩ := hb.cells w
  rw [cF.2, cG.2, zipWith_tab, sum_tab]
  refine (sum_flat fun i j => f (F i j) (G i j)).trans ?_
  exact sum_congr rfl fun i _ => by rw [cells, cells, eF, eG]

namespace Cost
variable {f : ℝ → ℝ → ℝ} {g : ℝ → Size → ℝ}

theorem lossOf_run {h : Heap ℝ} (w : h.WF) {a b : Loc} (hs : (h.size a).count = (h.size b).count) :
    lossOf f g (some a) (some b) h = .ok (g (List.zipWith f (h.buf a) (h.buf b)).sum (h.size a), h) := by
  unfold lossOf
  rw [bind_ok (show deref (some a) h = .ok (a, h) from rfl), bind_ok (getSize_run _ _),
    bind_ok (show deref (some b) h = .ok (b, h) from rfl), bind_ok (getSize_run _ _), if_pos hs]
  rw [bind_ok (foldN_load2 a b _ 0 (fun c x y => c + f x y) h (w.len _) (by rw [w.len, hs]))]
  rw [show List.zipWith f (h.buf a) (h.buf b) = ((h.buf a).zip (h.buf b)).map (fun p => f p.1 p.2) from by
    rw [List.map_zip_eq_zipWith]; rfl]
  have : ∀ (l : List (ℝ × ℝ)) (c : ℝ), l.foldl (fun c p => c + f p.1 p.2) c = c + (l.map fun p => f p.1 p.2).sum := by
    intro l
    induction l with
    | nil => simp
    | cons x l ih => intro c; rw [List.foldl_cons, ih, List.map_cons, List.sum_cons, add_assoc]
  rw [this, zero_add]
  rfl

theorem lossOf_vec {h : Heap ℝ} (w : h.WF) {a b : Nat} {p y : Fin n → ℝ} (ha : IsVec h a p) (hb : IsVec h b y) :
    lossOf f g (Ref.asV (some (.v a))) (Ref.asV (some (.v b))) h = .ok (g (∑ i, f (p i) (y i)) ⟨n, 1, 1⟩, h) := by
  rw [← vec_sum2 w ha hb, ← ha.1]
  exact lossOf_run w (by rw [vec_count ha, vec_count hb])

theorem lossOf_mat {h : Heap ℝ} (w : h.WF) {a b : Nat} {A B : Matrix (Fin m) (Fin n) ℝ} (ha : IsMat h a A) (hb : IsMat h b B) :
    lossOf f g (Ref.asM (some (.m a))) (Ref.asM (some (.m b))) h = .ok (g (∑ c, f (cells A c) (cells B c)) ⟨n, m, 1⟩, h) := by
  rw [← mat_sum2 w ha hb, ← ha.1]
  exact lossOf_run w (by rw [mat_count ha, mat_count hb])

theorem lossOf_mismatch {h : Heap ℝ} {a b : Loc} (hs : (h.size a).count ≠ (h.size b).count) :
    lossOf f g (some a) (some b) h = .ok (0, h) := by
  unfold lossOf
  rw [bind_ok (show deref (some a) h = .ok (a, h) from rfl), bind_ok (getSize_run _ _),
    bind_ok (show deref (some b) h = .ok (b, h) from rfl), bind_ok (getSize_run _ _), if_neg hs]
  rfl

theorem lossOf_null {h : Heap ℝ} {a b : Option Loc} (hn : a = none ∨ b = none) : lossOf f g a b h = .ub := by
  rcases hn with rfl | rfl
  · rfl
  · cases a <;> rfl

/-! ## Derivatives computed by a loop -/

theorem derivV_lifts (f : ℝ → ℝ → ℝ) : Lifts2 Loc.v f fun a b => derivOf newVec f a.asV b.asV := by
  intro h w a b la lb hs
  have := binN_lifts kindV f h w a b la lb hs
  refine Runs.congr ?_ this
  show derivOf newVec f (some (.v a)) (some (.v b)) h = binN f (.v a) (some (.v b)) h
  unfold derivOf binN
  dsimp only
  rw [bind_ok (show deref (some (Loc.v a)) h = .ok (.v a, h) from rfl), bind_ok (getSize_run _ _),
    bind_ok (show deref (some (Loc.v b)) h = .ok (.v b, h) from rfl), bind_ok (getSize_run _ _), if_pos (by rw [hs]),
    bind_ok (getSize_run _ _), bind_ok (getSize_run _ _), if_pos hs]
  rfl

theorem derivM_lifts (f : ℝ → ℝ → ℝ) : Lifts2 Loc.m f fun a b => derivOf newMat f a.asM b.asM := by
  intro h w a b la lb hs
  have := binN_lifts kindM f h w a b la lb hs
  refine Runs.congr ?_ this
  show derivOf newMat f (some (.m a)) (some (.m b)) h = binN f (.m a) (some (.m b)) h
  unfold derivOf binN
  dsimp only
  rw [bind_ok (show deref (some (Loc.m a)) h = .ok (.m a, h) from rfl), bind_ok (getSize_run _ _),
    bind_ok (show deref (some (Loc.m b)) h = .ok (.m b, h) from rfl), bind_ok (getSize_run _ _), if_pos (by rw [hs]),
    bind_ok (getSize_run _ _), bind_ok (getSize_run _ _), if_pos hs]
  rfl

theorem derivOf_mismatch {mk : M ℝ Loc} {h : Heap ℝ} {a b : Loc} (hs : (h.size a).count ≠ (h.size b).count) :
    derivOf mk f (some a) (some b) h = .ok (none, h) := by
  unfold derivOf
  rw [bind_ok (show deref (some a) h = .ok (a, h) from rfl), bind_ok (getSize_run _ _),
    bind_ok (show deref (some b) h = .ok (b, h) from rfl), bind_ok (getSize_run _ _), if_neg hs]
  rfl

/-! ## Derivatives composed of element-wise calls -/

open LinAlg in
theorem log_loss_derivv_lifts : Lifts2 Loc.v (fun p y : ℝ => y / p * -1 + (y + -1) * -1 / ((p + -1) * -1)) log_loss_derivv :=
  Ev.lifts2 fun _ w _ _ l1 l2 hs => Ev.app2 (binV_lifts (· + ·))
    (Ev.app1 (unV_lifts (· * (-1))) (Ev.app2 (binV_lifts (· / ·)) (Ev.snd w l2 hs) (Ev.fst w l1 hs)))
    (Ev.app2 (binV_lifts (· / ·)) (Ev.app1 (unV_lifts (· * (-1))) (Ev.app1 (unV_lifts (· + (-1))) (Ev.snd w l2 hs)))
      (Ev.app1 (unV_lifts (· * (-1))) (Ev.app1 (unV_lifts (· + (-1))) (Ev.fst w l1 hs))))

open LinAlg in
theorem log_loss_derivm_lifts : Lifts2 Loc.m (fun p y : ℝ => y / p * -1 + (y + -1) * -1 / ((p + -1) * -1)) log_loss_derivm :=
  Ev.lifts2 fun _ w _ _ l1 l2 hs => Ev.app2 (binM_lifts (· + ·))
    (Ev.app1 (dupM_lifts (· * (-1))) (Ev.app2 (gridM_lifts (· / ·)) (Ev.snd w l2 hs) (Ev.fst w l1 hs)))
    (Ev.app2 (gridM_lifts (· / ·)) (Ev.app1 (dupM_lifts (· * (-1))) (Ev.app1 (dupM_lifts (· + (-1))) (Ev.snd w l2 hs)))
      (Ev.app1 (dupM_lifts (· * (-1))) (Ev.app1 (dupM_lifts (· + (-1))) (Ev.fst w l1 hs))))

open LinAlg in
theorem cross_entropy_derivv_lifts : Lifts2 Loc.v (fun p y : ℝ => y / p * -1) cross_entropy_derivv :=
  Ev.lifts2 fun _ w _ _ l1 l2 hs =>
    Ev.app1 (unV_lifts (· * (-1))) (Ev.app2 (binV_lifts (· / ·)) (Ev.snd w l2 hs) (Ev.fst w l1 hs))

open LinAlg in
theorem cross_entropy_derivm_lifts : Lifts2 Loc.m (fun p y : ℝ => y / p * -1) cross_entropy_derivm :=
  Ev.lifts2 fun _ w _ _ l1 l2 hs =>
    Ev.app1 (dupM_lifts (· * (-1))) (Ev.app2 (gridM_lifts (· / ·)) (Ev.snd w l2 hs) (Ev.fst w l1 hs))

theorem Ev.call2 {mk : Nat → Loc} {f : ℝ → ℝ → ℝ} {op : Ref → Ref → M ℝ Ref} (ho : Lifts2 mk f op) {h0 : Heap ℝ} {a b : Nat}
    (la : h0.live (mk a)) (lb : h0.live (mk b)) (hs : h0.size (mk a) = h0.size (mk b)) :
    Ev mk True h0 (h0.size (mk a)) ((h0.buf (mk a)).zip (h0.buf (mk b))) (op (some (mk a)) (some (mk b))) fun p => f p.1 p.2 := by
  intro h w k
  have p1 := k.2 _ la (by simp)
  have p2 := k.2 _ lb (by simp)
  refine (ho h w a b (k.live la) (k.live lb) (by rw [p1.2, p2.2, hs])).mono ?_
  rintro r h2 ⟨o2, rfl, n2, l2, w2, k2, q2⟩
  refine ⟨o2, rfl, fun _ => n2, l2, w2, k2, by rw [q2.1, p1.2], ?_⟩
  rw [q2.2, p1.1, p2.1, List.map_zip_eq_zipWith]; rfl

open LinAlg in
theorem hinge_loss_derivwv_lifts (C : ℝ) : Lifts2 Loc.v (fun p y : ℝ => hingeDeriv p y * C) (fun a b => hinge_loss_derivwv a b C) :=
  Ev.lifts2 fun _ _ _ _ l1 l2 hs => Ev.app1 (unV_lifts (· * C)) (Ev.call2 (op := hinge_loss_derivv) (derivV_lifts hingeDeriv) l1 l2 hs)

open LinAlg in
theorem hinge_loss_derivwm_lifts (C : ℝ) : Lifts2 Loc.m (fun p y : ℝ => hingeDeriv p y * C) (fun a b => hinge_loss_derivwm a b C) :=
  Ev.lifts2 fun _ _ _ _ l1 l2 hs => Ev.app1 (dupM_lifts (· * C)) (Ev.call2 (op := hinge_loss_derivm) (derivM_lifts hingeDeriv) l1 l2 hs)

open LinAlg in
/-- The inner call of `rmse_derivv` after the factor is known. -/
theorem scaled_diffv_lifts (k : ℝ) : Lifts2 Loc.v (fun p y : ℝ => (p - y) * k)
    (fun a b => Verif.app1 (scalar_multiplynv k) (mse_derivv a b)) :=
  Ev.lifts2 fun _ _ _ _ l1 l2 hs => Ev.app1 (unV_lifts (· * k)) (Ev.call2 (op := mse_derivv) subV_lifts l1 l2 hs)

open LinAlg in
theorem scaled_diffm_lifts (k : ℝ) : Lifts2 Loc.m (fun p y : ℝ => (p - y) * k)
    (fun a b => Verif.app1 (scalar_multiplynm k) (mse_derivm a b)) :=
  Ev.lifts2 fun _ _ _ _ l1 l2 hs => Ev.app1 (dupM_lifts (· * k)) (Ev.call2 (op := mse_derivm) (binM_lifts (· - ·)) l1 l2 hs)

/-! ## Gradients -/

section
variable {ι : Type} [Fintype ι] [DecidableEq ι]

/-- The gradient of a sum of functions of one coordinate each. -/
theorem gradient_sum {F : ι → ℝ → ℝ} {x g : ι → ℝ} (hd : ∀ i, HasDerivAt (F i) (g i) (x i)) :
    Gradient (fun u => ∑ i, F i (u i)) x g := by
  intro i
  have : ∀ j ∈ (Finset.univ : Finset ι), HasDerivAt (fun t => F j (Function.update x i t j)) (if j = i then g i else 0) (x i) := by
    intro j _
    by_cases e : j = i
    · subst e; simpa using hd j
    · simpa [e] using hasDerivAt_const (x i) (F j (x j))
  refine HasDerivAt.congr_deriv (HasDerivAt.fun_sum this) ?_
  simp

omit [Fintype ι] in
theorem gradient_scale {L : (ι → ℝ) → ℝ} {x g : ι → ℝ} (k : ℝ) (hd : Gradient L x g) :
    Gradient (fun u => k * L u) x (fun i => k * g i) := fun i => (hd i).const_mul k

omit [Fintype ι] in
theorem gradient_congr {L L' : (ι → ℝ) → ℝ} {x g g' : ι → ℝ} (hd : Gradient L x g) (e : ∀ u, L' u = L u) (eg : ∀ i, g' i = g i) :
    Gradient L' x g' := by
  rw [show L' = L from funext e, show g' = g from funext eg]; exact hd

end

end Cost
end Verif
