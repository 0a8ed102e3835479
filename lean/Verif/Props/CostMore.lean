import Verif.Props.CostDeriv
import Verif.Lemmas.RegDeriv
import Verif.Lemmas.Unique
import Verif.Lemmas.Svm

/-!
# C58, C59: the remaining derivatives of `MLPPCost`, and the dispatch by cost type
-/

namespace Verif
open Spec Cost Finset LinAlg
variable {m n : Nat}

/-! ## Mean bias error -/

theorem mbe_gradient {ι : Type} [Fintype ι] [DecidableEq ι] (p y : ι → ℝ) : Gradient (fun u => num ι * mbe u y) p fun _ => 1 :=
  gradient_mean (F := fun i t => t - y i) fun i => (hasDerivAt_id (p i)).sub_const (y i)

/-- **C58.** `mbe_derivv` is the gradient of the mean bias error times the number of entries. -/
theorem C58_mbe : GradientV mbe_derivv (fun ι _ p y => num ι * mbe p y) (fun _ _ _ => True) := by
  intro h a b n p y w la lb ha hb _
  refine ⟨fun _ => 1, ?_, mbe_gradient p y⟩
  obtain ⟨f, ef, cf⟩ := ha.cells w
  unfold mbe_derivv ReturnsVec
  refine Runs.step (show deref (Ref.asV (some (Loc.v a))) h = .ok (.v a, h) from rfl) (Runs.step (getSize_run _ _) ?_)
  rw [vec_count ha]
  refine Runs.mono (Ev.fullV (h0 := h) (d := List.replicate n ()) rfl (by simp) (1 : ℝ) h w (Keeps.refl _ _)) ?_
  rintro _ h' ⟨o, rfl, h1, h2, h3, h4, h5⟩
  refine ⟨o, rfl, h1 trivial, h2, h3, h4, h5.1, fun i => ?_⟩
  rw [h5.2]; simp

theorem mbe_derivm_spec {h : Heap ℝ} (w : h.WF) {a : Nat} (b : Ref) {A : Matrix (Fin m) (Fin n) ℝ} (ha : IsMat h a A) :
    ReturnsMat (mbe_derivm (some (.m a)) b) h (Matrix.of fun (_ : Fin n) (_ : Fin m) => (1 : ℝ)) := by
  unfold mbe_derivm ReturnsMat
  refine Runs.step (show deref (Ref.asM (some (Loc.m a))) h = .ok (.m a, h) from rfl) (Runs.step (getSize_run _ _) ?_)
  rw [ha.1]
  refine Runs.mono (Ev.fullM (h0 := h) (d := List.replicate (m * n) ()) rfl (by simp) (1 : ℝ) h w (Keeps.refl _ _)) ?_
  rintro _ h' ⟨o, rfl, h1, h2, h3, h4, h5⟩
  refine ⟨o, rfl, h1 trivial, h2, h3, h4, h5.1, fun i j => ?_⟩
  rw [h5.2]
  have := idx_lt (c := m) (r := n) i.2 j.2
  rw [List.map_replicate, List.getElem?_replicate, if_pos this]; rfl

/-- **C58**, partial: for square matrices `mbe_derivm` is the gradient of the mean bias error times the number of entries. -/
theorem C58_mbem_partial (h : Heap ℝ) (w : h.WF) (a : Nat) (b : Ref) (A B : Matrix (Fin n) (Fin n) ℝ) (ha : IsMat h a A) :
    ∃ G : Matrix (Fin n) (Fin n) ℝ, ReturnsMat (mbe_derivm (some (.m a)) b) h G ∧
      Gradient (fun u => num (Fin n × Fin n) * mbe u (cells B)) (cells A) (cells G) :=
  ⟨_, mbe_derivm_spec w b ha, mbe_gradient _ _⟩

/-- **C58**, refuted for matrices that are not square: the result of `mbe_derivm` has the transposed shape. -/
theorem C58_mbem_fails (h : Heap ℝ) (w : h.WF) (a : Nat) (b : Ref) (A : Matrix (Fin m) (Fin n) ℝ) (ha : IsMat h a A) (hmn : m ≠ n) :
    ¬ ∃ G : Matrix (Fin m) (Fin n) ℝ, ReturnsMat (mbe_derivm (some (.m a)) b) h G := by
  rintro ⟨G, r⟩
  exact hmn (r.shape (mbe_derivm_spec w b ha)).1

/-! ## Mean absolute error -/

theorem truncSign_spec {x y : ℝ} (h : 1 ≤ x ∧ y < x ∨ x ≤ -1 ∧ x < y) :
    (y < x ∧ truncSign x = 1) ∨ (x < y ∧ truncSign x = -1) := by
  unfold truncSign
  rcases h with ⟨h1, h2⟩ | ⟨h1, h2⟩
  · rw [if_neg (by linarith), if_neg (by linarith)]; exact Or.inl ⟨h2, rfl⟩
  · rw [if_pos h1]; exact Or.inr ⟨h2, rfl⟩

/-- **C58**, partial: `mae_deriv*` looks at the truncated prediction only, never at the target. It is the gradient of the mean
absolute error times the number of entries where every prediction is at least 1 and above its target, or at most -1 and below it
(and in the range of `int`). -/
theorem C58_mae_partial :
    GradientV mae_derivv (fun ι _ p y => num ι * mae p y)
      (fun _ p y => ∀ i, InInt (p i) ∧ (1 ≤ p i ∧ y i < p i ∨ p i ≤ -1 ∧ p i < y i)) ∧
    GradientM mae_derivm (fun ι _ p y => num ι * mae p y)
      (fun _ p y => ∀ i, InInt (p i) ∧ (1 ≤ p i ∧ y i < p i ∨ p i ≤ -1 ∧ p i < y i)) :=
  ⟨fun _ _ b _ p y w la _ ha _ o => ⟨_, mae_derivv_spec w ha la (fun i => (o i).1) (some (.v b)),
      mae_gradient p y _ fun i => truncSign_spec (o i).2⟩,
    fun _ _ b _ _ A B w la _ ha _ o => ⟨_, mae_derivm_spec w ha la (fun i j => (o (i, j)).1) (some (.m b)),
      mae_gradient (cells A) (cells B) _ fun i => truncSign_spec (o i).2⟩⟩

/-- **C58**, refuted for `mae_derivv`: for the prediction 3 and the target 5 it returns 1, but the mean absolute error falls as the
prediction grows; no positive multiple of the mean absolute error has this gradient. -/
theorem C58_mae_fails (j : ℝ) : let h := Heap.ofLists j [[3], [5]] []
    ReturnsVec (mae_derivv (some (.v 0)) (some (.v 1))) h (![1] : Fin 1 → ℝ) ∧
    ∀ k > 0, ¬ Gradient (fun u => k * mae u (![5] : Fin 1 → ℝ)) ![3] ![1] := by
  intro h
  have w : h.WF := Heap.ofLists_wf _ _ _ (by simp)
  have ha : IsVec h 0 (![3] : Fin 1 → ℝ) := ⟨rfl, fun i => by fin_cases i; rfl⟩
  refine ⟨?_, fun k hk g => ?_⟩
  · have := mae_derivv_spec w ha (by simp [h, Heap.ofLists, Heap.live, Loc.id]) (by intro i; fin_cases i; norm_num [InInt]) (some (.v 1))
    have e : (fun i => truncSign ((![3] : Fin 1 → ℝ) i)) = ![1] := by
      funext i; fin_cases i; norm_num [truncSign]
    rwa [e] at this
  · have g2 := gradient_scale k (mae_gradient (![3] : Fin 1 → ℝ) ![5] ![-1] (by intro i; fin_cases i; norm_num)) 0
    simp only [num, Fintype.card_fin, Nat.cast_one, one_mul] at g2
    have := (g 0).unique g2
    norm_num at this
    linarith

/-- **C58**, refuted for `mae_deriv*` when the prediction does not fit an `int`: the conversion is undefined. -/
theorem C58_mae_range_fails (j : ℝ) : mae_derivv (some (.v 0)) (some (.v 0)) (Heap.ofLists j [[3000000000]] []) = .ub := by
  have e : Activation.toInt (3000000000 : ℝ) = ub := by unfold Activation.toInt; rw [if_neg (by norm_num)]
  generalize hh : Heap.ofLists j [[(3000000000 : ℝ)]] [] = h
  have hs : h.size (.v 0) = ⟨1, 1, 1⟩ := by rw [← hh]; rfl
  have hb : (h.buf (.v 0))[0]? = some 3000000000 := by rw [← hh]; rfl
  have ll : h.live (.v 0) := by rw [← hh]; simp [Heap.ofLists, Heap.live, Loc.id]
  obtain ⟨d, c, e1, _⟩ := newResize_run (.v 0) ⟨1, 1, 1⟩ h
  have key : ∀ k : Loc → M ℝ Ref, (newVec >>= fun o => resizeTo o ⟨1, 1, 1⟩ >>= fun _ => k o) =
      ((do let o ← newLike (.v 0); resizeTo o ⟨1, 1, 1⟩; pure o : M ℝ Loc) >>= k) := by intro k; simp [newLike]
  unfold mae_derivv
  rw [bind_ok (show deref (Ref.asV (some (Loc.v 0))) h = .ok (.v 0, h) from rfl), bind_ok (getSize_run _ _), hs, key, bind_ok e1]
  refine bind_ub ?_
  unfold maeLoop forN
  rw [count_vec, loop_succ]
  refine bind_ub ?_
  have ne : Loc.v 0 ≠ Loc.v h.next := live_ne_fresh ll rfl
  refine (bind_ok (load_ok (v := (3000000000 : ℝ)) ?_)).trans ?_
  · refine Eq.trans ?_ hb
    exact congrArg (fun l : List ℝ => l[0]?) (setBuf_buf_ne (h.setSize (.v h.next) ⟨1, 1, 1⟩) d ne)
  · rw [e]; rfl

/-! ## Huber loss -/

theorem huber_gradient_in {ι : Type} [Fintype ι] [DecidableEq ι] (d : ℝ) (p y : ι → ℝ) (hp : ∀ i, |p i - y i| < d) :
    Gradient (fun u => 1 / 2 * huber d u y) p fun i => p i - y i := by
  refine gradient_congr (gradient_scale (1 / 2) (gradient_sum (x := p) (g := fun i => 2 * (p i - y i))
    (F := fun i t => if |t - y i| ≤ d then (t - y i) ^ 2 else 2 * d * |t - y i| - d ^ 2) fun i => ?_)) (fun _ => rfl) fun i => by ring
  have d1 : HasDerivAt (fun t => (t - y i) ^ 2) (2 * (p i - y i)) (p i) := by
    refine HasDerivAt.congr_deriv (((hasDerivAt_id (p i)).sub_const (y i)).pow 2) ?_
    simp
  refine d1.congr_of_eventuallyEq ?_
  have c : ContinuousAt (fun t => |t - y i|) (p i) := by fun_prop
  filter_upwards [c.eventually_lt continuousAt_const (hp i)] with t ht
  rw [if_pos ht.le]

/-- **C58**, partial: `huber_loss_deriv*` is half the gradient of the Huber loss where every error is below `delta`. -/
theorem C58_huber_partial (d : ℝ) :
    GradientV (fun a b => huber_loss_derivv a b d) (fun _ _ p y => 1 / 2 * huber d p y) (fun _ p y => ∀ i, |p i - y i| < d) ∧
    GradientM (fun a b => huber_loss_derivm a b d) (fun _ _ p y => 1 / 2 * huber d p y) (fun _ p y => ∀ i, |p i - y i| < d) := by
  have key : ∀ (ι : Type) [Fintype ι] [DecidableEq ι] (p y : ι → ℝ), (∀ i, |p i - y i| < d) →
      Gradient (fun u => 1 / 2 * huber d u y) p fun i => huberDeriv d (p i) (y i) := by
    intro ι _ _ p y o
    refine gradient_congr (huber_gradient_in d p y o) (fun _ => rfl) fun i => ?_
    unfold huberDeriv
    rw [absC_eq, abs_sub_comm, if_pos (o i).le]; ring
  exact ⟨gradientV_of (derivV_lifts (huberDeriv d)) key, gradientM_of (derivM_lifts (huberDeriv d)) key⟩

/-- **C58**, refuted for `huber_loss_derivv` with an error above `delta`: the sign is that of the prediction, not that of the error.
For the prediction 1, the target 3 and `delta = 1` it returns 2, which is no positive multiple of the gradient. -/
theorem C58_huber_fails (j : ℝ) : let h := Heap.ofLists j [[1], [3]] []
    ReturnsVec (huber_loss_derivv (some (.v 0)) (some (.v 1)) 1) h (![2] : Fin 1 → ℝ) ∧
    ∀ k > 0, ¬ Gradient (fun u => k * huber 1 u (![3] : Fin 1 → ℝ)) ![1] ![2] := by
  intro h
  have w : h.WF := Heap.ofLists_wf _ _ _ (by simp)
  have ha : IsVec h 0 (![1] : Fin 1 → ℝ) := ⟨rfl, fun i => by fin_cases i; rfl⟩
  have hb : IsVec h 1 (![3] : Fin 1 → ℝ) := ⟨rfl, fun i => by fin_cases i; rfl⟩
  refine ⟨?_, fun k hk g => ?_⟩
  · have := Lifts2.vec (derivV_lifts (huberDeriv 1)) w ha hb (by simp [h, Heap.ofLists, Heap.live, Loc.id])
      (by simp [h, Heap.ofLists, Heap.live, Loc.id])
    have e : (fun i => huberDeriv 1 ((![1] : Fin 1 → ℝ) i) ((![3] : Fin 1 → ℝ) i)) = ![2] := by
      funext i; fin_cases i; norm_num [huberDeriv, absC_eq]
    rwa [e] at this
  · have d1 : HasDerivAt (fun t : ℝ => k * (2 * (3 - t) - 1)) (-2 * k) 1 := by
      refine HasDerivAt.congr_deriv (((((hasDerivAt_id (1 : ℝ)).const_sub 3).const_mul 2).sub_const 1).const_mul k) ?_
      ring
    have g0 := g 0
    have : (fun t => k * huber 1 (Function.update (![1] : Fin 1 → ℝ) 0 t) ![3]) =ᶠ[nhds 1] fun t : ℝ => k * (2 * (3 - t) - 1) := by
      filter_upwards [eventually_lt_nhds (show (1 : ℝ) < 2 by norm_num)] with t ht
      have h1 : |t - 3| = 3 - t := by rw [abs_of_neg (by linarith)]; ring
      simp [huber, h1]
      intro c; linarith
    have := (g0.congr_of_eventuallyEq this.symm).unique d1
    norm_num at this
    linarith

/-! ## Root mean squared error of matrices -/

theorem rmse_derivm_spec {h : Heap ℝ} (w : h.WF) {a b : Nat} {A B : Matrix (Fin m) (Fin n) ℝ} (ha : IsMat h a A) (hb : IsMat h b B)
    (la : h.live (.m a)) (lb : h.live (.m b)) : ReturnsMat (rmse_derivm (some (.m a)) (some (.m b))) h
      (Matrix.of fun i j => (A i j - B i j) * (1 / (2 / Real.sqrt (((n * m : ℕ) : ℝ) ^ 2 * halfMse (cells A) (cells B))))) := by
  unfold rmse_derivm ReturnsMat
  exact Runs.step ((C57_mse_partial h w a b).2 A B ha hb) ((scaled_diffm_lifts _).mat w ha hb la lb)

/-- **C58**, refuted for `rmse_derivm`: no multiple of the root mean squared error has the returned gradient. (The factor is
`√e / 2` instead of `1 / (2 √e)`.) -/
theorem C58_rmsem_fails (k : ℝ) : ¬ GradientM rmse_derivm (fun _ _ p y => k * rmse p y) (fun _ p y => p ≠ y) := by
  intro g
  have val : ∀ x : ℝ, x > 0 → x * (x / (2 * Real.sqrt 2)) = k := by
    intro x hx
    have w : (Heap.ofLists 0 [] [(1, 1, [x]), (1, 1, [0])]).WF := Heap.ofLists_wf _ _ _ (by simp)
    have ha : IsMat (Heap.ofLists 0 [] [(1, 1, [x]), (1, 1, [0])]) 0 (Matrix.of fun (_ _ : Fin 1) => x) :=
      ⟨rfl, by intro i j; fin_cases i; fin_cases j; rfl⟩
    have hb : IsMat (Heap.ofLists 0 [] [(1, 1, [x]), (1, 1, [0])]) 1 (Matrix.of fun (_ _ : Fin 1) => (0 : ℝ)) :=
      ⟨rfl, by intro i j; fin_cases i; fin_cases j; rfl⟩
    have la : (Heap.ofLists 0 [] [(1, 1, [x]), (1, 1, [0])]).live (.m 0) := by simp [Heap.ofLists, Heap.live, Loc.id]
    have lb : (Heap.ofLists 0 [] [(1, 1, [x]), (1, 1, [0])]).live (.m 1) := by simp [Heap.ofLists, Heap.live, Loc.id]
    have hp : cells (Matrix.of fun (_ _ : Fin 1) => x) ≠ cells (Matrix.of fun (_ _ : Fin 1) => (0 : ℝ)) := by
      intro e
      have := congrFun e (0, 0)
      simp [cells] at this; exact hx.ne' this
    obtain ⟨G, r, gr⟩ := g _ 0 1 1 1 _ _ w la lb ha hb hp
    have e := r.unique (rmse_derivm_spec w ha hb la lb)
    have g2 := gradient_scale k (rmse_gradient _ _ hp)
    have := (gr (0, 0)).unique (g2 (0, 0))
    rw [e] at this
    have s1 : Real.sqrt (x ^ 2) = x := Real.sqrt_sq hx.le
    simp [cells, num, rmse, halfMse, s1, hx.ne'] at this
    rw [← this]; ring
  have h1 := val 1 (by norm_num)
  have h2 := val 2 (by norm_num)
  have : Real.sqrt 2 ≠ 0 := by positivity
  rw [← h1] at h2
  field_simp at h2
  norm_num at h2

/-! ## Support vector machine -/

/-- **C58.** `dual_form_svm` is the dual objective of the linear support vector machine. -/
theorem C58_svm (h : Heap ℝ) (w : h.WF) (a x y : Nat) (X : Matrix (Fin m) (Fin n) ℝ) (α v : Fin m → ℝ) (ha : IsVec h a α)
    (hx : IsMat h x X) (hy : IsVec h y v) (la : h.live (.v a)) (lx : h.live (.m x)) (ly : h.live (.v y)) :
    ReturnsVal (dual_form_svm (some (.v a)) (some (.m x)) (some (.v y))) h (svmDual X v α) :=
  dual_form_svm_spec w ha hx hy la lx ly

/-- **C58.** `dual_form_svm_deriv` is its gradient. -/
theorem C58_svm_deriv (h : Heap ℝ) (w : h.WF) (a x y : Nat) (X : Matrix (Fin m) (Fin n) ℝ) (α v : Fin m → ℝ) (ha : IsVec h a α)
    (hx : IsMat h x X) (hy : IsVec h y v) (la : h.live (.v a)) (lx : h.live (.m x)) (ly : h.live (.v y)) :
    ∃ g : Fin m → ℝ, ReturnsVec (dual_form_svm_deriv (some (.v a)) (some (.m x)) (some (.v y))) h g ∧ Gradient (svmDual X v) α g :=
  ⟨_, dual_form_svm_deriv_spec w ha hx hy la lx ly, svmDual_gradient X v α⟩

/-! ## Bad operands -/

/-- **C58.** Vectors of different lengths: these derivatives return null; nothing that existed changes. -/
theorem C58_mismatch (h : Heap ℝ) (w : h.WF) (a b : Nat) (d C : ℝ) (la : h.live (.v a)) (lb : h.live (.v b))
    (hs : (h.size (.v a)).count ≠ (h.size (.v b)).count) :
    ∀ op ∈ [mse_derivv, rmse_derivv, log_loss_derivv, cross_entropy_derivv, (fun a b => huber_loss_derivv a b d), hinge_loss_derivv,
      (fun a b => hinge_loss_derivwv a b C)],
      ReturnsVal (op (some (.v a)) (some (.v b))) h none := by
  have hs' : h.size (.v a) ≠ h.size (.v b) := fun e => hs (by rw [e])
  have rd : mse_derivv (some (.v a)) (some (.v b)) h = .ok (none, h) := subV_rejects h _ _ (Or.inr ⟨a, b, rfl, rfl, hs'⟩)
  have dv : division_element_wisenv (some (.v b)) (some (.v a)) h = .ok (none, h) :=
    binV_rejects _ h _ _ (Or.inr ⟨b, a, rfl, rfl, hs'.symm⟩)
  have here : ∀ {op : M ℝ Ref}, op h = .ok (none, h) → ReturnsVal op h none := fun e => Runs.of_eq e ⟨rfl, w, Keeps.refl _ _⟩
  intro op ho
  simp only [List.mem_cons, List.not_mem_nil, or_false] at ho
  rcases ho with rfl | rfl | rfl | rfl | rfl | rfl | rfl
  · exact here rd
  · refine here ?_
    unfold rmse_derivv
    have ms : msev (some (.v a)) (some (.v b)) h = .ok (0, h) := lossOf_mismatch hs
    rw [bind_ok ms]
    unfold app1
    rw [bind_ok rd]; rfl
  · unfold log_loss_derivv app2 app1
    refine Runs.step (a := none) (h' := h) ?_ ?_
    · rw [bind_ok (show (do let x ← pure (some (Loc.v b)); let y ← pure (some (Loc.v a)); division_element_wisenv x y : M ℝ Ref) h = _ from dv)]
      rfl
    · have e1 := Ev.app1 (unV_lifts (· * (-1 : ℝ))) (Ev.app1 (unV_lifts (· + (-1 : ℝ))) (Ev.self lb)) h w (Keeps.refl _ _)
      refine Runs.bind ?_
      refine Runs.bind (Runs.mono e1 ?_)
      rintro _ h1 ⟨o1, rfl, _, l1, w1, k1, q1⟩
      have e2 := Ev.app1 (unV_lifts (· * (-1 : ℝ))) (Ev.app1 (unV_lifts (· + (-1 : ℝ))) (Ev.self la)) h1 w1 k1
      refine Runs.bind (Runs.mono e2 ?_)
      rintro _ h2 ⟨o2, rfl, _, l2, w2, k2, q2⟩
      have hne : h2.size (.v o1) ≠ h2.size (.v o2) := by
        rw [q2.1, (k2.2 _ l1 (by simp)).2, q1.1]; exact hs'.symm
      have dv2 : division_element_wisenv (some (.v o1)) (some (.v o2)) h2 = .ok (none, h2) :=
        binV_rejects _ h2 _ _ (Or.inr ⟨o1, o2, rfl, rfl, hne⟩)
      exact Runs.of_eq dv2 (Runs.of_eq (show additionnv none none h2 = .ok (none, h2) from rfl) ⟨rfl, w2, k1.trans k2⟩)
  · refine here ?_
    unfold cross_entropy_derivv app1 app2
    rw [bind_ok (show (do let x ← pure (some (Loc.v b)); let y ← pure (some (Loc.v a)); division_element_wisenv x y : M ℝ Ref) h = _ from dv)]
    rfl
  · exact here (derivOf_mismatch hs)
  · exact here (derivOf_mismatch hs)
  · refine here ?_
    have hd : hinge_loss_derivv (some (.v a)) (some (.v b)) h = .ok (none, h) := derivOf_mismatch hs
    show (hinge_loss_derivv (some (.v a)) (some (.v b)) >>= scalar_multiplynv C) h = _
    rw [bind_ok hd]; rfl

/-- **C58**, refuted for matrices of different shapes: these derivatives go on with the null result of the rejected operation and
dereference it. -/
theorem C58_mismatch_fails (h : Heap ℝ) (a b : Nat) (C : ℝ) (hs : (h.size (.m a)).count ≠ (h.size (.m b)).count) :
    ∀ op ∈ [rmse_derivm, log_loss_derivm, cross_entropy_derivm, (fun a b => hinge_loss_derivwm a b C)],
      op (some (.m a)) (some (.m b)) h = .ub := by
  have hs' : h.size (.m a) ≠ h.size (.m b) := fun e => hs (by rw [e])
  have rd : mse_derivm (some (.m a)) (some (.m b)) h = .ok (none, h) := binM_rejects _ h _ _ (Or.inr ⟨a, b, rfl, rfl, hs'⟩)
  have dv : division_element_wisenvnm (some (.m b)) (some (.m a)) h = .ok (none, h) :=
    gridM_rejects _ h _ _ (Or.inr ⟨b, a, rfl, rfl, hs'.symm⟩)
  intro op ho
  simp only [List.mem_cons, List.not_mem_nil, or_false] at ho
  rcases ho with rfl | rfl | rfl | rfl
  · unfold rmse_derivm
    have ms : msem (some (.m a)) (some (.m b)) h = .ok (0, h) := lossOf_mismatch hs
    rw [bind_ok ms]
    unfold app1
    rw [bind_ok rd]; rfl
  · unfold log_loss_derivm app2 app1
    refine bind_ub ?_
    rw [bind_ok (show (do let x ← pure (some (Loc.m b)); let y ← pure (some (Loc.m a)); division_element_wisenvnm x y : M ℝ Ref) h = _ from dv)]
    rfl
  · unfold cross_entropy_derivm app1 app2
    rw [bind_ok (show (do let x ← pure (some (Loc.m b)); let y ← pure (some (Loc.m a)); division_element_wisenvnm x y : M ℝ Ref) h = _ from dv)]
    rfl
  · have hd : hinge_loss_derivm (some (.m a)) (some (.m b)) h = .ok (none, h) := derivOf_mismatch hs
    show (hinge_loss_derivm (some (.m a)) (some (.m b)) >>= scalar_multiplynm C) h = _
    rw [bind_ok hd]; rfl

end Verif
