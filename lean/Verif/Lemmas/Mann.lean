import Verif.Spec.Mann
import Verif.Lemmas.AnnTrain

/-! # Networks with several outputs -/

namespace Verif
open Spec Finset

namespace Mann
open Ann (Draws layersPass layersTest Fed same_written layersPass_run written_mat notin_written vec_written)
open Glm (epochs walk)
variable {n m k c : Nat} {o : Top} {us : List Lay} {X : Matrix (Fin n) (Fin k) ℝ} {Y : Matrix (Fin n) (Fin c) ℝ} {N : MNet k us c}

theorem works_pass {o : Top} (ho : o.WorksM) : o.act ∉ [Activation.Fn.adj_softmax, .swish, .mish, .softplus, .softsign] := by
  rcases ho with e | ⟨h, -⟩
  · rw [e]; simp
  · simp only [List.mem_cons, List.not_mem_nil, or_false, not_or] at h ⊢
    tauto

/-- The state of the layers after a pass with the inputs `X`. -/
structure Passed (h : Heap ℝ) (ls : List HiddenLayer) (l : MultiOutputLayer) (o : Top) (us : List Lay) (X : Matrix (Fin n) (Fin k) ℝ) (N : MNet k us c) :
    Prop where
  wf : h.WF
  hidden : LayersAre h us N.1 ls
  fed : Fed h us N.1 ls X
  out : MultiIs h l o N.2
  input : HasM h l.input (fun a => through us N.1 (X a))
  z : HasM h l.z (affine (fun a => through us N.1 (X a)) N.2)
  a : HasM h l.a (fun a => mnetAt o us N (X a))
  init : ∀ l ∈ ls, l.initialized = true

theorem pass_run (g : Draws) {s : Mann} {l : MultiOutputLayer} {x : Ref} {X : Matrix (Fin n) (Fin k) ℝ} {h : Heap ℝ}
    (w : h.WF) (L : LayersAre h us N.1 s.network) (el : s.output_layer = some l) (O : MultiIs h l o N.2)
    (nw : l.weights ∉ written s.network) (hx : HasM h x X) (d : (x :: written s.network).Nodup) (hu : ∀ u ∈ us, u.Works) (ho : o.WorksM) :
    Runs (pass g s x) h fun r h' => ∃ ls l', r = ({ s with network := ls, output_layer := some l' }, l'.a) ∧
        Keeps h h' (fun c => some c ∈ written s.network) ∧
        List.Forall₂ Ann.Same s.network ls ∧ l'.weights = l.weights ∧ Passed h' ls l' o us X (mredrawn g us N) := by
  unfold pass
  refine Runs.bind ((layersPass_run g us 0 w L hx d hu).mono fun r h1 ⟨w1, K1, S1, L1, F1, a1, o1⟩ => ?_)
  have e : output s h1 = .ok (l, h1) := by unfold output; rw [el]; rfl
  refine Runs.step e ?_
  have kw : HasM h1 l.weights N.2.1 := O.weights.keep K1 fun c e hc => nw (e ▸ hc)
  have kb : HasV h1 l.bias N.2.2 := O.bias.keep K1 fun c e hc => vec_written L O.bias (e ▸ hc)
  have R : MultiReady (MultiOutputLayer.set_input l r.2) h1 (fun a => through us (redrawnH g us 0 N.1) (X a)) N.2 := ⟨w1, a1, kw, kb⟩
  have ea : (MultiOutputLayer.set_input l r.2).activation = o.act := O.act
  refine Runs.bind ((MultiOutputLayer.forward_run R (ea ▸ works_pass ho)).mono fun l1 h2 ⟨e1, K2, n1, n2, R2, z2, a2⟩ => ?_)
  rw [ea] at a2
  obtain ⟨sw, sb, sl, si⟩ := same_written S1
  refine Runs.of_eq rfl ⟨r.1, l1, rfl, K1.trans (K2.mono fun _ _ => False.elim), S1, by rw [e1]; rfl, ?_⟩
  refine ⟨R2.wf, Ann.LayersAre.keep K2 us L1 fun _ _ _ _ _ _ => id, Fed.keep K2 us F1, ?_, R2.input, z2, a2, si⟩
  refine ⟨?_, ?_, ?_, ?_, ?_, R2.weights, R2.bias⟩
  · rw [e1]; exact O.act
  · rw [e1]; exact O.cost
  · rw [e1]; exact O.reg
  · rw [e1]; exact O.lambda
  · rw [e1]; exact O.alpha

/-! ## One step -/

/-- The errors at the outputs. -/
noncomputable def outErr (o : Top) (A : Matrix (Fin n) (Fin m) ℝ) (Y : Matrix (Fin n) (Fin c) ℝ) (θ : MParams m c) : Matrix (Fin n) (Fin c) ℝ := fun i a =>
  match o.act with
  | .softmax => softmaxes A θ i a - Y i a
  | f => Ann.lossDeriv o.cost (Activation.normReal f (affine A θ i a)) (Y i a) * Activation.ownDerivReal f (affine A θ i a)

theorem lift2_mat {f : ℝ → ℝ → ℝ} {op : Ref → Ref → M ℝ Ref} (l : Lifts2 Loc.m f op) {h : Heap ℝ} (w : h.WF) {a b : Ref} {A B : Matrix (Fin n) (Fin m) ℝ}
    (ha : HasM h a A) (hb : HasM h b B) : ReturnsMat (op a b) h fun i j => f (A i j) (B i j) := by
  obtain ⟨x, rfl, lx, hx⟩ := ha; obtain ⟨y, rfl, ly, hy⟩ := hb
  exact l.mat w hx hy lx ly

theorem lossDeriv_run {k : Cost.Kind} (hc : k ∉ [Cost.Kind.rmse, .mae, .mbe]) {h : Heap ℝ} (w : h.WF) {a b : Ref} {A B : Matrix (Fin n) (Fin m) ℝ}
    (ha : HasM h a A) (hb : HasM h b B) : ReturnsMat (Cost.run_cost_deriv_matrix k a b) h fun i j => Ann.lossDeriv k (A i j) (B i j) := by
  cases k with
  | mse => exact lift2_mat (LinAlg.binM_lifts (· - ·)) w ha hb
  | rmse => simp at hc
  | mae => simp at hc
  | mbe => simp at hc
  | logistic_loss => exact lift2_mat Cost.log_loss_derivm_lifts w ha hb
  | cross_entropy => exact lift2_mat Cost.cross_entropy_derivm_lifts w ha hb
  | hinge_loss => exact lift2_mat (Cost.derivM_lifts Cost.hingeDeriv) w ha hb
  | wasserstein_loss => exact Hd.lifts_mat (LinAlg.dupM_lifts (· * (-1 : ℝ))) w hb

theorem softmax_or (o : Top) {l : MultiOutputLayer} (e : l.activation = o.act) :
    (o.act = .softmax ∧ ∀ fuel y_hat y, outDelta fuel l y_hat y = Hd.subnm y_hat y) ∨
    (o.act ≠ .softmax ∧ ∀ fuel y_hat y, outDelta fuel l y_hat y = do
      let r1 ← Cost.run_cost_deriv_matrix l.cost y_hat y
      let r2 ← Activation.derivMatrix fuel o.act l.z
      Hd.hadamard_productnm r1 r2) := by
  unfold outDelta
  rw [e]
  cases ho : o.act
  case softmax => exact Or.inl ⟨rfl, fun _ _ _ => rfl⟩
  all_goals exact Or.inr ⟨by simp, fun _ _ _ => rfl⟩

theorem outErr_of {o : Top} (es : o.act ≠ .softmax) (A : Matrix (Fin n) (Fin m) ℝ) (Y : Matrix (Fin n) (Fin c) ℝ) (θ : MParams m c) (i : Fin n) (a : Fin c) :
    outErr o A Y θ i a = Ann.lossDeriv o.cost (Activation.normReal o.act (affine A θ i a)) (Y i a) * Activation.ownDerivReal o.act (affine A θ i a) := by
  unfold outErr
  cases ho : o.act
  case softmax => exact absurd ho es
  all_goals rfl

theorem applied_of {o : Top} (es : o.act ≠ .softmax) (es' : o.act ≠ .adj_softmax) (v : Fin c → ℝ) : applied o.act v = fun i => Activation.normReal o.act (v i) := by
  unfold applied
  cases ho : o.act
  case softmax => exact absurd ho es
  case adj_softmax => exact absurd ho es'
  all_goals rfl

theorem outDelta_run (fuel : Nat) {h : Heap ℝ} {ls : List HiddenLayer} {l : MultiOutputLayer} (P : Passed h ls l o us X N) (ho : o.WorksM) {yh b : Ref}
    (hy : HasM h yh (fun i => mnetAt o us N (X i))) (hb : HasM h b Y) :
    ReturnsMat (outDelta fuel l yh b) h (outErr o (fun a => through us N.1 (X a)) Y N.2) := by
  rcases softmax_or o P.out.act with ⟨es, e⟩ | ⟨es, e⟩
  · rw [e]
    refine cast (congrArg _ ?_) (Hd.subnm_spec P.wf hy hb)
    funext i a
    unfold outErr mnetAt applied softmaxes
    rw [es]
    rfl
  · rw [e]
    have w2 : o.act ∉ [Activation.Fn.softmax, .adj_softmax, .swish, .mish, .softplus, .softsign, .cloglog, .artanh] ∧ o.cost ∉ [Cost.Kind.rmse, .mae, .mbe] :=
      ho.resolve_left es
    rw [P.out.cost]
    have hz := P.z
    refine ReturnsMat.of_has ?_
    refine Verif.stepM (lossDeriv_run w2.2 P.wf hy hb) fun r h1 w1 k1 f1 a1 => ?_
    have K1 := k1
    nw f1 k1
    have lf : Lifts Loc.m (Activation.ownDerivReal o.act) (Activation.derivMatrix fuel o.act) := by
      have := w2.1
      simp only [List.mem_cons, List.not_mem_nil, or_false, not_or] at this
      refine C45_deriv_matrix_partial fuel o.act ?_ (by simp only [List.mem_cons, List.not_mem_nil, or_false, not_or]; tauto)
      unfold Elementwise
      split <;> tauto
    refine Verif.stepM (Hd.lifts_mat lf w1 hz) fun r2 h2 w2' k2 f2 a2 => ?_
    have K2 := K1.trans k2
    nw f2 k2
    refine ((Hd.hadamard_productnm_spec w2' a1 a2).has).mono fun r h3 ⟨w3, k3, f3, u3⟩ => ⟨w3, K2.trans k3, f3.mono K2, ?_⟩
    refine cast (congrArg _ ?_) u3
    funext i a
    refine Eq.trans ?_ (outErr_of es _ Y N.2 i a).symm
    show Ann.lossDeriv o.cost (applied o.act _ a) _ * _ = _
    have es' : o.act ≠ .adj_softmax := fun e => w2.1 (by rw [e]; simp)
    rw [applied_of es es']
    rfl

/-- The parameters of a layer after a step of size `s` with the errors `D` and the inputs `A`. -/
noncomputable def stepped (r : Reg.Kind) (lam al s : ℝ) (A : Matrix (Fin n) (Fin m) ℝ) (D : Matrix (Fin n) (Fin c) ℝ) (θ : MParams m c) : MParams m c :=
  (fun i j => decay r lam al (θ.1 i j - s * ∑ a, A a i * D a j), fun j => θ.2 j - s * ∑ a, D a j)

theorem stepOut_run (fuel : Nat) {h : Heap ℝ} {ls : List HiddenLayer} {l : MultiOutputLayer} (P : Passed h ls l o us X N) (ho : o.WorksM) {yh b : Ref}
    (hy : HasM h yh (fun i => mnetAt o us N (X i))) (hb : HasM h b Y) (rate : ℝ) :
    Runs (stepOut fuel l yh b rate) h fun l' h' => h'.WF ∧ Keeps h h' (fun _ => False) ∧ NotIn h l'.weights ∧
      l' = { l with delta := l'.delta, weights := l'.weights, bias := l'.bias } ∧
      HasM h' l'.delta (outErr o (fun a => through us N.1 (X a)) Y N.2) ∧
      MultiIs h' l' o (stepped o.reg o.lambda o.alpha rate (fun a => through us N.1 (X a)) (outErr o (fun a => through us N.1 (X a)) Y N.2) N.2) := by
  unfold stepOut
  have hw := P.out.weights
  have hbi := P.out.bias
  have hi := P.input
  have od := outDelta_run fuel P ho hy hb
  have O := P.out
  generalize hD : outErr o (fun a => through us N.1 (X a)) Y N.2 = D at od ⊢
  refine Verif.stepM od fun d h1 w1 k1 f1 ud => ?_
  have K1 := k1
  nw f1 k1
  dsimp only [MultiOutputLayer.set_delta]
  refine Verif.stepM (Hd.transposen_spec w1 hi) fun t h2 w2 k2 f2 ut => ?_
  have K2 := K1.trans k2
  nw f2 k2
  refine Verif.stepM (Hd.multn_spec w2 ut ud) fun g h3 w3 k3 f3 ug => ?_
  have K3 := K2.trans k3
  nw f3 k3
  refine Verif.stepM (Hd.scalar_multiplynm_spec w3 ug rate) fun g' h4 w4 k4 f4 ug' => ?_
  have K4 := K3.trans k4
  nw f4 k4
  refine Verif.stepM (Hd.subnm_spec w4 hw ug') fun q h5 w5 k5 f5 uq => ?_
  have K5 := K4.trans k5
  nw f5 k5
  refine Verif.stepM (Hd.reg_weightsm_spec w5 uq l.lambda l.alpha l.reg) fun q' h6 w6 k6 f6 uq' => ?_
  have K6 := K5.trans k6
  have g6 := f6.mono K5
  nw f6 k6
  dsimp only [MultiOutputLayer.set_weights, MultiOutputLayer.set_bias]
  refine Verif.stepM (Hd.scalar_multiplynm_spec w6 ud rate) fun d' h7 w7 k7 f7 ud' => ?_
  have K7 := K6.trans k7
  nw f7 k7
  refine Verif.stepV (Ann.rows_run w7 hbi ud') fun b' h8 w8 k8 f8 ub => ?_
  have K8 := K7.trans k8
  adv k8
  refine Runs.of_eq rfl ⟨w8, K8, g6, rfl, ud, ⟨O.act, O.cost, O.reg, O.lambda, O.alpha, ?_, ?_⟩⟩
  · rw [O.lambda, O.alpha, O.reg] at uq'
    refine cast (congrArg _ ?_) uq'
    funext i j
    show decay _ _ _ (N.2.1 i j - (∑ a, through us N.1 (X a) i * D a j) * rate) = decay _ _ _ (N.2.1 i j - rate * _)
    rw [mul_comm]
  · refine cast (congrArg _ ?_) ub
    funext j
    show N.2.2 j - ∑ i, D i j * rate = N.2.2 j - rate * ∑ a, D a j
    rw [← Finset.sum_mul, mul_comm]

/-- The errors at the units of the last hidden layer `u`: the errors `D` at the outputs carried back by the weights `W`. -/
noncomputable def lastErr (u : Lay) (X : Matrix (Fin n) (Fin k) ℝ) (θ : MParams k u.units) (D : Matrix (Fin n) (Fin c) ℝ) (W : Matrix (Fin u.units) (Fin c) ℝ) :
    Matrix (Fin n) (Fin u.units) ℝ := fun i j => (∑ a, D i a * W j a) * Activation.ownDerivReal u.act (affine X θ i j)

theorem stepLast_run (fuel : Nat) {h : Heap ℝ} (w : h.WF) {o : MultiOutputLayer} {u : Lay} {l : HiddenLayer} {X : Matrix (Fin n) (Fin k) ℝ} {θ : MParams k u.units}
    {D : Matrix (Fin n) (Fin c) ℝ} {W : Matrix (Fin u.units) (Fin c) ℝ} (L : LayerIs h l u θ) (hd : HasM h o.delta D) (hW : HasM h o.weights W)
    (hi : HasM h l.input X) (hz : HasM h l.z (affine X θ)) (hu : u.Works) (rate : ℝ) :
    Runs (stepOf fuel o rate l []) h fun l' h' => h'.WF ∧ Keeps h h' (fun _ => False) ∧ NotIn h l'.weights ∧ l'.z = l.z ∧
      HasM h' l'.delta (lastErr u X θ D W) ∧ LayerIs h' l' u (stepped u.reg u.lambda u.alpha rate X (lastErr u X θ D W) θ) := by
  unfold stepOf
  have hw := L.weights
  have hbi := L.bias
  have sg : ReturnsMat (signal o []) h (fun i j => ∑ a, D i a * W j a) := by
    refine ReturnsMat.of_has ?_
    unfold signal
    refine Verif.stepM (Hd.transposen_spec w hW) fun t h1 w1 k1 f1 ut => ?_
    have d1 := hd.keep k1 fun _ _ => id
    exact ((Hd.multn_spec w1 d1 ut).has).mono fun r h2 ⟨w2, k2, f2, u2⟩ => ⟨w2, k1.trans k2, f2.mono k1, u2⟩
  refine Verif.stepM sg fun e h1 w1 k1 f1 ue => ?_
  have K1 := k1
  nw f1 k1
  rw [L.act]
  refine Verif.stepM (Hd.lifts_mat (Ann.works_back hu fuel) w1 hz) fun f h2 w2 k2 f2 uf => ?_
  have K2 := K1.trans k2
  nw f2 k2
  refine Verif.stepM (Hd.hadamard_productnm_spec w2 ue uf) fun dl h3 w3 k3 f3 ud => ?_
  have K3 := K2.trans k3
  nw f3 k3
  have ud : HasM h3 dl (lastErr u X θ D W) := ud
  generalize lastErr u X θ D W = E at ud ⊢
  dsimp only [HiddenLayer.set_delta]
  refine Verif.stepM (Hd.transposen_spec w3 hi) fun t h4 w4 k4 f4 ut => ?_
  have K4 := K3.trans k4
  nw f4 k4
  refine Verif.stepM (Hd.multn_spec w4 ut ud) fun g h5 w5 k5 f5 ug => ?_
  have K5 := K4.trans k5
  nw f5 k5
  refine Verif.stepM (Hd.scalar_multiplynm_spec w5 ug rate) fun g' h6 w6 k6 f6 ug' => ?_
  have K6 := K5.trans k6
  nw f6 k6
  refine Verif.stepM (Hd.subnm_spec w6 hw ug') fun q h7 w7 k7 f7 uq => ?_
  have K7 := K6.trans k7
  nw f7 k7
  refine Verif.stepM (Hd.reg_weightsm_spec w7 uq l.lambda l.alpha l.reg) fun q' h8 w8 k8 f8 uq' => ?_
  have K8 := K7.trans k8
  have g8 := f8.mono K7
  nw f8 k8
  dsimp only [HiddenLayer.set_weights, HiddenLayer.set_bias]
  refine Verif.stepM (Hd.scalar_multiplynm_spec w8 ud rate) fun d' h9 w9 k9 f9 ud' => ?_
  have K9 := K8.trans k9
  nw f9 k9
  refine Verif.stepV (Ann.rows_run w9 hbi ud') fun b' h10 w10 k10 f10 ub => ?_
  have K10 := K9.trans k10
  adv k10
  refine Runs.of_eq rfl ⟨w10, K10, g8, rfl, ud, ⟨L.units, L.act, L.init, L.reg, L.lambda, L.alpha, ?_, ?_, ⟨_, _, _, hz⟩⟩⟩
  · rw [L.lambda, L.alpha, L.reg] at uq'
    refine cast (congrArg _ ?_) uq'
    funext i j
    show decay _ _ _ (θ.1 i j - (∑ a, X a i * E a j) * rate) = decay _ _ _ (θ.1 i j - rate * _)
    rw [mul_comm]
  · refine cast (congrArg _ ?_) ub
    funext j
    show θ.2 j - ∑ i, E i j * rate = θ.2 j - rate * ∑ a, E a j
    rw [← Finset.sum_mul, mul_comm]

theorem cost_ok {h : Heap ℝ} (w : h.WF) {s : Mann} {l : MultiOutputLayer} (L : LayersAre h us N.1 s.network)
    (el : s.output_layer = some l) (O : MultiIs h l o N.2) {a b : Ref} {P Y : Matrix (Fin n) (Fin c) ℝ} (ha : HasM h a P) (hb : HasM h b Y) :
    ∃ x, cost s a b h = .ok (x, h) := by
  obtain ⟨t, et⟩ := Ann.regTerms_ok w us 0 L
  have : ∃ x, Cost.run_cost_norm_matrix l.cost a b h = .ok (x, h) := by
    obtain ⟨x, rfl, lx, hx⟩ := ha; obtain ⟨y, rfl, ly, hy⟩ := hb
    cases l.cost <;> exact ⟨_, Cost.lossOf_mat w hx hy⟩
  obtain ⟨x, ex⟩ := this
  obtain ⟨r, er⟩ := Hd.reg_termm_ok w O.weights l.lambda l.alpha l.reg
  have eo : output s h = .ok (l, h) := by unfold output; rw [el]; rfl
  refine ⟨x + t + r, ?_⟩
  unfold cost
  rw [bind_ok et, bind_ok eo, bind_ok ex, bind_ok er]
  rfl

/-- The hidden layers after a step, for at most one of them; `θ` are the new parameters of the output layer. -/
noncomputable def hstep (s : ℝ) (D : Matrix (Fin n) (Fin c) ℝ) : {k : Nat} → (us : List Lay) → Matrix (Fin n) (Fin k) ℝ → Hiddens k us → MParams (width k us) c → Hiddens k us
  | _, [], _, H, _ => H
  | _, [u], X, H, θ => (stepped u.reg u.lambda u.alpha s X (lastErr u X H.1 D θ.1) H.1, ())
  | _, _ :: _ :: _, _, H, _ => H

/-- The network after a step. -/
noncomputable def mstep (o : Top) (us : List Lay) (s : ℝ) (X : Matrix (Fin n) (Fin k) ℝ) (Y : Matrix (Fin n) (Fin c) ℝ) (N : MNet k us c) : MNet k us c :=
  (hstep s (outErr o (fun a => through us N.1 (X a)) Y N.2) us X N.1
      (stepped o.reg o.lambda o.alpha s (fun a => through us N.1 (X a)) (outErr o (fun a => through us N.1 (X a)) Y N.2) N.2),
    stepped o.reg o.lambda o.alpha s (fun a => through us N.1 (X a)) (outErr o (fun a => through us N.1 (X a)) Y N.2) N.2)

theorem layersStep_run (fuel : Nat) {h : Heap ℝ} (w : h.WF) (us : List Lay) (hl : us.length ≤ 1) {k : Nat} {X : Matrix (Fin n) (Fin k) ℝ} {H : Hiddens k us}
    {ls : List HiddenLayer} {o : MultiOutputLayer} {D : Matrix (Fin n) (Fin c) ℝ} {θ : MParams (width k us) c} (L : LayersAre h us H ls) (F : Fed h us H ls X)
    (hd : HasM h o.delta D) (hW : HasM h o.weights θ.1) (hu : ∀ u ∈ us, u.Works) (nd : (written ls).Nodup) (rate : ℝ) :
    Runs (layersStep fuel o rate ls) h fun ls' h' => h'.WF ∧ Keeps h h' (fun _ => False) ∧ LayersAre h' us (hstep rate D us X H θ) ls' ∧
      (written ls').Nodup ∧ ∀ q ∈ written ls', q ∈ written ls ∨ NotIn h q := by
  cases us with
  | nil =>
    cases L
    exact Runs.of_eq rfl ⟨w, Keeps.refl _ _, rfl, nd, fun q hq => Or.inl hq⟩
  | cons u us =>
    have e0 : us = [] := by
      cases us with
      | nil => rfl
      | cons v vs => simp at hl
    subst e0
    obtain ⟨l, ls, rfl, L1, L2⟩ := L
    cases L2
    obtain ⟨l', ls', e, f1, f2, -⟩ := F
    cases e
    unfold layersStep
    refine Runs.step (a := []) (h' := h) rfl ?_
    have key := stepLast_run (W := θ.1) fuel w L1 hd hW f1 f2 (hu u (by simp)) rate
    refine Runs.bind (key.mono fun l' h1 ⟨w1, K1, n1, ez, d1, L1'⟩ => ?_)
    refine Runs.of_eq rfl ⟨w1, K1, ⟨l', [], rfl, L1', rfl⟩, ?_, ?_⟩
    · have : NotIn h l'.weights → l'.z ≠ l'.weights := fun f => by
        rw [ez]; exact fun e => f.ne_mat f2 e.symm
      simp [written, this n1]
    · intro q hq
      simp only [written, List.flatMap_cons, List.flatMap_nil, List.mem_append, List.mem_cons, List.not_mem_nil, or_false] at hq ⊢
      rcases hq with rfl | rfl
      · exact Or.inl (Or.inl ez)
      · exact Or.inr n1

/-! ## Training -/

/-- The layers during training, which began in the state `s0`, `h0`. -/
structure Core (s0 : Mann) (h0 : Heap ℝ) (o : Top) (us : List Lay) (s : Mann) (h : Heap ℝ) (l : MultiOutputLayer) (N : MNet k us c) : Prop where
  wf : h.WF
  hidden : LayersAre h us N.1 s.network
  el : s.output_layer = some l
  out : MultiIs h l o N.2
  nw : l.weights ∉ written s.network
  nodup : (written s.network).Nodup
  same : s = { s0 with network := s.network, output_layer := s.output_layer, y_hat := s.y_hat }
  keeps : Keeps h0 h (fun c => some c ∈ written s0.network)
  olds : ∀ q ∈ written s.network, q ∈ written s0.network ∨ NotIn h0 q

theorem Core.frameM {s0 s : Mann} {h0 h : Heap ℝ} {l : MultiOutputLayer} (C : Core s0 h0 o us s h l N) {a : Ref} {p q : Nat} {A : Matrix (Fin p) (Fin q) ℝ}
    (ha : HasM h0 a A) (na : a ∉ written s0.network) : HasM h a A ∧ a ∉ written s.network := by
  refine ⟨ha.keep C.keeps fun c e hc => na (e ▸ hc), fun hm => ?_⟩
  rcases C.olds a hm with q | q
  · exact na q
  · exact q.ne_mat ha rfl

theorem core_of {s : Mann} {h : Heap ℝ} (R : MannReady s h o us X Y N) : ∃ l, Core s h o us s h l N := by
  obtain ⟨l, el, O, nw⟩ := R.top
  exact ⟨l, R.wf, R.hidden, el, O, nw, (List.nodup_cons.1 R.apart).2, rfl, Keeps.refl _ _, fun q hq => Or.inl hq⟩

theorem Core.ready {s0 s : Mann} {h0 h : Heap ℝ} {l : MultiOutputLayer} (C : Core s0 h0 o us s h l N) {N0 : MNet k us c} (R0 : MannReady s0 h0 o us X Y N0) :
    MannReady s h o us X Y N := by
  obtain ⟨a1, a2⟩ := C.frameM R0.input_set (List.nodup_cons.1 R0.apart).1
  obtain ⟨b1, b2⟩ := C.frameM R0.output_set R0.apart'
  have e1 : s.input_set = s0.input_set := by rw [C.same]
  have e2 : s.output_set = s0.output_set := by rw [C.same]
  have e3 : s.n = s0.n := by rw [C.same]
  have e4 : s.initialized = s0.initialized := by rw [C.same]
  exact ⟨C.wf, e3.trans R0.samples, e4.trans R0.init, e1 ▸ a1, e2 ▸ b1, C.hidden, ⟨l, C.el, C.out, C.nw⟩, List.nodup_cons.2 ⟨e1 ▸ a2, C.nodup⟩, e2 ▸ b2⟩

theorem core_pass (g : Draws) {s0 s : Mann} {h0 h : Heap ℝ} {l : MultiOutputLayer} (C : Core s0 h0 o us s h l N) (hu : ∀ u ∈ us, u.Works) (ho : o.WorksM)
    {x : Ref} {X : Matrix (Fin m) (Fin k) ℝ} (hx : HasM h x X) (nx : x ∉ written s.network) :
    Runs (pass g s x) h fun r h' => ∃ l', r.2 = l'.a ∧ Passed h' r.1.network l' o us X (mredrawn g us N) ∧
      ∀ yh, Core s0 h0 o us { r.1 with y_hat := yh } h' l' (mredrawn g us N) := by
  refine (pass_run g C.wf C.hidden C.el C.out C.nw hx (List.nodup_cons.2 ⟨nx, C.nodup⟩) hu ho).mono fun r h1 ⟨ls, l', e, K1, S1, ew, P⟩ => ?_
  obtain ⟨sw, sb, -, -⟩ := same_written S1
  subst e
  refine ⟨l', rfl, P, fun yh => ⟨P.wf, P.hidden, rfl, P.out, ?_, ?_, ?_, ?_, ?_⟩⟩
  · show l'.weights ∉ written ls
    rw [sw, ew]; exact C.nw
  · show (written ls).Nodup
    rw [sw]; exact C.nodup
  · rw [C.same]
  · refine ⟨C.keeps.1.trans K1.1, fun q lq nq => ?_⟩
    have a := C.keeps.2 q lq nq
    have : some q ∉ written s.network := fun hm => by
      rcases C.olds _ hm with b | b
      · exact nq b
      · exact b q rfl lq
    have b := K1.2 q (C.keeps.live lq) this
    exact ⟨b.1.trans a.1, b.2.trans a.2⟩
  · show ∀ q ∈ written ls, _
    rw [sw]; exact C.olds

theorem forward_core (g : Draws) {s0 s : Mann} {h0 h : Heap ℝ} {l : MultiOutputLayer} (C : Core s0 h0 o us s h l N) {N0 : MNet k us c}
    (R0 : MannReady s0 h0 o us X Y N0) (hu : ∀ u ∈ us, u.Works) (ho : o.WorksM) :
    Runs (forward_pass g s) h fun s' h' => ∃ l', Core s0 h0 o us s' h' l' (mredrawn g us N) ∧ Passed h' s'.network l' o us X (mredrawn g us N) ∧ s'.y_hat = l'.a := by
  have R := C.ready R0
  unfold forward_pass
  refine Runs.bind ((core_pass g C hu ho R.input_set (List.nodup_cons.1 R.apart).1).mono fun r h1 ⟨l', e, P, D⟩ => ?_)
  exact Runs.of_eq rfl ⟨l', D _, P, e⟩

theorem Core.trained {s0 s : Mann} {h0 h : Heap ℝ} {l : MultiOutputLayer} (C : Core s0 h0 o us s h l N) {N0 : MNet k us c} (R0 : MannReady s0 h0 o us X Y N0)
    (P : Passed h s.network l o us X N) (e : s.y_hat = l.a) : MannTrained s0 h0 s h o us X Y N :=
  ⟨C.ready R0, e ▸ P.a, C.same, P.init, C.keeps⟩

theorem body_run (fuel : Nat) (g : Nat → Draws) {s0 s : Mann} {h0 h : Heap ℝ} {l : MultiOutputLayer} (C : Core s0 h0 o us s h l N) {N0 : MNet k us c}
    (R0 : MannReady s0 h0 o us X Y N0) (P : Passed h s.network l o us X N) (ey : s.y_hat = l.a) (hl : us.length ≤ 1) (hu : ∀ u ∈ us, u.Works) (ho : o.WorksM)
    (lr : ℝ) (e : Nat) :
    Runs (gdBody fuel g lr e s) h fun s' h' => ∃ l', Core s0 h0 o us s' h' l' (mredrawn (g e) us (mstep o us (lr / n) X Y N)) ∧
      Passed h' s'.network l' o us X (mredrawn (g e) us (mstep o us (lr / n) X Y N)) ∧ s'.y_hat = l'.a := by
  have R := C.ready R0
  have hy : HasM h s.y_hat (fun i => mnetAt o us N (X i)) := ey ▸ P.a
  unfold gdBody
  obtain ⟨x, ex⟩ := cost_ok C.wf C.hidden C.el C.out hy R.output_set
  refine Runs.step ex ?_
  have eo : output s h = .ok (l, h) := by unfold output; rw [C.el]; rfl
  refine Runs.step eo ?_
  have en : lr / (s.n : ℝ) = lr / (n : ℝ) := by rw [R.samples]
  rw [en]
  refine Runs.bind ((stepOut_run fuel P ho hy R.output_set (lr / n)).mono fun l1 h1 ⟨w1, K1, n1, e1, d1, O1⟩ => ?_)
  refine Runs.bind ((layersStep_run fuel w1 us hl (Ann.LayersAre.keep K1 us C.hidden fun _ _ _ _ _ _ => id) (Fed.keep K1 us P.fed) d1 O1.weights hu C.nodup (lr / n)).mono
    fun ls h2 ⟨w2, K2, L2, nd2, o2⟩ => ?_)
  have K := K1.trans K2
  have fr : ∀ q, NotIn h q → NotIn h0 q := fun q a c e hc => a c e (C.keeps.live hc)
  have C2 : Core s0 h0 o us { s with network := ls, output_layer := some l1 } h2 l1 (mstep o us (lr / n) X Y N) := by
    refine ⟨w2, L2, rfl, ?_, ?_, nd2, ?_, C.keeps.trans (K.mono fun _ _ => False.elim), ?_⟩
    · exact ⟨O1.act, O1.cost, O1.reg, O1.lambda, O1.alpha, O1.weights.keep K2 fun _ _ => id, O1.bias.keep K2 fun _ _ => id⟩
    · intro hm
      rcases o2 _ hm with a | a
      · exact notin_written C.hidden n1 a
      · exact a.ne_mat O1.weights rfl
    · rw [C.same]
    · intro q hq
      rcases o2 q hq with a | a
      · exact C.olds q a
      · exact Or.inr (fr _ (a.mono K1))
  exact forward_core (g e) C2 R0 hu ho

theorem gd_run (fuel : Nat) (g : Nat → Draws) {s : Mann} {h : Heap ℝ} (R : MannReady s h o us X Y N) (hl : us.length ≤ 1) (hu : ∀ u ∈ us, u.Works) (ho : o.WorksM)
    (lr : ℝ) (e : Int) :
    Runs (gradient_descent fuel g s lr e) h fun s' h' => MannTrained s h s' h' o us X Y
      (walk (fun i N => mredrawn (g (i + 1)) us (mstep o us (lr / n) X Y N)) (mredrawn (g 0) us N) (epochCount e)) := by
  obtain ⟨l, C⟩ := core_of R
  unfold gradient_descent
  rw [if_pos R.init]
  refine Runs.bind ((forward_core (g 0) C R hu ho).mono fun s1 h1 ⟨l1, C1, P1, y1⟩ => ?_)
  obtain ⟨F, hF⟩ : ∃ F, F = walk (fun i N => mredrawn (g (i + 1)) us (mstep o us (lr / n) X Y N)) (mredrawn (g 0) us N) := ⟨_, rfl⟩
  have F0 : F 0 = mredrawn (g 0) us N := by rw [hF]; rfl
  have FS : ∀ i, F (i + 1) = mredrawn (g (i + 1)) us (mstep o us (lr / n) X Y (F i)) := fun i => by rw [hF]; rfl
  rw [← hF]
  refine Runs.mono (Runs.foldN (epochCount e) (fun i s' h' => ∃ l', Core s h o us s' h' l' (F i) ∧ Passed h' s'.network l' o us X (F i) ∧ s'.y_hat = l'.a) _ s1 h1
    ⟨l1, F0 ▸ C1, F0 ▸ P1, y1⟩ ?_) fun s' h' ⟨l', C', P', y'⟩ => C'.trained R P' y'
  intro i s2 h2 hi ⟨l2, C2, P2, y2⟩
  rw [FS]
  exact body_run fuel g C2 R P2 y2 hl hu ho lr (i + 1)

end Mann
end Verif
