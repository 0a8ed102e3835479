import Verif.Lemmas.AnnTrain
import Verif.Props.Layers
import Verif.Props.GlmStochastic

/-!
# C106–C108: networks of any depth, `MLPPANN`

`Net k us` are the parameters of a network with `k` inputs and hidden layers `us`, `netAt` its output at one input (Spec/Ann.lean).
-/

namespace Verif
open Spec Finset Glm
variable {n k m : Nat} {h : Heap ℝ} {s : Ann} {o : Top} {us : List Lay} {X : Matrix (Fin n) (Fin k) ℝ} {y : Fin n → ℝ} {N : Net k us}

/-! ## C106: building and predictions -/

/-- C106 (one input): `model_test(x)` answers with the output of the network at `x`; nothing that existed changes. Missing: hidden layers with
adj_softmax, if their values do not fit into `int` (see C44). -/
theorem C106_test_partial (g : Ann.Draws) (R : AnnReady s h o us X y N) (hs : Settled s) {x : Ref} {v : Fin k → ℝ}
    (hx : HasV h x v) (hu : allFit us N.1 v) :
    Runs (Ann.model_test g s x) h fun r h' => r.2 = netAt o us N v ∧ h'.WF ∧ Keeps h h' (fun _ => False) := by
  obtain ⟨l, el, O, -⟩ := R.top
  unfold Ann.model_test
  refine Runs.bind ((Ann.layersTest_run g us 0 R.wf R.hidden hs.1 hx hu).mono fun r h1 ⟨w1, K1, _, a1⟩ => ?_)
  have e : Ann.output s h1 = .ok (l, h1) := by unfold Ann.output; rw [el]; rfl
  refine Runs.step e ?_
  unfold OutputLayer.test
  have hi := hs.2 l el
  simp only [bind_assoc]
  refine Runs.step (OutputLayer.init_skip _ _ hi h1) ?_
  refine Runs.step (Hd.dot_run w1 (O.weights.keep K1 fun _ _ => id) a1) ?_
  refine Runs.of_eq rfl ⟨?_, w1, K1⟩
  show Activation.normReal l.activation _ = _
  unfold netAt
  rw [O.act, O.bias]
  congr 2
  exact Finset.sum_congr rfl fun j _ => mul_comm _ _

/-- C106 (many inputs: false): `model_set_test(A)` draws new weights for all layers first: it answers with, and leaves behind, another network. -/
theorem C106_set_test_fails (g : Ann.Draws) (R : AnnReady s h o us X y N) (hu : ∀ u ∈ us, u.Works) (ho : o.Works) {x : Ref}
    {A : Matrix (Fin m) (Fin k) ℝ} (hx : HasM h x A) (nx : x ∉ written s.network) :
    Runs (Ann.model_set_test g s x) h fun r h' => AnnReady r.1 h' o us X y (redrawn g o us N) ∧ Settled r.1 ∧
      HasV h' r.2 (fun i => netAt o us (redrawn g o us N) (A i)) := by
  obtain ⟨l, C, -, -⟩ := Ann.core_of R
  refine (Ann.set_core g C hx nx hu ho).mono fun r h1 ⟨l1, C1, P1, e1⟩ => ⟨C1.ready R, ⟨P1.init.1, fun l' e' => ?_⟩, e1 ▸ P1.a⟩
  rw [C1.el] at e'
  cases e'
  exact P1.init.2

/-- C106 (no output layer: false): without an output layer every prediction and every training method dereferences null. -/
theorem C106_no_output_fails (g : Ann.Draws) (hs : s.network = []) (ho : s.output_layer = none) (x : Ref) (fuel : Nat) (gs : Nat → Ann.Draws) (lr : ℝ) (e : Int) :
    Ann.model_set_test g s x h = .ub ∧ Ann.model_test g s x h = .ub ∧ Ann.gradient_descent fuel gs s lr e h = .ub := by
  have e1 : ∀ (f : OutputLayer → M ℝ (Ann × Ref)), (Ann.output s >>= f) h = .ub := fun f => by
    unfold Ann.output; rw [ho]; rfl
  have e2 : ∀ (f : OutputLayer → M ℝ (Ann × ℝ)), (Ann.output s >>= f) h = .ub := fun f => by
    unfold Ann.output; rw [ho]; rfl
  have e3 : ∀ (f : OutputLayer → M ℝ Ann), (Ann.output s >>= f) h = .ub := fun f => by
    unfold Ann.output; rw [ho]; rfl
  refine ⟨?_, ?_, bind_ub ?_⟩
  · unfold Ann.model_set_test; rw [hs]; exact e1 _
  · unfold Ann.model_test; rw [hs]; exact e2 _
  · unfold Ann.forward_pass; rw [hs]; exact e3 _

/-- C106 (constructor): a new network has no layers. -/
theorem C106_create (w : h.WF) {a b : Ref} (ha : HasM h a X) (hb : HasV h b y) :
    Runs (Ann.create a b) h fun s h' => h' = h ∧ AnnBuilt s h' [] X y () ∧ s.input_set = a ∧ s.output_set = b ∧ s.network = [] ∧
      s.output_layer = none ∧ s.lr_scheduler = .none := by
  unfold Ann.create
  refine Runs.step (Hd.sizem_run ha) ?_
  exact Runs.of_eq rfl ⟨rfl, ⟨w, rfl, rfl, ha, hb, rfl, ha, rfl, by simp [written], by simp [written], by simp⟩, rfl, rfl, rfl, rfl, rfl⟩

theorem through_snoc (P : (q : Nat) → Matrix (Fin n) (Fin q) ℝ → Prop) (u : Lay) : ∀ (us : List Lay) {k : Nat} (H : Hiddens k us) (θ : MParams (width k us) u.units)
    (X : Matrix (Fin n) (Fin k) ℝ), P u.units (layerOut u.act (fun i => through us H (X i)) θ) →
    P (width k (us ++ [u])) (fun i => through (us ++ [u]) (snoc us H u θ) (X i))
  | [], _, _, _, _, h => h
  | _ :: us, _, H, θ, X, h => through_snoc P u us H.2 θ (fun i => applied _ fun a => ∑ j, X i j * H.1.1 j a + H.1.2 a) h

theorem layers_snoc {h h' : Heap ℝ} (K : Keeps h h' (fun _ => False)) (l : HiddenLayer) (u : Lay) : ∀ (us : List Lay) {k : Nat} {H : Hiddens k us}
    {θ : MParams (width k us) u.units} {ls : List HiddenLayer}, LayersAre h us H ls → LayerIs h' l u θ → LayersAre h' (us ++ [u]) (snoc us H u θ) (ls ++ [l])
  | [], _, _, _, _, L, L' => by cases L; exact ⟨l, [], rfl, L', rfl⟩
  | _ :: us, _, H, θ, _, L, L' => by
    obtain ⟨l1, ls, rfl, L1, L2⟩ := L
    exact ⟨l1, ls ++ [l], rfl, Ann.LayerIs.keep L1 K fun _ _ _ _ => id, layers_snoc K l u us L2 L'⟩

theorem lastOut_append (l : HiddenLayer) : ∀ (x : Ref) (ls : List HiddenLayer), Ann.lastOut x (ls ++ [l]) = l.a
  | _, [] => rfl
  | _, l' :: ls => lastOut_append l l'.a ls

theorem lastUnits_append (l : HiddenLayer) : ∀ (x : Nat) (ls : List HiddenLayer), Ann.lastUnits x (ls ++ [l]) = l.n_hidden
  | _, [] => rfl
  | _, l' :: ls => lastUnits_append l l'.n_hidden ls

theorem width_append (u : Lay) : ∀ (us : List Lay) (k : Nat), width k (us ++ [u]) = u.units
  | [], _ => rfl
  | u' :: us, _ => width_append u us u'.units

/-- C106 (hidden layers): `add_layer` puts a layer with drawn weights behind the others, and leaves these and all else as it is. Nothing is said about
its biases: they are never written (see C64). -/
theorem C106_add_layer_partial (gw gb : Utilities.Source) {H : Hiddens k us} (B : AnnBuilt s h us X y H) (u : Lay) (hu : u.Works) :
    Runs (Ann.add_layer gw gb s u.units u.act u.init u.reg u.lambda u.alpha) h fun s' h' => Keeps h h' (fun _ => False) ∧
      s' = { s with network := s'.network } ∧ ∃ b : Fin u.units → ℝ, AnnBuilt s' h' (us ++ [u]) X y (snoc us H u (drawnM gw u.init (width k us) u.units, b)) := by
  unfold Ann.add_layer
  refine Runs.bind ((C103_create_partial gw gb B.wf B.last u.act u.init hu.2 u.reg u.lambda u.alpha).mono
    fun l h1 ⟨b, R1, K1, i1, e1, e2, e3, e4, e5, e6, f1⟩ => ?_)
  refine Runs.bind ((HiddenLayer.forward_run gw gb R1 i1 (e2 ▸ Ann.works_forward hu)).mono fun l2 h2 ⟨q2, K2, n2, R2, z2, a2⟩ => ?_)
  have fz : NotIn h l.z := f1 _ (by simp)
  have fw : NotIn h l.weights := f1 _ (by simp)
  have K : Keeps h h2 (fun _ => False) := K1.wr_new K2 fz
  have qz : l2.z = l.z := by rw [q2]
  have qw : l2.weights = l.weights := by rw [q2]
  have hz : HasM h2 l2.z _ := qz ▸ z2
  have nz : l2.z ≠ l2.weights := by
    have := R2.apart
    simp only [List.nodup_cons, List.mem_cons, not_or] at this
    exact this.1.1
  have ew : written (s.network ++ [l2]) = written s.network ++ [l2.z, l2.weights] := by simp [written]
  have na : NotIn h l2.a := n2.mono K1
  have L : LayerIs h2 l2 u (drawnM gw u.init (width k us) u.units, b) := by
    refine ⟨R2.units, ?_, ?_, ?_, ?_, ?_, R2.weights, R2.bias, R2.z⟩
    · rw [q2]; exact e2
    · rw [q2]; exact e3
    · rw [q2]; exact e4
    · rw [q2]; exact e5
    · rw [q2]; exact e6
  have az : l2.a ≠ l2.z := by rw [qz]; exact (n2.ne_mat (R1.z.choose_spec.choose_spec.choose_spec))
  have aw : l2.a ≠ l2.weights := by rw [qw]; exact n2.ne_mat R1.weights
  refine Runs.of_eq rfl ⟨K, rfl, b, ⟨R2.wf, B.samples, B.inputs, B.input_set.keep K fun _ _ => id, B.output_set.keep K fun _ _ => id,
    layers_snoc K l2 u us B.hidden L, ?_, ?_, ?_, ?_, ?_⟩⟩
  · show HasM h2 (Ann.lastOut s.input_set (s.network ++ [l2])) _
    rw [lastOut_append]
    refine through_snoc (fun q A => HasM h2 l2.a A) u us H _ X ?_
    rw [e2] at a2
    exact a2
  · show Ann.lastUnits s.k (s.network ++ [l2]) = _
    rw [lastUnits_append, width_append, R2.units]
  · show (s.input_set :: written (s.network ++ [l2])).Nodup
    rw [ew]
    have d := B.apart
    have d' : ((s.input_set :: written s.network) ++ [l2.z, l2.weights]).Nodup := by
      refine List.Nodup.append d (by simp [nz]) ?_
      intro r hr hr'
      have hr' : r = l2.z ∨ r = l2.weights := by simpa using hr'
      have fr : NotIn h r := by rcases hr' with rfl | rfl; · exact qz ▸ fz
                                · exact qw ▸ fw
      rcases List.mem_cons.1 hr with rfl | hr
      · exact fr.ne_mat B.input_set rfl
      · exact Ann.notin_written B.hidden fr hr
    exact d'
  · show Ann.lastOut s.input_set (s.network ++ [l2]) ∉ written (s.network ++ [l2])
    rw [lastOut_append, ew, List.mem_append]
    rintro (hr | hr)
    · exact Ann.notin_written B.hidden na hr
    · simp only [List.mem_cons, List.not_mem_nil, or_false] at hr
      exact hr.elim az aw
  · show ∀ l ∈ s.network ++ [l2], _
    intro l' hl
    rcases List.mem_append.1 hl with hl | hl
    · exact B.settled l' hl
    · simp only [List.mem_cons, List.not_mem_nil, or_false] at hl
      rw [hl, q2]; exact i1

/-- C106 (output layer): with `add_output_layer`, whose weights and bias are drawn, the network is complete. -/
theorem C106_add_output_layer (gw gb : Utilities.Source) {H : Hiddens k us} (B : AnnBuilt s h us X y H) (o : Top) :
    Runs (Ann.add_output_layer gw gb s o.act o.cost o.init o.reg o.lambda o.alpha) h fun s' h' => Keeps h h' (fun _ => False) ∧
      s' = { s with output_layer := s'.output_layer } ∧ AnnReady s' h' o us X y (H, (drawnV gw o.init (width k us), gb.u 0)) ∧ Settled s' := by
  unfold Ann.add_output_layer
  rw [B.units]
  refine Runs.bind ((C104_create gw gb B.wf B.last o.act o.cost o.init o.reg o.lambda o.alpha).mono
    fun l h1 ⟨R1, K1, i1, e1, e2, e3, e4, e5, e6, e7, f1, _, _⟩ => ?_)
  refine Runs.of_eq rfl ⟨K1, rfl, ⟨R1.wf, B.samples, B.inputs, B.input_set.keep K1 fun _ _ => id, B.output_set.keep K1 fun _ _ => id,
    Ann.LayersAre.keep K1 us B.hidden fun _ _ _ _ _ _ => id, ⟨l, rfl, ⟨R1.units, e2, e3, e4, e5, e6, e7, R1.weights, R1.bias⟩, ?_⟩, B.apart⟩,
    ⟨B.settled, fun l' e => by cases e; exact i1⟩⟩
  show l.weights ∉ s.output_set :: s.network.map (·.bias)
  rw [List.mem_cons, not_or]
  refine ⟨f1.ne B.output_set, fun hm => ?_⟩
  obtain ⟨l', hl, e⟩ := List.mem_map.1 hm
  obtain ⟨p, v, hv⟩ := Ann.bias_of us B.hidden l' hl
  exact f1.ne hv e.symm

/-! ## C107: training -/

theorem descends_step (hu : ∀ u ∈ us, u.Works) (ho : o.Works) (X : Matrix (Fin n) (Fin k) ℝ) (y : Fin n → ℝ) (c : ℝ) (N : Net k us) :
    Spec.Descends o us X y c N (Ann.stepN c us N (Ann.grads o us X y N)) :=
  ⟨_, fun hs => Ann.objective_gradient hs hu ho, Ann.stepN_move c N _⟩

/-- C107 (gradient descent, as far as it holds): every epoch is an exact step of gradient descent on the objective, of the size `rate / n` for the
rate of that epoch, for networks of any depth and any working activation functions and losses. But before the next epoch all weights are drawn
again (`redrawn`). The object shows the predictions of the last parameters. -/
theorem C107_gradient_descent_partial (fuel : Nat) (g : Nat → Ann.Draws) (R : AnnReady s h o us X y N) (hu : ∀ u ∈ us, u.Works) (ho : o.Works)
    (lr : ℝ) (e : Int) (hr : RateOk s (epochCount e)) :
    Runs (Ann.gradient_descent fuel g s lr e) h fun s' h' => ∃ N' : Net k us, AnnTrained s h s' h' o us X y N' ∧
      Chain (fun ep N N' => ∃ M, Spec.Descends o us X y (rateAt s lr (ep + 1) / n) N M ∧ N' = redrawn (g (ep + 1)) o us M) (epochCount e)
        (redrawn (g 0) o us N) N' :=
  (Ann.gd_run fuel g R hu ho lr e hr).mono fun s' h' T => ⟨_, T, chain_walk (fun ep N => ⟨_, descends_step hu ho X y _ N, rfl⟩) _ _⟩

/-- C107 (gradient descent: false): what has been learned is lost: after training all weights, and the bias of the output, are random numbers drawn in
the last pass; only the biases of hidden layers remain. -/
theorem C107_gradient_descent_fails (fuel : Nat) (g : Nat → Ann.Draws) (R : AnnReady s h o us X y N) (hu : ∀ u ∈ us, u.Works) (ho : o.Works)
    (lr : ℝ) (e : Int) (hr : RateOk s (epochCount e)) :
    Runs (Ann.gradient_descent fuel g s lr e) h fun s' h' => ∃ M : Net k us, AnnTrained s h s' h' o us X y (redrawn (g (epochCount e)) o us M) := by
  refine (Ann.gd_run fuel g R hu ho lr e hr).mono fun s' h' T => ?_
  obtain ⟨E, eE⟩ : ∃ E, epochCount e = E + 1 := ⟨epochCount e - 1, by unfold epochCount; omega⟩
  rw [eE] at T ⊢
  exact ⟨_, T⟩

/-- C107 (gradient descent: false): without hidden layers nothing at all remains: the result is the same for all outputs `y`, learning rates and
previous weights. -/
theorem C107_nothing_learned_fails (fuel : Nat) (g : Nat → Ann.Draws) {N : Net k []} (R : AnnReady s h o [] X y N) (ho : o.Works)
    (lr : ℝ) (e : Int) (hr : RateOk s (epochCount e)) :
    Runs (Ann.gradient_descent fuel g s lr e) h fun s' h' =>
      AnnTrained s h s' h' o [] X y (((), (drawnV (g (epochCount e) 0).1 o.init k, (g (epochCount e) 0).2.u 0)) : Net k []) :=
  (C107_gradient_descent_fails fuel g R (by simp) ho lr e hr).mono fun _ _ ⟨_, T⟩ => T

/-- C107 (mini-batches, as far as it holds): the steps of `mbgd` are steps of gradient descent on the consecutive mini-batches of the inputs, with the
outputs of the first samples (see C61) and divided by the number of all samples; weights are drawn again before and after every step. -/
theorem C107_mbgd_partial (fuel : Nat) (g : Nat → Nat → Ann.Draws × Ann.Draws) (last : Ann.Draws) (R : AnnReady s h o us X y N) (hu : ∀ u ∈ us, u.Works)
    (ho : o.Works) (lr : ℝ) (e : Int) (hr : RateOk s (epochCount e)) {b K : Nat} (hb : 0 < b) (eK : n / b = K) (hK : 0 < K) :
    Runs (Ann.mbgd fuel g last s lr e b) h fun s' h' => ∃ N' : Net k us, AnnTrained s h s' h' o us X y (redrawn last o us N') ∧
      Rounds hK (fun ep i N N' => ∃ M, Spec.Descends o us (batchX X K i) (firstY y K) (rateAt s lr ep / n) (redrawn (g ep i).1 o us N) M ∧
        N' = redrawn (g ep i).2 o us M) (epochCount e) N N' :=
  (Ann.mbgd_run fuel g last R hu ho lr e hr hb eK hK).mono fun s' h' T => ⟨_, T, rounds_walk hK (fun ep i N =>
    ⟨_, descends_step hu ho (batchX X K i) (firstY y K) _ _, rfl⟩) _ _⟩

/-- C107 (mini-batches: false): a batch size of 0 is a division by zero. -/
theorem C107_batch_size_fails (fuel : Nat) (g : Nat → Nat → Ann.Draws × Ann.Draws) (last : Ann.Draws) (s : Ann) (lr : ℝ) (e : Int) :
    Ann.mbgd fuel g last s lr e 0 h = .ub := by
  unfold Ann.mbgd
  rw [if_pos rfl]
  rfl

theorem layers_tested : ∀ (us : List Lay) {k : Nat} {H : Hiddens k us} {ls ls' : List HiddenLayer}, LayersAre h us H ls →
    List.Forall₂ (fun l l' : HiddenLayer => l' = { l with z_test := l'.z_test, a_test := l'.a_test }) ls ls' → LayersAre h us H ls'
  | [], _, _, _, _, L, S => by cases L; cases S; rfl
  | u :: us, _, H, _, _, L, S => by
    obtain ⟨l, ls, rfl, L1, L2⟩ := L
    obtain ⟨l', ls', e, S', rfl⟩ := List.forall₂_cons_left_iff.1 S
    refine ⟨l', ls', rfl, ?_, layers_tested us L2 S'⟩
    rw [e]
    exact ⟨L1.units, L1.act, L1.init, L1.reg, L1.lambda, L1.alpha, L1.weights, L1.bias, L1.z⟩

theorem mult_vec_null {a : Ref} {A : Matrix (Fin n) (Fin k) ℝ} (ha : HasM h a A) : Hd.mult_vec a none h = .ok (none, h) := by
  obtain ⟨x, rfl, -, -⟩ := ha
  rfl

theorem step_mismatch (fuel : Nat) (w : h.WF) {s : Ann} {l : OutputLayer} (L : LayersAre h us N.1 s.network) (el : s.output_layer = some l)
    (O : OutputIs h l o N.2) (ho : o.Works) {yh b : Ref} {p y : Fin m → ℝ} (hy : HasV h yh p) (hb : HasV h b y) {r p' q : Nat} {z : Fin r → ℝ}
    (hz : HasV h l.z z) (ne : m ≠ r) {A : Matrix (Fin p') (Fin q) ℝ} (hA : HasM h l.input A) (lr : ℝ) : Ann.step fuel s yh b lr h = .ub := by
  unfold Ann.step
  obtain ⟨x, ex⟩ := Ann.cost_ok w L el O hy hb
  refine ub_step ex (bind_ub ?_)
  unfold Ann.compute_gradients
  have e : Ann.output s h = .ok (l, h) := by unfold Ann.output; rw [el]; rfl
  refine ub_step e (bind_ub ?_)
  unfold Ann.gradientOut
  rw [O.cost, O.act]
  have hw := O.weights
  refine ub_stepV (Ann.lossDeriv_run ho.2 w hy hb) fun c h1 w1 k1 f1 uc => ?_
  nw f1 k1
  refine ub_stepV (Hd.lifts_vec (Ann.works_top ho) w1 hz) fun f h2 w2 k2 f2 uf => ?_
  nw f2 k2
  have en : Hd.hadamard_productn c f h2 = .ok (none, h2) := by
    obtain ⟨x, rfl, lx, hx⟩ := uc
    obtain ⟨t, rfl, lt, ht⟩ := uf
    unfold Hd.hadamard_productn
    rw [bind_ok (derefV_run x h2)]
    refine binN_mismatch _ _ _ h2 ?_
    rw [hx.1, ht.1]
    intro e
    exact ne (congrArg Size.x e)
  refine ub_step en ?_
  dsimp only [OutputLayer.set_delta]
  refine ub_bind (Hd.transposen_spec w2 hA).has fun t h3 ⟨w3, k3, f3, ut⟩ => ?_
  nw f3 k3
  refine ub_step (mult_vec_null ut) ?_
  refine ub_stepV (Ann.reg_deriv_v w3 hw l.lambda l.alpha l.reg) fun r h4 w4 k4 f4 ur => ?_
  rfl

theorem newV_runs (w : h.WF) : Runs (newVec : M ℝ Loc) h fun l h1 => ∃ (o : Nat) (v : Fin 0 → ℝ), l = .v o ∧ h1.WF ∧ Keeps h h1 (fun _ => False) ∧
    NotIn h (some (.v o)) ∧ HasV h1 (some (.v o)) v := by
  have := stepV0 w (c := fun l => (pure l : M ℝ Loc)) (Q := fun l h1 => ∃ (o : Nat) (v : Fin 0 → ℝ), l = .v o ∧ h1.WF ∧ Keeps h h1 (fun _ => False) ∧
    NotIn h (some (.v o)) ∧ HasV h1 (some (.v o)) v) fun o h1 v w1 k1 f1 a1 => Runs.of_eq rfl ⟨o, v, rfl, w1, k1, f1, a1⟩
  simpa only [bind_pure] using this

/-- C107 (stochastic training: false): the layers hold the values of all samples of the last pass, the step of `sgd` looks at one: if there is more
than one sample (or if there was no pass yet) the first epoch dereferences null. -/
theorem C107_sgd_fails (fuel : Nat) (g : Nat → Ann.Draws) (last : Ann.Draws) {pick : Nat → Nat} (hpick : ∀ e, pick e < n) (R : AnnReady s h o us X y N)
    (hs : Settled s) (hu : ∀ u ∈ us, u.act ≠ .adj_softmax) (ho : o.Works) {l : OutputLayer} (el : s.output_layer = some l) {p q r : Nat} {z : Fin r → ℝ}
    (hz : HasV h l.z z) (hr1 : 1 ≠ r) {A : Matrix (Fin p) (Fin q) ℝ} (hA : HasM h l.input A) (lr : ℝ) (e : Int) (hr : RateOk s 1) :
    Ann.sgd fuel g last pick s lr e h = .ub := by
  obtain ⟨l', el', O, -⟩ := R.top
  rw [el] at el'
  cases el'
  have w := R.wf
  unfold Ann.sgd
  have hX := R.input_set
  have hy := R.output_set
  have hw := O.weights
  refine ub_bind (newV_runs w) fun _ h1 ⟨o1, v1, e1, w1, k1, f1, a1⟩ => ?_
  subst e1
  have K1 := k1
  have g1 := f1
  nw f1 k1
  refine ub_step (Hd.sizem_run hX) ?_
  refine ub_bind (Hd.resizev_run w1 a1 k) fun _ h2 ⟨w2, k2, u1, a1'⟩ => ?_
  have K2 := K1.wr_new k2 g1
  wr k2
  refine ub_bind (newV_runs w2) fun _ h3 ⟨o2, v2, e2, w3, k3, f3, a2⟩ => ?_
  subst e2
  have g2 := f3.mono K2
  have K3 := K2.trans k3
  nw f3 k3
  refine ub_bind (Hd.resizev_run w3 a2 1) fun _ h4 ⟨w4, k4, u2, a2'⟩ => ?_
  have K4 := K3.wr_new k4 g2
  wr k4
  refine ub_bind (newV_runs w4) fun _ h5 ⟨o3, v3, e3, w5, k5, f5, a3⟩ => ?_
  subst e3
  have g3 := f5.mono K4
  have K5 := K4.trans k5
  nw f5 k5
  refine ub_bind (Hd.resizev_run w5 a3 1) fun _ h6 ⟨w6, k6, u3, a3'⟩ => ?_
  have K6 := K5.wr_new k6 g3
  wr k6
  refine bind_ub (epochs_ub _ _ _ ?_)
  unfold Ann.sgdBody
  refine ub_step (Ann.rate_run hr (Nat.le_refl 1) lr h6) ?_
  refine ub_bind (Hd.row_get_into_run w6 hX a1' ⟨pick 1, hpick 1⟩) fun _ h7 ⟨w7, k7, a1''⟩ => ?_
  have K7 := K6.wr_new k7 g1
  wr k7
  refine ub_step (Hd.element_get_run w7 hy ⟨pick 1, hpick 1⟩) ?_
  refine ub_bind (Hd.element_set_run w7 a3' 0 _) fun _ h8 ⟨w8, k8, a3''⟩ => ?_
  have K8 := K7.wr_new k8 g3
  wr k8
  have L8 := Ann.LayersAre.keep K8 us R.hidden fun _ _ _ _ _ _ => id
  unfold Ann.model_test
  simp only [bind_assoc]
  refine ub_bind (Ann.layersTest_run (g (2 * 1)) us 0 w8 L8 hs.1 a1'' (Ann.allFit_of us hu)) fun r h9 ⟨w9, K9, S9, a9⟩ => ?_
  have e9 : Ann.output s h9 = .ok (l, h9) := by unfold Ann.output; rw [el]; rfl
  refine ub_step e9 ?_
  have b9 := a9
  adv K9
  unfold OutputLayer.test
  simp only [bind_assoc]
  refine ub_step (OutputLayer.init_skip _ _ (hs.2 l el) h9) ?_
  refine ub_step (Hd.dot_run w9 hw b9) ?_
  simp only [pure_bind]
  refine ub_bind (Hd.element_set_run w9 a2' 0 _) fun _ h10 ⟨w10, k10, a2''⟩ => ?_
  have K10 := K8.wr_new k10 g2
  wr k10
  refine bind_ub ?_
  obtain ⟨zt, ezt⟩ : ∃ zt : ℝ, zt = ∑ i, N.2.1 i * through us N.1 (X ⟨pick 1, hpick 1⟩) i + l.bias := ⟨_, rfl⟩
  rw [← ezt]
  obtain ⟨l', el'⟩ : ∃ l' : OutputLayer, l' = { l with z_test := zt, a_test := Activation.normReal l.activation zt } := ⟨_, rfl⟩
  refine step_mismatch (l := l') (N := N) (o := o) (us := us) fuel w10 (layers_tested us (Ann.LayersAre.keep K10 us R.hidden fun _ _ _ _ _ _ => id) S9) (by rw [el'])
    (by rw [el']; exact ⟨O.units, O.act, O.cost, O.init, O.reg, O.lambda, O.alpha, hw, O.bias⟩) ho a2'' a3'' (z := z) (by rw [el']; exact hz) hr1
    (A := A) (by rw [el']; exact hA) _

/-! ## C108: learning rates -/

/-- C108: after `set_learning_rate_scheduler` the rate of epoch `e` follows the schedule with that decay. -/
theorem C108_schedules (s : Ann) (c rate : ℝ) (e : Nat) (h : Heap ℝ) :
    (∀ s', s' = Ann.set_learning_rate_scheduler s .none c → Ann.apply_learning_rate_scheduler s' rate s'.decay_constant e s'.drop_rate h = .ok (rate, h)) ∧
    (∀ s', s' = Ann.set_learning_rate_scheduler s .time c → Ann.apply_learning_rate_scheduler s' rate s'.decay_constant e s'.drop_rate h =
      .ok (rate / (1 + c * e), h)) ∧
    (∀ s', s' = Ann.set_learning_rate_scheduler s .epoch c → Ann.apply_learning_rate_scheduler s' rate s'.decay_constant e s'.drop_rate h =
      .ok (rate * c / Real.sqrt e, h)) ∧
    ∀ s', s' = Ann.set_learning_rate_scheduler s .exponential c → Ann.apply_learning_rate_scheduler s' rate s'.decay_constant e s'.drop_rate h =
      .ok (rate * Real.exp (-(c * e)), h) := by
  refine ⟨?_, ?_, ?_, ?_⟩ <;> (rintro s' rfl; exact Ann.rate_run (E := e) (fun q => by cases q) le_rfl rate h)

/-- C108: a step schedule multiplies the rate by the decay once in `d` epochs, as long as the number of drops is an `int`. -/
theorem C108_steps_partial (s : Ann) (c d rate : ℝ) (e : Nat) (h : Heap ℝ) (hd : 0 < d) (hi : (1 + e) / d < 2147483648) :
    ∀ s', s' = Ann.set_learning_rate_scheduler_drop s .step c d → Ann.apply_learning_rate_scheduler s' rate s'.decay_constant e s'.drop_rate h =
      .ok (rate * c ^ ⌊(1 + (e : ℝ)) / d⌋, h) := by
  rintro s' rfl
  exact Ann.rate_run (E := e) (fun _ => ⟨hd, hi⟩) le_rfl rate h

/-- C108 is false for a step schedule with more drops than an `int` holds (a very small drop rate): the conversion is undefined behaviour. -/
theorem C108_steps_fails (s : Ann) (c d rate : ℝ) (e : Nat) (h : Heap ℝ) (hi : 2147483648 ≤ (1 + e) / d) :
    ∀ s', s' = Ann.set_learning_rate_scheduler_drop s .step c d → Ann.apply_learning_rate_scheduler s' rate s'.decay_constant e s'.drop_rate h = .ub := by
  rintro s' rfl
  show (Activation.toInt ((1 + (e : ℝ)) / d) >>= fun i => pure (rate * MathFns.pow c (i : ℝ))) h = .ub
  have e : Activation.toInt ((1 + (e : ℝ)) / d) h = .ub := by
    unfold Activation.toInt
    rw [if_neg (by rintro ⟨-, q⟩; linarith)]
    rfl
  rw [bind_ub e]

/-- A drop every millionth of an epoch, at epoch 3000, meets the hypothesis. -/
example : (2147483648 : ℝ) ≤ (1 + ((3000 : Nat) : ℝ)) / (1 / 1000000) := by norm_num

/-- C108: schedules with a decay of the right sign never raise the rate, and the time and exponential ones lower it with every epoch. -/
theorem C108_decreasing {s : Ann} {c rate : ℝ} (hc : 0 < c) (hp : 0 < rate) (e : Nat) :
    rateAt (Ann.set_learning_rate_scheduler s .time c) rate (e + 1) < rateAt (Ann.set_learning_rate_scheduler s .time c) rate e ∧
    rateAt (Ann.set_learning_rate_scheduler s .exponential c) rate (e + 1) < rateAt (Ann.set_learning_rate_scheduler s .exponential c) rate e ∧
    (0 < e → rateAt (Ann.set_learning_rate_scheduler s .epoch c) rate (e + 1) < rateAt (Ann.set_learning_rate_scheduler s .epoch c) rate e) := by
  refine ⟨?_, ?_, fun he => ?_⟩
  · show rate / (1 + c * ((e + 1 : Nat) : ℝ)) < rate / (1 + c * e)
    have : 0 < 1 + c * (e : ℝ) := by positivity
    refine div_lt_div_of_pos_left hp this ?_
    push_cast
    nlinarith
  · show rate * Real.exp (-(c * ((e + 1 : Nat) : ℝ))) < rate * Real.exp (-(c * e))
    refine mul_lt_mul_of_pos_left (Real.exp_lt_exp.2 ?_) hp
    push_cast
    nlinarith
  · show rate * c / Real.sqrt ((e + 1 : Nat) : ℝ) < rate * c / Real.sqrt e
    have he' : (0 : ℝ) < e := by exact_mod_cast he
    refine div_lt_div_of_pos_left (by positivity) (Real.sqrt_pos.2 he') (Real.sqrt_lt_sqrt he'.le ?_)
    push_cast
    linarith

/-! ## The hypotheses are met -/

/-- Two samples of one input; a hidden layer of two sigmoid units. -/
noncomputable def annHeap : Heap ℝ :=
  Heap.ofLists 0 [[1, 0], [3, 4], [5, 6], [0, 0]] [(1, 2, [5, 6]), (2, 1, [7, 8]), (2, 2, [0, 0, 0, 0]), (2, 2, [0, 0, 0, 0])]

noncomputable def annLay : Lay := ⟨2, .sigmoid, .default, .none, 0, 0⟩
noncomputable def annTop : Top := ⟨.sigmoid, .mse, .default, .ridge, 1, 0⟩

noncomputable def exAnn : Ann :=
  ⟨some (.m 0), some (.v 0), none,
    [⟨2, .sigmoid, some (.m 0), some (.m 1), some (.v 1), some (.m 2), some (.m 3), none, none, none, .none, 0, 0, .default, true⟩],
    some ⟨2, .sigmoid, .mse, some (.m 3), some (.v 2), 9, some (.v 3), none, 0, 0, none, .ridge, 1, 0, .default, true⟩, 2, 1, .none, 0, 0⟩

example : AnnReady exAnn annHeap annTop [annLay] !![5; 6] ![1, 0] ((((!![7, 8], ![3, 4]), ()), (![5, 6], 9)) : Net 1 [annLay]) ∧ Settled exAnn ∧
    annLay.Works ∧ annTop.Works ∧ (∀ E, RateOk exAnn E) ∧ HasV annHeap (some (.v 3)) ![0, 0] := by
  have lv : ∀ i < 4, annHeap.live (.m i) := by intro i hi; simp [annHeap, Heap.ofLists, Heap.live, Loc.id]; omega
  have lw : ∀ i < 4, annHeap.live (.v i) := by intro i hi; simp [annHeap, Heap.ofLists, Heap.live, Loc.id]; omega
  have w : annHeap.WF := Heap.ofLists_wf _ _ _ (by simp)
  refine ⟨⟨w, rfl, rfl, ⟨0, rfl, lv 0 (by omega), ?_⟩, ⟨0, rfl, lw 0 (by omega), ?_⟩,
    ⟨_, [], rfl, ⟨rfl, rfl, rfl, rfl, rfl, rfl, ⟨1, rfl, lv 1 (by omega), ?_⟩, ⟨1, rfl, lw 1 (by omega), ?_⟩, ⟨2, 2, 0, 2, rfl, lv 2 (by omega), ?_⟩⟩, rfl⟩,
    ⟨_, rfl, ⟨rfl, rfl, rfl, rfl, rfl, rfl, rfl, ⟨2, rfl, lw 2 (by omega), ?_⟩, rfl⟩, by simp [exAnn]⟩, by simp [exAnn, written]⟩,
    by simp [Settled, exAnn], by simp [Lay.Works, annLay], by simp [Top.Works, annTop], fun E q => (by cases q), ⟨3, rfl, lw 3 (by omega), ?_⟩⟩
  · exact ⟨by simp [annHeap, Heap.ofLists], fun i j => by fin_cases i <;> fin_cases j <;> simp [annHeap, Heap.ofLists]⟩
  · exact ⟨by simp [annHeap, Heap.ofLists], fun i => by fin_cases i <;> simp [annHeap, Heap.ofLists]⟩
  · exact ⟨by simp [annHeap, Heap.ofLists, annLay], fun i j => by fin_cases i; fin_cases j <;> simp [annHeap, Heap.ofLists, annLay]⟩
  · exact ⟨by simp [annHeap, Heap.ofLists, annLay], fun i => by fin_cases i <;> (simp [annHeap, Heap.ofLists]; rfl)⟩
  · exact ⟨by simp [annHeap, Heap.ofLists], fun i j => by fin_cases i <;> fin_cases j <;> simp [annHeap, Heap.ofLists]⟩
  · exact ⟨by simp [annHeap, Heap.ofLists, annLay], fun i => by fin_cases i <;> (simp [annHeap, Heap.ofLists]; rfl)⟩
  · exact ⟨by simp [annHeap, Heap.ofLists], fun i => by fin_cases i <;> simp [annHeap, Heap.ofLists]⟩

example (X : Matrix (Fin 2) (Fin 1) ℝ) (y : Fin 2 → ℝ) (N : Net 1 [annLay]) : SmoothNet annTop [annLay] X y N :=
  ⟨fun i => ⟨⟨by simp [annLay], fun a => Set.mem_univ _, trivial⟩, Set.mem_univ _, fun q => (by cases q), trivial⟩, by simp [annTop],
    ⟨fun _ _ => trivial, trivial⟩, fun _ => trivial⟩

end Verif
