import Verif.Lemmas.MannMath
import Verif.Props.Ann
import Verif.Props.Performance
import Verif.Props.AutoEncoder

/-!
# C127, C128: networks with several outputs, `MLPPMANN`

`MNet k us c` are the parameters of a network with `k` inputs, hidden layers `us` and `c` outputs, `mnetAt` its outputs at one input (Spec/Mann.lean).
-/

namespace Verif
open Spec Finset Glm
variable {n k m c : Nat} {h : Heap ℝ} {s : Mann} {o : Top} {us : List Lay} {X : Matrix (Fin n) (Fin k) ℝ} {Y : Matrix (Fin n) (Fin c) ℝ} {N : MNet k us c}

/-! ## C127: building and predictions -/

/-- C127 (one input): `model_test(x)` answers with the outputs of the network at `x`; nothing that existed changes. Missing: layers with adj_softmax,
if their values do not fit into `int` (see C44). -/
theorem C127_test_partial (g : Ann.Draws) (R : MannReady s h o us X Y N) (hs : ∀ l ∈ s.network, l.initialized = true) {x : Ref} {v : Fin k → ℝ}
    (hx : HasV h x v) (hu : allFit us N.1 v) (ho : FitsInt o.act fun a => ∑ j, through us N.1 v j * N.2.1 j a + N.2.2 a) :
    Runs (Mann.model_test g s x) h fun r h' => HasV h' r.2 (mnetAt o us N v) ∧ h'.WF ∧ Keeps h h' (fun _ => False) := by
  obtain ⟨l, el, O, -⟩ := R.top
  unfold Mann.model_test
  rw [if_pos R.init]
  refine Runs.bind ((Ann.layersTest_run g us 0 R.wf R.hidden hs hx hu).mono fun r h1 ⟨w1, K1, _, a1⟩ => ?_)
  have e : Mann.output s h1 = .ok (l, h1) := by unfold Mann.output; rw [el]; rfl
  refine Runs.step e ?_
  unfold MultiOutputLayer.test
  have hw := O.weights.keep K1 fun _ _ => id
  have hb := O.bias.keep K1 fun _ _ => id
  simp only [bind_assoc]
  refine Verif.stepM (Hd.transposen_spec w1 hw) fun t h2 w2 k2 f2 ut => ?_
  have K2 := K1.trans k2
  nw f2 k2
  refine Verif.stepV (Hd.mult_vec_spec w2 ut a1) fun z h3 w3 k3 f3 uz => ?_
  have K3 := K2.trans k3
  nw f3 k3
  refine Verif.stepV (Hd.addn_spec w3 uz hb) fun z' h4 w4 k4 f4 uz' => ?_
  have K4 := K3.trans k4
  nw f4 k4
  rw [O.act]
  have er : (fun a => (∑ j, N.2.1 j a * through us N.1 v j) + N.2.2 a) = fun a => ∑ j, through us N.1 v j * N.2.1 j a + N.2.2 a :=
    funext fun a => by rw [Finset.sum_congr rfl fun j _ => mul_comm (N.2.1 j a) (through us N.1 v j)]
  refine Verif.stepV (Layer.act_vec_gen (er ▸ ho) w4 uz') fun a h5 w5 k5 f5 ua => ?_
  refine Runs.of_eq rfl ⟨?_, w5, K4.trans k5⟩
  refine cast (congrArg _ ?_) ua
  refine congrArg _ (funext fun a => ?_)
  show (∑ j, N.2.1 j a * through us N.1 v j) + N.2.2 a = _
  rw [Finset.sum_congr rfl fun j _ => mul_comm (N.2.1 j a) (through us N.1 v j)]

/-- C127 (many inputs: false): `model_set_test(A)` draws new weights for all hidden layers first: it answers with, and leaves behind, another network. -/
theorem C127_set_test_fails (g : Ann.Draws) (R : MannReady s h o us X Y N) (hu : ∀ u ∈ us, u.Works) (ho : o.WorksM) {x : Ref}
    {A : Matrix (Fin m) (Fin k) ℝ} (hx : HasM h x A) (nx : x ∉ written s.network) :
    Runs (Mann.model_set_test g s x) h fun r h' => MannReady r.1 h' o us X Y (mredrawn g us N) ∧
      HasM h' r.2 (fun i => mnetAt o us (mredrawn g us N) (A i)) := by
  obtain ⟨l, C⟩ := Mann.core_of R
  unfold Mann.model_set_test
  rw [if_pos R.init]
  refine (Mann.core_pass g C hu ho hx nx).mono fun r h1 ⟨l1, e1, P1, D1⟩ => ⟨?_, e1 ▸ P1.a⟩
  have := (D1 r.1.y_hat).ready R
  exact this

/-- C127 (many inputs): without hidden layers nothing is drawn: `model_set_test(A)` answers with the outputs at the rows of `A`, and leaves the network
as it is. -/
theorem C127_set_test_flat (g : Ann.Draws) {N : MNet k [] c} (R : MannReady s h o [] X Y N) (ho : o.WorksM) {x : Ref}
    {A : Matrix (Fin m) (Fin k) ℝ} (hx : HasM h x A) :
    Runs (Mann.model_set_test g s x) h fun r h' => MannReady r.1 h' o [] X Y N ∧ HasM h' r.2 (fun i => mnetAt o [] N (A i)) := by
  have e : s.network = [] := R.hidden
  exact C127_set_test_fails g R (by simp) ho hx (by rw [e]; simp [written])

/-- C127 (score): for integer targets, `score()` is the fraction of the rows of the inputs all of whose outputs are right, of the network whose hidden
layers have been drawn again. -/
theorem C127_score_partial (g : Ann.Draws) {Yi : Matrix (Fin n) (Fin c) Int} (R : MannReady s h o us X (Yi.map fun k => (k : ℝ)) N) (hu : ∀ u ∈ us, u.Works)
    (ho : o.WorksM) (hn : 0 < n) (hc : 0 < c) (hy : ∀ i j, |(Yi i j : ℝ)| < 99999) :
    Runs (Mann.score g s) h fun r h' => r.2 = fraction (fun i : Fin n => ∀ j, Nearest (mnetAt o us (mredrawn g us N) (X i) j) (Yi i j)) ∧
      MannTrained s h r.1 h' o us X (Yi.map fun k => (k : ℝ)) (mredrawn g us N) := by
  obtain ⟨l, C⟩ := Mann.core_of R
  unfold Mann.score
  rw [if_pos R.init]
  refine Runs.bind ((Mann.forward_core g C R hu ho).mono fun s1 h1 ⟨l1, C1, P1, e1⟩ => ?_)
  have T := C1.trained R P1 e1
  obtain ⟨a, ea, la, ha⟩ := T.shows
  obtain ⟨b, eb, lb, hb⟩ := T.ready.output_set
  have := Utilities.C62_mat h1 T.ready.wf a b _ Yi hn hc ha hb hy
  rw [ea, eb]
  refine Runs.step this ?_
  exact Runs.of_eq rfl ⟨rfl, T⟩

/-- C127 (not initialised): an object made without data answers with null, scores 0, and is not trained. -/
theorem C127_not_initialised (g : Ann.Draws) (gs : Nat → Ann.Draws) (hs : s.initialized = false) (x : Ref) (fuel : Nat) (lr : ℝ) (e : Int) :
    Mann.model_set_test g s x h = .ok ((s, none), h) ∧ Mann.model_test g s x h = .ok ((s, none), h) ∧ Mann.score g s h = .ok ((s, 0), h) ∧
      Mann.gradient_descent fuel gs s lr e h = .ok (s, h) := by
  unfold Mann.model_set_test Mann.model_test Mann.score Mann.gradient_descent
  rw [hs]
  exact ⟨rfl, rfl, rfl, rfl⟩

/-- C127 (no data: false): but `initialize()` accepts it, and then every prediction and training dereferences null; so does `add_layer`. -/
theorem C127_no_data_fails (g : Ann.Draws) (gs : Nat → Ann.Draws) (a b d : Nat) (x : Ref) (fuel : Nat) (lr : ℝ) (e : Int) :
    Mann.model_set_test g (Mann.initialize_ (Mann.create_empty a b d)) x h = .ub ∧ Mann.model_test g (Mann.initialize_ (Mann.create_empty a b d)) x h = .ub ∧
      Mann.score g (Mann.initialize_ (Mann.create_empty a b d)) h = .ub ∧
      Mann.gradient_descent fuel gs (Mann.initialize_ (Mann.create_empty a b d)) lr e h = .ub :=
  ⟨rfl, rfl, rfl, rfl⟩

/-- C127 (no output layer: false): without an output layer every prediction and training dereferences null. -/
theorem C127_no_output_fails (g : Ann.Draws) (hs : s.network = []) (hi : s.initialized = true) (ho : s.output_layer = none) (x : Ref) (fuel : Nat)
    (gs : Nat → Ann.Draws) (lr : ℝ) (e : Int) :
    Mann.model_set_test g s x h = .ub ∧ Mann.model_test g s x h = .ub ∧ Mann.gradient_descent fuel gs s lr e h = .ub := by
  obtain ⟨a, b, yh, net, ol, n, k, no, ini⟩ := s
  dsimp only at hs hi ho
  subst hs hi ho
  exact ⟨rfl, rfl, rfl⟩

/-- C127 (constructor): a new network has no layers. -/
theorem C127_create (w : h.WF) {a b : Ref} (ha : HasM h a X) (hb : HasM h b Y) :
    Runs (Mann.create a b) h fun s h' => h' = h ∧ MannBuilt s h' [] X Y () ∧ s.input_set = a ∧ s.output_set = b ∧ s.network = [] ∧
      s.output_layer = none := by
  unfold Mann.create
  refine Runs.step (Hd.sizem_run ha) (Runs.step (Hd.sizem_run hb) ?_)
  exact Runs.of_eq rfl ⟨rfl, ⟨w, rfl, rfl, rfl, rfl, ha, hb, rfl, ha, rfl, by simp [written], by simp [written], by simp [written], by simp⟩, rfl, rfl, rfl, rfl⟩

/-- C127 (constructor: false): null data are dereferenced. -/
theorem C127_create_null_fails (b : Ref) (ha : HasM h b X) : Mann.create none b h = .ub ∧ Mann.create b none h = .ub := by
  refine ⟨rfl, ?_⟩
  unfold Mann.create
  rw [bind_ok (Hd.sizem_run ha)]
  rfl

/-- C127 (hidden layers): `add_layer` puts a layer with drawn weights behind the others, and leaves these and all else as it is. Nothing is said about
its biases: they are never written (see C64). -/
theorem C127_add_layer_partial (gw gb : Utilities.Source) {H : Hiddens k us} (B : MannBuilt s h us X Y H) (u : Lay) (hu : u.Works) :
    Runs (Mann.add_layer gw gb s u.units u.act u.init u.reg u.lambda u.alpha) h fun s' h' => Keeps h h' (fun _ => False) ∧
      s' = { s with network := s'.network } ∧ ∃ b : Fin u.units → ℝ, MannBuilt s' h' (us ++ [u]) X Y (snoc us H u (drawnM gw u.init (width k us) u.units, b)) := by
  unfold Mann.add_layer
  refine Runs.bind ((C103_create_partial gw gb B.wf B.last u.act u.init hu.2 u.reg u.lambda u.alpha).mono
    fun l h1 ⟨b, R1, K1, i1, e1, e2, e3, e4, e5, e6, f1⟩ => ?_)
  refine Runs.bind ((HiddenLayer.forward_run gw gb R1 i1 (e2 ▸ Ann.works_forward hu)).mono fun l2 h2 ⟨q2, K2, n2, R2, z2, a2⟩ => ?_)
  have fz : NotIn h l.z := f1 _ (by simp)
  have fw : NotIn h l.weights := f1 _ (by simp)
  have K : Keeps h h2 (fun _ => False) := K1.wr_new K2 fz
  have qz : l2.z = l.z := by rw [q2]
  have qw : l2.weights = l.weights := by rw [q2]
  have hz : HasM h2 l2.z _ := qz ▸ z2
  have nz : l2.z ≠ l2.weights := by
    have := R2.apart
    simp only [List.nodup_cons, List.mem_cons, not_or] at this
    exact this.1.1
  have ew : written (s.network ++ [l2]) = written s.network ++ [l2.z, l2.weights] := by simp [written]
  have na : NotIn h l2.a := n2.mono K1
  have L : LayerIs h2 l2 u (drawnM gw u.init (width k us) u.units, b) := by
    refine ⟨R2.units, ?_, ?_, ?_, ?_, ?_, R2.weights, R2.bias, R2.z⟩
    · rw [q2]; exact e2
    · rw [q2]; exact e3
    · rw [q2]; exact e4
    · rw [q2]; exact e5
    · rw [q2]; exact e6
  have az : l2.a ≠ l2.z := by rw [qz]; exact (n2.ne_mat (R1.z.choose_spec.choose_spec.choose_spec))
  have aw : l2.a ≠ l2.weights := by rw [qw]; exact n2.ne_mat R1.weights
  refine Runs.of_eq rfl ⟨K, rfl, b, ⟨R2.wf, B.samples, B.inputs, B.outputs, B.init, B.input_set.keep K fun _ _ => id, B.output_set.keep K fun _ _ => id,
    layers_snoc K l2 u us B.hidden L, ?_, ?_, ?_, ?_, ?_, ?_⟩⟩
  · show HasM h2 (Ann.lastOut s.input_set (s.network ++ [l2])) _
    rw [lastOut_append]
    refine through_snoc (fun q A => HasM h2 l2.a A) u us H _ X ?_
    rw [e2] at a2
    exact a2
  · show Ann.lastUnits s.k (s.network ++ [l2]) = _
    rw [lastUnits_append, width_append, R2.units]
  · show (s.input_set :: written (s.network ++ [l2])).Nodup
    rw [ew]
    have d := B.apart
    have d' : ((s.input_set :: written s.network) ++ [l2.z, l2.weights]).Nodup := by
      refine List.Nodup.append d (by simp [nz]) ?_
      intro r hr hr'
      have hr' : r = l2.z ∨ r = l2.weights := by simpa using hr'
      have fr : NotIn h r := by rcases hr' with rfl | rfl; · exact qz ▸ fz
                                · exact qw ▸ fw
      rcases List.mem_cons.1 hr with rfl | hr
      · exact fr.ne_mat B.input_set rfl
      · exact Ann.notin_written B.hidden fr hr
    exact d'
  · show Ann.lastOut s.input_set (s.network ++ [l2]) ∉ written (s.network ++ [l2])
    rw [lastOut_append, ew, List.mem_append]
    rintro (hr | hr)
    · exact Ann.notin_written B.hidden na hr
    · simp only [List.mem_cons, List.not_mem_nil, or_false] at hr
      exact hr.elim az aw
  · show s.output_set ∉ written (s.network ++ [l2])
    rw [ew, List.mem_append]
    rintro (hr | hr)
    · exact B.apart'' hr
    · simp only [List.mem_cons, List.not_mem_nil, or_false] at hr
      rcases hr with hr | hr
      · exact (show NotIn h l2.z from qz ▸ fz).ne_mat B.output_set hr.symm
      · exact (show NotIn h l2.weights from qw ▸ fw).ne_mat B.output_set hr.symm
  · show ∀ l ∈ s.network ++ [l2], _
    intro l' hl
    rcases List.mem_append.1 hl with hl | hl
    · exact B.settled l' hl
    · simp only [List.mem_cons, List.not_mem_nil, or_false] at hl
      rw [hl, q2]; exact i1

/-- C127 (output layer): with `add_output_layer`, whose weights are drawn, the network is complete. Nothing is said about its biases: they are never
written (see C64). -/
theorem C127_add_output_layer_partial (gw gb : Utilities.Source) {H : Hiddens k us} (B : MannBuilt s h us X Y H) (o : Top) (ho : o.init = .default ∨ o.init = .uniform) :
    Runs (Mann.add_output_layer gw gb s o.act o.cost o.init o.reg o.lambda o.alpha) h fun s' h' => Keeps h h' (fun _ => False) ∧
      s' = { s with output_layer := s'.output_layer } ∧ ∃ b : Fin c → ℝ, MannReady s' h' o us X Y (H, (drawnM gw o.init (width k us) c, b)) := by
  unfold Mann.add_output_layer
  rw [B.units, B.outputs]
  refine Runs.bind ((MultiOutputLayer.create_run gw gb B.wf B.last o.act o.cost o.init ho o.reg o.lambda o.alpha).mono
    fun l h1 ⟨b, R1, K1, f1, i1, e1, e2, e3, e4, e5, e6⟩ => ?_)
  refine Runs.of_eq rfl ⟨K1, rfl, b, ⟨R1.wf, B.samples, B.init, B.input_set.keep K1 fun _ _ => id, B.output_set.keep K1 fun _ _ => id,
    Ann.LayersAre.keep K1 us B.hidden fun _ _ _ _ _ _ => id, ⟨l, rfl, ⟨e1, e2, e4, e5, e6, R1.weights, R1.bias⟩, ?_⟩, B.apart, B.apart''⟩⟩
  exact Ann.notin_written B.hidden f1

/-! ## C128: training -/

/-- C128 (no hidden layers): `gradient_descent` is gradient descent on the sum of the losses (with softmax: on the cross entropy, whatever loss was
chosen): every epoch is a step of size `learning_rate / n` against the gradient, where there is one, followed by the decay of the weights; the object
shows the predictions of the last parameters. Missing: some activation functions (see C45) and losses (see C58). -/
theorem C128_flat_partial (fuel : Nat) (g : Nat → Ann.Draws) {N : MNet k [] c} (R : MannReady s h o [] X Y N) (ho : o.WorksM) (lr : ℝ) (e : Int) :
    Runs (Mann.gradient_descent fuel g s lr e) h fun s' h' => ∃ θ : MParams k c, MannTrained s h s' h' o [] X Y (((), θ) : MNet k [] c) ∧
      Keeps h h' (fun _ => False) ∧ Chain (fun _ => MStep o X Y (lr / n)) (epochCount e) N.2 θ := by
  refine (Mann.gd_run fuel g R (by simp) (by simp) ho lr e).mono fun s' h' T => ?_
  have en : s.network = [] := R.hidden
  refine ⟨_, T, ?_, ?_⟩
  · have := T.keeps
    rw [en] at this
    exact this.mono fun c _ hc => by simp [written] at hc
  · have key : ∀ i, (walk (fun i N => mredrawn (g (i + 1)) [] (Mann.mstep o [] (lr / n) X Y N)) (mredrawn (g 0) [] N) i).2 =
        walk (fun _ θ => Mann.stepped o.reg o.lambda o.alpha (lr / n) X (Mann.outErr o X Y θ) θ) N.2 i := by
      intro i
      induction i with
      | zero => rfl
      | succ i ih =>
        show Mann.stepped _ _ _ _ X (Mann.outErr o X Y _) _ = Mann.stepped _ _ _ _ X (Mann.outErr o X Y _) _
        rw [ih]
    rw [key]
    exact chain_walk (fun _ θ => Mann.stepped_mstep ho _) _ _

/-- C128 (the loss: false): with softmax the loss that was chosen for the output layer has no influence: two networks that differ only in it are trained
alike. -/
theorem C128_softmax_loss_fails (fuel : Nat) (g : Nat → Ann.Draws) (hl : us.length ≤ 1) (hu : ∀ u ∈ us, u.Works) (ho : o.act = .softmax) (c' : Cost.Kind) {s2 : Mann} {h2 : Heap ℝ}
    (R : MannReady s h o us X Y N) (R2 : MannReady s2 h2 { o with cost := c' } us X Y N) (lr : ℝ) (e : Int) : ∃ N' : MNet k us c,
      Runs (Mann.gradient_descent fuel g s lr e) h (fun s' h' => MannTrained s h s' h' o us X Y N') ∧
      Runs (Mann.gradient_descent fuel g s2 lr e) h2 (fun s' h' => MannTrained s2 h2 s' h' { o with cost := c' } us X Y N') := by
  refine ⟨_, Mann.gd_run fuel g R hl hu (Or.inl ho) lr e, ?_⟩
  have em : ∀ N : MNet k us c, Mann.mstep { o with cost := c' } us (lr / n) X Y N = Mann.mstep o us (lr / n) X Y N := fun N => by
    have : ∀ (A : Matrix (Fin n) (Fin (width k us)) ℝ) (θ : MParams (width k us) c), Mann.outErr { o with cost := c' } A Y θ = Mann.outErr o A Y θ := by
      intro A θ
      unfold Mann.outErr
      dsimp only
      rw [ho]
    have t := this (fun a => through us N.1 (X a)) N.2
    unfold Mann.mstep
    generalize Mann.outErr { o with cost := c' } (fun a => through us N.1 (X a)) Y N.2 = D at t ⊢
    subst t
    rfl
  have := Mann.gd_run fuel g R2 hl hu (Or.inl ho) lr e
  simp only [em] at this
  exact this

/-- C128 (one hidden layer, as far as it holds): in every epoch the output layer takes a step against the gradient, for the present outputs of the
hidden layer, followed by the decay; the weights of the hidden layer are then drawn again. -/
theorem C128_hidden_partial (fuel : Nat) (g : Nat → Ann.Draws) {u : Lay} {N : MNet k [u] c} (R : MannReady s h o [u] X Y N) (hu : u.Works) (ho : o.WorksM)
    (lr : ℝ) (e : Int) :
    Runs (Mann.gradient_descent fuel g s lr e) h fun s' h' => ∃ N' : MNet k [u] c, MannTrained s h s' h' o [u] X Y N' ∧
      Chain (fun ep (N N' : MNet k [u] c) => MStep o (layerOut u.act X N.1.1) Y (lr / n) N.2 N'.2 ∧
          N'.1.1.1 = drawnM (g (ep + 1) 0).1 u.init k u.units) (epochCount e) (mredrawn (g 0) [u] N) N' :=
  (Mann.gd_run fuel g R (by simp) (by simpa using hu) ho lr e).mono fun _ _ T => ⟨_, T, chain_walk (fun _ N => ⟨Mann.stepped_mstep ho _, rfl⟩) _ _⟩

/-- C128 (one hidden layer: false): what the weights of the hidden layer have learned is lost: after training they are the numbers drawn in the last
pass, whatever the data, the learning rate and the previous weights. -/
theorem C128_hidden_fails (fuel : Nat) (g : Nat → Ann.Draws) {u : Lay} {N : MNet k [u] c} (R : MannReady s h o [u] X Y N) (hu : u.Works) (ho : o.WorksM)
    (lr : ℝ) (e : Int) :
    Runs (Mann.gradient_descent fuel g s lr e) h fun s' h' => ∃ N' : MNet k [u] c, MannTrained s h s' h' o [u] X Y N' ∧
      N'.1.1.1 = drawnM (g (epochCount e) 0).1 u.init k u.units := by
  refine (Mann.gd_run fuel g R (by simp) (by simpa using hu) ho lr e).mono fun _ _ T => ⟨_, T, ?_⟩
  obtain ⟨E, eE⟩ : ∃ E, epochCount e = E + 1 := ⟨epochCount e - 1, by unfold epochCount; omega⟩
  rw [eE]
  rfl

theorem multn_mismatch {a b : Ref} {p q r t : Nat} {A : Matrix (Fin p) (Fin q) ℝ} {B : Matrix (Fin r) (Fin t) ℝ} (ha : HasM h a A) (hb : HasM h b B)
    (ne : q ≠ r) : Hd.multn a b h = .ok (none, h) := by
  obtain ⟨x, rfl, lx, hx⟩ := ha; obtain ⟨y, rfl, ly, hy⟩ := hb
  unfold Hd.multn
  rw [bind_ok (show derefM (some (Loc.m x)) h = .ok (x, h) from rfl)]
  show Mat.multn x (some y) h = _
  unfold Mat.multn
  dsimp only
  rw [bind_ok (Mat.size_run y h), bind_ok (Mat.size_run x h), hx.1, hy.1]
  dsimp only
  rw [if_neg ne]
  rfl

theorem layersStep_ub (fuel : Nat) (w : h.WF) {o : MultiOutputLayer} {D : Matrix (Fin n) (Fin c) ℝ} (hd : HasM h o.delta D) (rate : ℝ) {u v : Lay}
    (ne : u.units ≠ v.units) (wu : u.Works) (wv : v.Works) : ∀ (us : List Lay) {k : Nat} {X : Matrix (Fin n) (Fin k) ℝ} {H : Hiddens k (us ++ [u, v])} {ls : List HiddenLayer}
    {W : Matrix (Fin v.units) (Fin c) ℝ}, LayersAre h (us ++ [u, v]) H ls → Ann.Fed h (us ++ [u, v]) H ls X → HasM h o.weights W →
    Mann.layersStep fuel o rate ls h = .ub
  | [], k, X, H, ls, W, L, F, hW => by
    obtain ⟨l1, ls1, rfl, L1, l2, ls2, rfl, L2, rfl⟩ := L
    obtain ⟨_, _, e, f1, z1, _, _, e', f2, z2, -⟩ := F
    cases e; cases e'
    unfold Mann.layersStep
    unfold Mann.layersStep
    simp only [bind_assoc]
    refine ub_step (a := []) (h' := h) rfl ?_
    refine ub_bind (Mann.stepLast_run fuel w L2 hd hW f2 z2 wv rate) fun l3 h1 ⟨w1, K1, n1, ez, d1, L3⟩ => ?_
    simp only [pure_bind]
    refine bind_ub ?_
    unfold Mann.stepOf
    have e1 : Mann.signal o [l3] h1 = .ok (none, h1) := multn_mismatch d1 L3.weights (Ne.symm ne)
    refine ub_step e1 ?_
    have z1' := z1.keep K1 fun _ _ => id
    rw [L1.act]
    refine ub_stepM (Hd.lifts_mat (Ann.works_back wu fuel) w1 z1') fun f h2 w2 k2 f2 uf => ?_
    exact bind_ub rfl
  | t :: us, k, X, H, ls, W, L, F, hW => by
    obtain ⟨l, ls', rfl, L1, L2⟩ := L
    obtain ⟨_, _, e, f1, z1, f2⟩ := F
    cases e
    unfold Mann.layersStep
    exact bind_ub (layersStep_ub fuel w hd rate ne wu wv us L2 f2 hW)

/-- C128 (several hidden layers: false): the weights between hidden layers are not transposed when errors are carried back: if the last two hidden
layers differ in size, every training dereferences null. -/
theorem C128_layers_fails (fuel : Nat) (g : Nat → Ann.Draws) {u v : Lay} {N : MNet k (us ++ [u, v]) c} (ne : u.units ≠ v.units)
    (R : MannReady s h o (us ++ [u, v]) X Y N) (hu : ∀ t ∈ us ++ [u, v], t.Works) (ho : o.WorksM) (lr : ℝ) (e : Int) :
    Mann.gradient_descent fuel g s lr e h = .ub := by
  obtain ⟨l, C⟩ := Mann.core_of R
  unfold Mann.gradient_descent
  rw [if_pos R.init]
  refine ub_bind (Mann.forward_core (g 0) C R hu ho) fun s1 h1 ⟨l1, C1, P1, y1⟩ => ?_
  have R1 := C1.ready R
  refine epochs_ub _ _ _ ?_
  unfold Mann.gdBody
  have hy : HasM h1 s1.y_hat _ := y1 ▸ P1.a
  obtain ⟨x, ex⟩ := Mann.cost_ok C1.wf C1.hidden C1.el C1.out hy R1.output_set
  refine ub_step ex ?_
  have eo : Mann.output s1 h1 = .ok (l1, h1) := by unfold Mann.output; rw [C1.el]; rfl
  refine ub_step eo ?_
  refine ub_bind (Mann.stepOut_run fuel P1 ho hy R1.output_set (lr / s1.n)) fun l2 h2 ⟨w2, K2, n2, e2, d2, O2⟩ => ?_
  refine bind_ub ?_
  have hW : ∃ W : Matrix (Fin v.units) (Fin c) ℝ, HasM h2 l2.weights W := by
    have ew : width k (us ++ [u, v]) = v.units := by
      have := width_append v (us ++ [u]) k
      rwa [List.append_assoc] at this
    have key : ∀ (p : Nat), p = v.units → ∀ W : Matrix (Fin p) (Fin c) ℝ, HasM h2 l2.weights W →
        ∃ W : Matrix (Fin v.units) (Fin c) ℝ, HasM h2 l2.weights W := by
      rintro p rfl W hw; exact ⟨W, hw⟩
    exact key _ ew _ O2.weights
  obtain ⟨W, hW⟩ := hW
  exact layersStep_ub fuel w2 d2 _ ne (hu u (by simp)) (hu v (by simp)) us (Ann.LayersAre.keep K2 _ C1.hidden fun _ _ _ _ _ _ => id) (Ann.Fed.keep K2 _ P1.fed) hW

/-! ## The hypotheses are met -/

/-- Two samples of one input and two outputs; a hidden layer of two sigmoid units, and softmax. -/
noncomputable def mannHeap : Heap ℝ :=
  Heap.ofLists 0 [[3, 4], [5, 6]] [(1, 2, [5, 6]), (2, 2, [1, 0, 0, 1]), (2, 1, [7, 8]), (2, 2, [0, 0, 0, 0]), (2, 2, [9, 8, 7, 6])]

noncomputable def mannTop : Top := ⟨.softmax, .cross_entropy, .default, .ridge, 1, 0⟩

noncomputable def exMann : Mann :=
  ⟨some (.m 0), some (.m 1), none,
    [⟨2, .sigmoid, some (.m 0), some (.m 2), some (.v 0), some (.m 3), none, none, none, none, .none, 0, 0, .default, true⟩],
    some ⟨2, 2, .softmax, .cross_entropy, none, some (.m 4), some (.v 1), none, none, none, none, none, .ridge, 1, 0, .default⟩, 2, 1, 2, true⟩

example : MannReady exMann mannHeap mannTop [annLay] !![5; 6] !![1, 0; 0, 1]
      ((((!![7, 8], ![3, 4]), ()), (!![9, 8; 7, 6], ![5, 6])) : MNet 1 [annLay] 2) ∧ annLay.Works ∧ mannTop.WorksM ∧
    ∀ (A : Matrix (Fin 2) (Fin 2) ℝ) (θ : MParams 2 2), mSmooth mannTop A !![1, 0; 0, 1] θ := by
  have lv : ∀ i < 5, mannHeap.live (.m i) := by intro i hi; simp [mannHeap, Heap.ofLists, Heap.live, Loc.id]; omega
  have lw : ∀ i < 2, mannHeap.live (.v i) := by intro i hi; simp [mannHeap, Heap.ofLists, Heap.live, Loc.id]; omega
  have w : mannHeap.WF := Heap.ofLists_wf _ _ _ (by simp)
  refine ⟨⟨w, rfl, rfl, ⟨0, rfl, lv 0 (by omega), ?_⟩, ⟨1, rfl, lv 1 (by omega), ?_⟩,
    ⟨_, [], rfl, ⟨rfl, rfl, rfl, rfl, rfl, rfl, ⟨2, rfl, lv 2 (by omega), ?_⟩, ⟨0, rfl, lw 0 (by omega), ?_⟩, ⟨2, 2, 0, 3, rfl, lv 3 (by omega), ?_⟩⟩, rfl⟩,
    ⟨_, rfl, ⟨rfl, rfl, rfl, rfl, rfl, ⟨4, rfl, lv 4 (by omega), ?_⟩, ⟨1, rfl, lw 1 (by omega), ?_⟩⟩, by simp [exMann, written]⟩, by simp [exMann, written],
    by simp [exMann, written]⟩, by simp [Lay.Works, annLay], Or.inl rfl, fun A θ i => by fin_cases i <;> simp⟩
  · exact ⟨by simp [mannHeap, Heap.ofLists], fun i j => by fin_cases i <;> fin_cases j <;> simp [mannHeap, Heap.ofLists]⟩
  · exact ⟨by simp [mannHeap, Heap.ofLists], fun i j => by fin_cases i <;> fin_cases j <;> simp [mannHeap, Heap.ofLists]⟩
  · exact ⟨by simp [mannHeap, Heap.ofLists, annLay], fun i j => by fin_cases i; fin_cases j <;> simp [mannHeap, Heap.ofLists, annLay]⟩
  · exact ⟨by simp [mannHeap, Heap.ofLists, annLay], fun i => by fin_cases i <;> (simp [mannHeap, Heap.ofLists]; rfl)⟩
  · exact ⟨by simp [mannHeap, Heap.ofLists], fun i j => by fin_cases i <;> fin_cases j <;> simp [mannHeap, Heap.ofLists]⟩
  · exact ⟨by simp [mannHeap, Heap.ofLists, annLay], fun i j => by fin_cases i <;> fin_cases j <;> (simp [mannHeap, Heap.ofLists]; try rfl)⟩
  · exact ⟨by simp [mannHeap, Heap.ofLists, annLay], fun i => by fin_cases i <;> (simp [mannHeap, Heap.ofLists]; try rfl)⟩

end Verif
