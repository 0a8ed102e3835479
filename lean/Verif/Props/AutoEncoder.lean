import Verif.Lemmas.AutoEncoder
import Verif.Props.GlmStochastic
import Verif.Props.Performance

/-!
# C121, C122: the auto encoder, `MLPPAutoEncoder`

Outputs and set-up (C121), and training, which is meant to be gradient descent on the mean squared distance of the outputs and the inputs (C122).
-/

namespace Verif
open Spec Finset Glm Utilities
variable {n k m c : Nat} {h : Heap ℝ} {s : AutoEncoder} {X : Matrix (Fin n) (Fin k) ℝ} {θ : DeepParams k m k}

/-- **C121**: `model_test` answers with the output of the network with one hidden logistic layer, `model_set_test` with that of every row, in new
objects; nothing that existed changes. -/
theorem C121_predict (R : AutoReady s h X θ) :
    (∀ (x : Ref) (v : Fin k → ℝ), HasV h x v →
      ReturnsVec (AutoEncoder.model_test s x) h fun b => ∑ a, logistic (∑ j, v j * θ.1.1 j a + θ.1.2 a) * θ.2.1 a b + θ.2.2 b) ∧
    ∀ (x : Ref) (p : Nat) (A : Matrix (Fin p) (Fin k) ℝ), HasM h x A →
      ReturnsMat (AutoEncoder.model_set_test s x) h fun i b => ∑ a, logistic (∑ j, A i j * θ.1.1 j a + θ.1.2 a) * θ.2.1 a b + θ.2.2 b := by
  refine ⟨fun x v hx => ?_, fun x p A hx => ?_⟩
  · unfold AutoEncoder.model_test
    rw [if_pos R.init]
    exact AutoEncoder.evaluatev_spec R.wf hx R.weights1 R.bias1 R.weights2 R.bias2
  · unfold AutoEncoder.model_set_test
    rw [if_pos R.init]
    exact AutoEncoder.evaluatem_spec R.wf hx R.weights1 R.bias1 R.weights2 R.bias2

/-- **C121**: for integer data the score is the fraction of the samples all of whose shown outputs round to the inputs. -/
theorem C121_score (R : AutoReady s h X θ) {P : Matrix (Fin n) (Fin k) ℝ} (hp : HasM h s.y_hat P) (hn : 0 < n) (hk : 0 < k)
    {L : Matrix (Fin n) (Fin k) Int} (hL : X = L.map fun k => (k : ℝ)) (hl : ∀ i j, |(L i j : ℝ)| < 99999) :
    AutoEncoder.score s h = .ok (fraction fun i : Fin n => ∀ j, Nearest (P i j) (L i j), h) := by
  unfold AutoEncoder.score
  rw [if_pos R.init]
  obtain ⟨a, ea, la, ia⟩ := hp
  obtain ⟨b, eb, lb, ib⟩ := R.input
  rw [ea, eb]
  rw [hL] at ib
  exact C62_mat h R.wf a b P L hn hk ia ib hl

/-- **C121**: an object that is not set up answers null and 0, and training leaves it as it is. -/
theorem C121_not_set_up (h : Heap ℝ) (s : AutoEncoder) (hi : s.initialized = false) (r : Ref) (pick : Nat → Nat) (lr : ℝ) (e b : Int) :
    AutoEncoder.model_test s r h = .ok (none, h) ∧ AutoEncoder.model_set_test s r h = .ok (none, h) ∧ AutoEncoder.score s h = .ok (0, h) ∧
    AutoEncoder.gradient_descent s lr e h = .ok (s, h) ∧ AutoEncoder.sgd s pick lr e h = .ok (s, h) ∧ AutoEncoder.mbgd s lr e b h = .ok (s, h) := by
  unfold AutoEncoder.model_test AutoEncoder.model_set_test AutoEncoder.score AutoEncoder.gradient_descent AutoEncoder.sgd AutoEncoder.mbgd
  simp only [hi, Bool.false_eq_true, if_false]
  exact ⟨rfl, rfl, rfl, rfl, rfl, rfl⟩

/-- C121 (setting the data: false): an object whose data or number of units is set does not work any more, and no method sets it up again: every
method leaves it as it is. -/
theorem C121_setters_fails (h : Heap ℝ) (s s' : AutoEncoder) (v : Ref) (u : Nat) (hs : s' = s.set_input_set v ∨ s' = s.set_n_hidden u) (r : Ref)
    (pick : Nat → Nat) (lr : ℝ) (e b : Int) :
    AutoEncoder.model_test s' r h = .ok (none, h) ∧ AutoEncoder.model_set_test s' r h = .ok (none, h) ∧
    AutoEncoder.gradient_descent s' lr e h = .ok (s', h) ∧ AutoEncoder.sgd s' pick lr e h = .ok (s', h) ∧
    AutoEncoder.mbgd s' lr e b h = .ok (s', h) := by
  have hi : s'.initialized = false := by rcases hs with rfl | rfl <;> rfl
  obtain ⟨h1, h2, -, h4, h5, h6⟩ := C121_not_set_up h s' hi r pick lr e b
  exact ⟨h1, h2, h4, h5, h6⟩

/-- C121 (constructor): an object made from data is set up, its weights are the numbers drawn, in `[0, 1)`; nothing that existed changes. Nothing is
said about the biases: they are never written (see C64). -/
theorem C121_create_partial (gw1 gw2 gb1 gb2 : Utilities.Source) (w : h.WF) {a : Ref} (ha : HasM h a X) (m : Nat) :
    Runs (AutoEncoder.create gw1 gw2 gb1 gb2 a m) h fun s h' => ∃ θ : DeepParams k m k, AutoReady s h' X θ ∧
      Keeps h h' (fun _ => False) ∧ s.input_set = a ∧ s.n_hidden = m ∧
      (∀ i j, θ.1.1 i j = gw1.u (i.val * m + j.val)) ∧ (∀ i j, θ.2.1 i j = gw2.u (i.val * k + j.val)) ∧
      ∃ P : Matrix (Fin n) (Fin k) ℝ, HasM h' s.y_hat P := by
  unfold AutoEncoder.create
  refine Runs.step (Hd.sizem_run ha) ?_
  dsimp only
  refine stepNewM (m := n) (n := k) w fun oy h1 vy w1 k1 f1 by1 => ?_
  have K1 := k1
  nw f1 k1
  refine stepNewM (m := k) (n := m) w1 fun o1 h2 A1 w2 k2 f2 bW1 => ?_
  have g2 := f2.mono K1
  have K2 := K1.trans k2
  nw f2 k2
  obtain ⟨o, eo, lo, io⟩ := id bW1
  cases eo
  refine Runs.bind (((Utilities.weightM_run gw1 h2 w2 o1 A1 io .default (fun i => gw1.u i)
    fun i h => Utilities.uniform01_run gw1 i h).hasM lo).mono fun _ h3 ⟨w3, k3, bW3⟩ => ?_)
  have K3 := K2.wr_new k3 g2
  wr k3
  refine stepNewM (m := m) (n := k) w3 fun o2 h4 A2 w4 k4 f4 bW2 => ?_
  have g4 := f4.mono K3
  have K4 := K3.trans k4
  nw f4 k4
  obtain ⟨o, eo, lo, io⟩ := id bW2
  cases eo
  refine Runs.bind (((Utilities.weightM_run gw2 h4 w4 o2 A2 io .default (fun i => gw2.u i)
    fun i h => Utilities.uniform01_run gw2 i h).hasM lo).mono fun _ h5 ⟨w5, k5, bW4⟩ => ?_)
  have K5 := K4.wr_new k5 g4
  wr k5
  refine stepNewV (n := m) w5 fun ob1 h6 B1 w6 k6 f6 bb1 => ?_
  have K6 := K5.trans k6
  nw f6 k6
  refine Runs.step (Utilities.C64_bias_vector_fails gb1 h6 ob1) ?_
  refine stepNewV (n := k) w6 fun ob2 h7 B2 w7 k7 f7 bb2 => ?_
  have K7 := K6.trans k7
  nw f7 k7
  refine Runs.step (Utilities.C64_bias_vector_fails gb2 h7 ob2) ?_
  refine Runs.of_eq rfl ⟨((_, B1), (_, B2)), ⟨w7, rfl, rfl, ha, bW3, bb1, bW4, bb2, ⟨?_, ?_⟩, ?_, ?_⟩, K7, rfl, rfl, fun _ _ => rfl, fun _ _ => rfl,
    vy, by1⟩
  all_goals first | assumption | exact Ne.symm (by assumption)

/-! ## C122: training -/

theorem deepSq_deriv {X : Matrix (Fin n) (Fin k) ℝ} {Y : Matrix (Fin n) (Fin c) ℝ} {η : ℝ → DeepParams k m c} {d : Matrix (Fin n) (Fin c) ℝ} {t : ℝ}
    (hd : ∀ i b, HasDerivAt (fun t => deepOut X (η t) i b) (d i b) t) :
    HasDerivAt (fun t => deepSq X Y (η t)) ((∑ i, ∑ b, (deepOut X (η t) i b - Y i b) * d i b) / n) t := by
  have h1 : HasDerivAt (fun t => ∑ i, ∑ b, (deepOut X (η t) i b - Y i b) ^ 2) (∑ i, ∑ b, 2 * (deepOut X (η t) i b - Y i b) * d i b) t := by
    refine HasDerivAt.fun_sum fun i _ => HasDerivAt.fun_sum fun b _ => ?_
    exact (((hd i b).sub_const (Y i b)).pow 2).congr_deriv (by simp)
  refine (h1.div_const (2 * (n : ℝ))).congr_deriv ?_
  simp only [mul_assoc, ← Finset.mul_sum]
  rw [mul_div_mul_left _ _ two_ne_zero]

theorem deepSq_gradients (X : Matrix (Fin n) (Fin k) ℝ) (Y : Matrix (Fin n) (Fin c) ℝ) (θ : DeepParams k m c) :
    Gradient (fun w => deepSq X Y (θ.1, (fun i j => w (i, j), θ.2.2))) (cells θ.2.1)
      (cells fun j b => (∑ i, hiddens X θ.1 i j * (deepOut X θ i b - Y i b)) / n) ∧
    Gradient (fun g => deepSq X Y (θ.1, (θ.2.1, g))) θ.2.2 fun b => (∑ i, (deepOut X θ i b - Y i b)) / n := by
  constructor
  · rintro ⟨j, b⟩
    have := deepSq_deriv (Y := Y) (η := fun t => (θ.1, ((fun r s => Function.update (cells θ.2.1) (j, b) t (r, s)), θ.2.2))) (t := θ.2.1 j b)
      (d := fun i a => if a = b then hiddens X θ.1 i j else 0) fun i a => affine_deriv_w (hiddens X θ.1) θ.2 j b i a
    refine this.congr_deriv ?_
    have q : (fun r s => Function.update (cells θ.2.1) (j, b) (θ.2.1 j b) (r, s)) = θ.2.1 := by
      funext r s
      rw [show θ.2.1 j b = cells θ.2.1 (j, b) from rfl, Function.update_eq_self]; rfl
    rw [q]
    show _ = (∑ i, hiddens X θ.1 i j * (deepOut X θ i b - Y i b)) / (n : ℝ)
    congr 1
    refine Finset.sum_congr rfl fun i _ => ?_
    simp only [mul_ite, mul_zero, Finset.sum_ite_eq', Finset.mem_univ, if_true]
    exact mul_comm _ _
  · intro b
    have := deepSq_deriv (Y := Y) (η := fun t => (θ.1, (θ.2.1, Function.update θ.2.2 b t))) (t := θ.2.2 b)
      (d := fun i a => if a = b then 1 else 0) fun i a => affine_deriv_b (hiddens X θ.1) θ.2 b i a
    refine this.congr_deriv ?_
    dsimp only
    rw [Function.update_eq_self]
    congr 1
    refine Finset.sum_congr rfl fun i _ => ?_
    simp only [mul_ite, mul_zero, mul_one, Finset.sum_ite_eq', Finset.mem_univ, if_true]

theorem autoStep_update (X : Matrix (Fin n) (Fin k) ℝ) (lr : ℝ) (θ : DeepParams k m k) : AutoUpdate X lr θ (AutoEncoder.autoStep X lr θ) := by
  obtain ⟨G, g⟩ := deepSq_gradients X X θ
  refine ⟨⟨_, ⟨_, _, G, g, Prod.ext (funext fun j => funext fun b => ?_) rfl⟩, fun b => ?_⟩, ?_⟩
  · show θ.2.1 j b - (∑ i, hiddens X θ.1 i j * (deepOut X θ i b - X i b)) * (lr / n) = θ.2.1 j b - lr * (_ / n)
    ring
  · show θ.2.2 b - ∑ i, (deepOut X θ i b - X i b) * lr - θ.2.2 b = n * (θ.2.2 b - lr * ((∑ i, (deepOut X θ i b - X i b)) / n) - θ.2.2 b)
    rw [← Finset.sum_mul]
    rcases Nat.eq_zero_or_pos n with rfl | hn
    · simp
    · have : (n : ℝ) ≠ 0 := by positivity
      field_simp
      ring
  · exact TwoLayer.first_gradStep X (fun i b => deepOut X θ i b - X i b) (AutoEncoder.autoStep X lr θ).2 (lr / n) (fun x => x) θ.1

/-- C122 (gradient descent, as far as it holds): every epoch makes a step of gradient descent on half the mean squared distance in the weights of the
output layer; the step of its biases is `n` times as long as it should be, and the step of the hidden layer follows the errors through the *new*
output layer (see `AutoUpdate`). Afterwards the object shows the outputs of the new parameters, and only these have changed. -/
theorem C122_gradient_descent_partial (R : AutoReady s h X θ) (lr : ℝ) (e : Int) :
    Runs (AutoEncoder.gradient_descent s lr e) h fun s' h' => ∃ θ', AutoTrained s h s' h' X θ' ∧ Chain (fun _ => AutoUpdate X lr) (epochCount e) θ θ' :=
  (AutoEncoder.gd_run R lr e).mono fun s' h' T => ⟨_, T, chain_walk (fun _ θ => autoStep_update X lr θ) _ _⟩

/-- C122 (stochastic training, as far as it holds): every epoch is such a step on the drawn sample; with one sample the biases are right, too. -/
theorem C122_sgd_partial (R : AutoReady s h X θ) {pick : Nat → Nat} (hpick : ∀ e, pick e < n) (lr : ℝ) (e : Int) :
    Runs (AutoEncoder.sgd s pick lr e) h fun s' h' => ∃ θ', AutoTrained s h s' h' X θ' ∧
      Chain (fun t => AutoUpdate (fun _ : Fin 1 => X ⟨pick (t + 1), hpick _⟩) lr) (epochCount e) θ θ' :=
  (AutoEncoder.sgd_run R hpick lr e).mono fun s' h' T => ⟨_, T, chain_walk (fun _ θ => autoStep_update _ lr θ) _ _⟩

/-- C122 (gradient descent: false): with several samples, an epoch is no step of gradient descent in the biases of the outputs, unless the mean
error vanishes. -/
theorem C122_gradient_descent_fails (R : AutoReady s h X θ) (hn : 2 ≤ n) {lr : ℝ} (hl : lr ≠ 0) {b : Fin k} (hb : ∑ i, (deepOut X θ i b - X i b) ≠ 0) :
    Runs (AutoEncoder.gradient_descent s lr 1) h fun s' h' => ∃ θ', AutoTrained s h s' h' X θ' ∧ ¬ AutoStep X lr θ θ' := by
  refine (AutoEncoder.gd_run R lr 1).mono fun s' h' T => ⟨_, T, fun N => ?_⟩
  rw [show walk (fun _ => AutoEncoder.autoStep X lr) θ (epochCount 1) = AutoEncoder.autoStep X lr θ from rfl] at N
  obtain ⟨G, g, -, hg, e⟩ := N.second
  have h2 : g b = (∑ i, (deepOut X θ i b - X i b)) / n := (hg b).unique ((deepSq_gradients X X θ).2 b)
  have h3 : θ.2.2 b - ∑ i, (deepOut X θ i b - X i b) * lr = θ.2.2 b - lr * g b := congrFun (congrArg Prod.snd e) b
  rw [← Finset.sum_mul, h2] at h3
  have hn' : (2 : ℝ) ≤ n := by exact_mod_cast hn
  have h4 : lr * (∑ i, (deepOut X θ i b - X i b)) * (n - 1) = 0 := by
    have : (n : ℝ) ≠ 0 := by positivity
    field_simp at h3
    linear_combination (-1 : ℝ) * h3
  rcases mul_eq_zero.1 h4 with q | q
  · rcases mul_eq_zero.1 q with q | q
    · exact hl q
    · exact hb q
  · linarith

/-- C122 (stochastic training: false): when the weights of the outputs are zero, the distance does not depend on the hidden layer, yet the hidden layer
moves (if the input and the error of the sample do not vanish): this is no step of gradient descent. -/
theorem C122_sgd_fails (R : AutoReady s h X θ) (h0 : θ.2.1 = 0) {pick : Nat → Nat} (hpick : ∀ e, pick e < n) {lr : ℝ} (hl : lr ≠ 0) {j b : Fin k}
    (a : Fin m) (hj : X ⟨pick 1, hpick 1⟩ j ≠ 0) (hb : X ⟨pick 1, hpick 1⟩ b ≠ θ.2.2 b) :
    Runs (AutoEncoder.sgd s pick lr 1) h fun s' h' => ∃ θ', AutoTrained s h s' h' X θ' ∧ ¬ AutoStep (fun _ : Fin 1 => X ⟨pick 1, hpick 1⟩) lr θ θ' := by
  refine (AutoEncoder.sgd_run R hpick lr 1).mono fun s' h' T => ⟨_, T, fun N => ?_⟩
  rw [show walk (fun t => AutoEncoder.autoStep (fun _ : Fin 1 => X ⟨pick (t + 1), hpick _⟩) lr) θ (epochCount 1) =
    AutoEncoder.autoStep (fun _ : Fin 1 => X ⟨pick 1, hpick 1⟩) lr θ from rfl] at N
  obtain ⟨v, ev⟩ : ∃ v, v = X ⟨pick 1, hpick 1⟩ := ⟨_, rfl⟩
  rw [← ev] at N hj hb
  have out : ∀ (η : MParams k m) b, deepOut (fun _ : Fin 1 => v) (η, θ.2) 0 b = θ.2.2 b := by
    intro η b
    unfold deepOut affine
    simp [h0]
  obtain ⟨G, g, hG, -, e⟩ := N.first
  have h1 : G j a = 0 := by
    refine (hG (j, a)).unique ?_
    have : (fun t => deepSq (fun _ : Fin 1 => v) (fun _ : Fin 1 => v) ((fun r s => Function.update (cells θ.1.1) (j, a) t (r, s), θ.1.2), θ.2)) =
        fun _ => (∑ i : Fin 1, ∑ b, (θ.2.2 b - v b) ^ 2) / (2 * ((1 : Nat) : ℝ)) := by
      funext t
      unfold deepSq
      rw [Fin.sum_univ_one, Fin.sum_univ_one]
      simp only [out]
    exact this ▸ hasDerivAt_const _ _
  rw [AutoEncoder.autoStep_one v lr θ rfl rfl] at e
  have e' := congrFun (congrFun (congrArg Prod.fst e) j) a
  dsimp only at e'
  rw [h1] at e'
  have o : ∀ b, deepOut (fun _ : Fin 1 => v) θ 0 b = θ.2.2 b := fun b => out θ.1 b
  simp only [o, h0, Matrix.zero_apply] at e'
  have ex : ∑ b, (θ.2.2 b - v b) * (0 - hiddens (fun _ : Fin 1 => v) θ.1 0 a * (θ.2.2 b - v b) * lr) =
      -(lr * hiddens (fun _ : Fin 1 => v) θ.1 0 a) * ∑ b, (θ.2.2 b - v b) ^ 2 := by
    rw [Finset.mul_sum]
    exact Finset.sum_congr rfl fun b _ => by ring
  rw [ex] at e'
  have p1 : 0 < hiddens (fun _ : Fin 1 => v) θ.1 0 a := by unfold hiddens logistic; positivity
  have p2 : 0 < Activation.sigmoid_derivr (affine (fun _ : Fin 1 => v) θ.1 0 a) := by
    show 0 < logistic _ * (1 - logistic _)
    have : logistic (affine (fun _ : Fin 1 => v) θ.1 0 a) < 1 := by
      unfold logistic
      rw [div_lt_one (by positivity)]
      linarith [Real.exp_pos (-affine (fun _ : Fin 1 => v) θ.1 0 a)]
    exact mul_pos p1 (by linarith)
  have p3 : 0 < ∑ b, (θ.2.2 b - v b) ^ 2 := by
    refine Finset.sum_pos' (fun _ _ => sq_nonneg _) ⟨b, Finset.mem_univ _, ?_⟩
    have : θ.2.2 b - v b ≠ 0 := sub_ne_zero.2 (Ne.symm hb)
    positivity
  have : v j * lr ^ 2 * (hiddens (fun _ : Fin 1 => v) θ.1 0 a * Activation.sigmoid_derivr (affine (fun _ : Fin 1 => v) θ.1 0 a) *
      ∑ b, (θ.2.2 b - v b) ^ 2) = 0 := by linear_combination e'
  rcases mul_eq_zero.1 this with q | q
  · rcases mul_eq_zero.1 q with q | q
    · exact hj q
    · exact hl (pow_eq_zero_iff two_ne_zero |>.1 q)
  · exact absurd q (by positivity)

theorem ub_stepM {β : Type} {p : Nat} {c : M ℝ Ref} {v : Matrix (Fin p) (Fin m) ℝ} {f : Ref → M ℝ β} (r : ReturnsMat c h v)
    (next : ∀ r h', h'.WF → Keeps h h' (fun _ => False) → NotIn h r → HasM h' r v → f r h' = .ub) : (c >>= f) h = .ub :=
  ub_bind r.has fun r h' q => next r h' q.1 q.2.1 q.2.2.1 q.2.2.2

/-- C122 (mini-batches: false): unless the number of hidden units happens to be the number of samples in a mini-batch, the behaviour of `mbgd` is
undefined: the product of the weights and the errors is in the wrong order, and the null it returns is used. -/
theorem C122_mbgd_fails (R : AutoReady s h X θ) (lr : ℝ) (e : Int) {b K : Nat} (hb : 0 < b) (eK : n / b = K) (hK : 0 < K)
    (hr : ∀ (i : Fin K) (j : Fin (n / K)), K * i.val + j.val < n) (ne : m ≠ n / K) : AutoEncoder.mbgd s lr e b h = .ub := by
  unfold AutoEncoder.mbgd
  rw [if_pos R.init, if_neg (by omega), R.rows]
  have eT : (n : Int).tdiv b = (K : Nat) := by rw [← eK]; exact Int.ofNat_tdiv n b
  rw [eT, Int.toNat_natCast]
  obtain ⟨ia, eia, lia, hia⟩ := R.input
  rw [eia]
  refine ub_bind (create_mini_batchesm_run R.wf lia hia hK hr) fun bs h1 ⟨w1, k1, ⟨_, _, nm⟩⟩ => ?_
  have R1 := R.keep w1 k1
  refine bind_ub (epochs_ub _ _ _ (fold_first_ub hK _ _ ?_))
  obtain ⟨o, eo, no, lo, io⟩ := nm ⟨0, hK⟩
  have r1 : batchAt bs 0 h1 = .ok (some (.m o), h1) := by unfold batchAt; rw [show bs[0]? = some _ from eo]; rfl
  refine ub_step r1 ?_
  have hx : HasM h1 (some (.m o)) _ := ⟨o, rfl, lo, io⟩
  have nx : some (Loc.m o) ∉ AutoEncoder.owned s := AutoEncoder.fresh_off R fun l e => by cases e; exact no
  generalize (some (Loc.m o) : Ref) = x at hx nx
  clear io lo no eo r1 nm
  unfold AutoEncoder.mbgdBody AutoEncoder.propagatem
  refine ub_stepM (AutoEncoder.evaluatem_spec w1 hx R1.weights1 R1.bias1 R1.weights2 R1.bias2) fun y h2 w2 k2 f2 a2 => ?_
  have R2 := R1.keep w2 k2
  adv k2
  refine ub_bind (TwoLayer.hiddenm_run w2 hx R2.weights1 R2.bias1) fun za h3 ⟨w3, k3, fz, _, z3, a3⟩ => ?_
  have R3 := R2.keep w3 k3
  adv k3
  obtain ⟨q, eq⟩ := AutoEncoder.cost_ok w3 a2 hx
  refine ub_step eq ?_
  refine ub_stepM (Hd.subnm_spec w3 a2 hx) fun er h4 w4 k4 f4 a4 => ?_
  have R4 := R3.keep w4 k4
  have oe := AutoEncoder.fresh_off R3 f4
  adv k4
  refine ub_step (Hd.sizem_run hx) ?_
  refine ub_stepM (TwoLayer.slope_spec w4 a3 a4 _) fun d h5 w5 k5 f5 a5 => ?_
  have R5 := R4.keep w5 k5
  adv k5
  refine ub_bind (Hd.subm_run w5 R5.weights2 a5) fun _ h6 ⟨w6, k6, b6⟩ => ?_
  obtain ⟨R6, K6⟩ := AutoEncoder.weights2_set R5 w6 k6 b6
  have a6 := K6.moved.mat a4 oe
  refine ub_stepM (Hd.scalar_multiplynm_spec w6 a6 lr) fun bb h7 w7 k7 f7 a7 => ?_
  have R7 := R6.keep w7 k7
  replace a6 := adv_hasm k7 a6
  refine ub_step (SoftmaxNet.sub_mat R7.bias2 a7) ?_
  refine ub_stepM (Hd.transposen_spec w7 R7.weights2) fun t h8 w8 k8 f8 a8 => ?_
  replace a6 := adv_hasm k8 a6
  have em : Hd.multn t er h8 = .ok (none, h8) := by
    obtain ⟨x, rfl, lx, ix⟩ := a8
    obtain ⟨y, rfl, ly, iy⟩ := a6
    unfold Hd.multn
    rw [bind_ok (derefM_run x h8)]
    show Mat.multn x (some y) h8 = _
    unfold Mat.multn
    dsimp only
    rw [bind_ok (Mat.size_run y h8), bind_ok (Mat.size_run x h8), ix.1, iy.1, if_neg ne]
    rfl
  refine ub_step em ?_
  replace z3 := adv_hasm k8 (adv_hasm k7 (K6.moved.mat z3 (AutoEncoder.fresh_off R2 fz)))
  refine ub_stepM (Hd.lifts_mat Activation.sigmoid_derivm_lifts w8 z3) fun g h9 w9 k9 f9 a9 => ?_
  exact bind_ub rfl

/-! ## The hypotheses are met -/

/-- Two samples of one column, one hidden unit, everything else zero. -/
noncomputable def autoHeap : Heap ℝ := Heap.ofLists 0 [[0], [0], [5]] [(1, 2, [1, 2]), (1, 2, [0, 0]), (1, 1, [0]), (1, 1, [0])]

noncomputable def exAuto : AutoEncoder :=
  ⟨true, some (.m 0), some (.m 1), some (.m 2), some (.m 3), some (.v 0), some (.v 1), none, none, 2, 1, 1⟩

theorem exAutoReady : AutoReady exAuto autoHeap !![1; 2] (0 : DeepParams 1 1 1) ∧ HasV autoHeap (some (.v 2)) (![5] : Fin 1 → ℝ) ∧
    HasM autoHeap exAuto.y_hat (0 : Matrix (Fin 2) (Fin 1) ℝ) := by
  have lv : ∀ i < 4, autoHeap.live (.m i) := by intro i hi; simp [autoHeap, Heap.ofLists, Heap.live, Loc.id]; omega
  have lw : ∀ i < 3, autoHeap.live (.v i) := by intro i hi; simp [autoHeap, Heap.ofLists, Heap.live, Loc.id]; omega
  refine ⟨⟨Heap.ofLists_wf _ _ _ (by simp), rfl, rfl, ⟨0, rfl, lv 0 (by omega), ?_⟩, ⟨2, rfl, lv 2 (by omega), ?_⟩, ⟨0, rfl, lw 0 (by omega), ?_⟩,
    ⟨3, rfl, lv 3 (by omega), ?_⟩, ⟨1, rfl, lw 1 (by omega), ?_⟩, by simp [exAuto], by simp [exAuto], by simp [exAuto]⟩,
    ⟨2, rfl, lw 2 (by omega), ?_⟩, ⟨1, rfl, lv 1 (by omega), ?_⟩⟩
  · exact ⟨by simp [autoHeap, Heap.ofLists], fun i j => by fin_cases i <;> fin_cases j <;> simp [autoHeap, Heap.ofLists]⟩
  · exact ⟨by simp [autoHeap, Heap.ofLists], fun i j => by fin_cases i; fin_cases j; simp [autoHeap, Heap.ofLists]⟩
  · exact ⟨by simp [autoHeap, Heap.ofLists], fun i => by fin_cases i; simp [autoHeap, Heap.ofLists]⟩
  · exact ⟨by simp [autoHeap, Heap.ofLists], fun i j => by fin_cases i; fin_cases j; simp [autoHeap, Heap.ofLists]⟩
  · exact ⟨by simp [autoHeap, Heap.ofLists], fun i => by fin_cases i; simp [autoHeap, Heap.ofLists]⟩
  · exact ⟨by simp [autoHeap, Heap.ofLists], fun i => by fin_cases i; simp [autoHeap, Heap.ofLists]⟩
  · exact ⟨by simp [autoHeap, Heap.ofLists], fun i j => by fin_cases i <;> fin_cases j <;> simp [autoHeap, Heap.ofLists]⟩

/-- The object of `exAutoReady` meets the hypotheses of the theorems above. -/
example : (Runs (AutoEncoder.gradient_descent exAuto 1 1) autoHeap fun s' h' => ∃ θ', AutoTrained exAuto autoHeap s' h' !![1; 2] θ' ∧
      ¬ AutoStep !![1; 2] 1 (0 : DeepParams 1 1 1) θ') ∧
    (Runs (AutoEncoder.sgd exAuto (fun _ => 1) 1 1) autoHeap fun s' h' => ∃ θ', AutoTrained exAuto autoHeap s' h' !![1; 2] θ' ∧
      ¬ AutoStep (fun _ : Fin 1 => (!![1; 2] : Matrix (Fin 2) (Fin 1) ℝ) 1) 1 (0 : DeepParams 1 1 1) θ') ∧
    AutoEncoder.mbgd exAuto 1 1 2 autoHeap = .ub := by
  have R := exAutoReady.1
  generalize exAuto = s at R ⊢
  generalize autoHeap = h at R ⊢
  refine ⟨?_, ?_, ?_⟩
  · refine C122_gradient_descent_fails R le_rfl one_ne_zero (b := 0) ?_
    simp [deepOut, affine]
    norm_num
  · exact C122_sgd_fails R rfl (pick := fun _ => 1) (fun _ => by omega) one_ne_zero (j := 0) (b := 0) 0 (by simp) (by simp)
  · exact C122_mbgd_fails R 1 1 (b := 2) (K := 1) two_pos rfl one_pos (fun i j => by have := i.2; have := j.2; omega) (by decide)

end Verif
