import Verif.Lemmas.GlmMath
import Verif.Lemmas.GlmSgd
import Verif.Props.WeightInit
import Verif.Lemmas.GlmExample

/-!
# C86: the linear models predict `f (w · x + b)`

`f` is the link function of the class: the identity, the logistic function, the hyperbolic tangent, the normal distribution function, the
complementary log-log function.
-/

namespace Verif
open Spec Finset Glm
variable {n k m : Nat} {h : Heap ℝ} {s : Glm} {X : Matrix (Fin n) (Fin k) ℝ} {y : Fin n → ℝ} {θ : Params k}

theorem normalCdf_eq : Activation.gaussian_cdf_normr = normalCdf := by
  have c : Continuous fun t : ℝ => Real.exp (-t ^ 2 / 2) := by fun_prop
  have d : ∀ z, HasDerivAt normalCdf (Activation.gaussian_cdf_derivr z) z := by
    intro z
    have := ((intervalIntegral.integral_hasDerivAt_right (a := 0) (b := z) (c.intervalIntegrable _ _) (c.stronglyMeasurableAtFilter _ _)
      c.continuousAt).const_mul (1 / Real.sqrt (2 * Real.pi))).const_add (1 / 2)
    refine this.congr_deriv ?_
    unfold Activation.gaussian_cdf_derivr
    rw [show -z ^ 2 / 2 = -z * z / 2 by ring]
  have e : ∀ z, HasDerivAt (fun z => Activation.gaussian_cdf_normr z - normalCdf z) 0 z := fun z => by
    have := (Activation.hasDerivAt_gaussian_cdf z).sub (d z)
    rwa [sub_self] at this
  funext z
  have h0 := is_const_of_deriv_eq_zero (fun z => (e z).differentiableAt) (fun z => (e z).deriv) z 0
  have z1 : Activation.gaussian_cdf_normr 0 = 1 / 2 := by simp [Activation.gaussian_cdf_normr, erfReal]
  have z2 : normalCdf 0 = 1 / 2 := by simp [normalCdf]
  rw [z1, z2] at h0
  linarith

theorem logReg_link : Computes LogReg.fns logistic := logReg_computes
theorem cloglogReg_link : Computes CLogLogReg.fns cLogLog := cloglogReg_computes
theorem tanhReg_link : Computes TanhReg.fns Real.tanh := by rw [← Activation.tanh_fun]; exact tanhReg_computes
theorem probitReg_link : Computes ProbitReg.fns normalCdf := by rw [← normalCdf_eq]; exact probitReg_computes

theorem needs_init_run (R : Ready s h X y θ) {p : Fin n → ℝ} (hp : HasV h s.y_hat p) : needs_init s h = .ok (false, h) := by
  obtain ⟨a, ea, -, -⟩ := R.input
  obtain ⟨b, eb, -, -⟩ := R.output
  have h1 := Hd.sizem_run R.input
  have h2 := Hd.size_run hp
  have h3 := Hd.size_run R.weights
  unfold needs_init
  rw [ea, eb]
  dsimp only
  rw [← ea, bind_ok h1, bind_ok h2, if_neg (by simp), bind_ok h3]
  simp [pure, M.pure]

theorem needs_init_null (hn : s.input_set = none ∨ s.output_set = none) : needs_init s h = .ok (true, h) := by
  unfold needs_init
  rcases hn with e | e
  · rw [e]; rfl
  · rw [e]; cases s.input_set <;> rfl

/-- `test` and `set_test` are the predictions of `θ` with link function `f`: for one sample the number `f (w · x + b)`, without any effect,
and for the samples that are the rows of a matrix a new vector of these numbers. -/
def Predicts (f : ℝ → ℝ) (h : Heap ℝ) (θ : Params k) (test : Ref → M ℝ ℝ) (set_test : Ref → M ℝ Ref) : Prop :=
  (∀ (x : Ref) (u : Fin k → ℝ), HasV h x u → test x h = .ok (f (∑ j, θ.1 j * u j + θ.2), h)) ∧
  (∀ (x : Ref) (m : Nat) (A : Matrix (Fin m) (Fin k) ℝ), HasM h x A → ReturnsVec (set_test x) h fun i => f (∑ j, θ.1 j * A i j + θ.2))

theorem predicts_of {F : Fns} {f : ℝ → ℝ} (C : Computes F f) (w : h.WF) (hw : HasV h s.weights θ.1) (hb : s.bias = θ.2) :
    Predicts f h θ (evaluatev F s) (evaluatem F s) := by
  refine ⟨fun x u hx => ?_, fun x m A hx => ?_⟩
  · rw [evaluatev_run C w hx hw, hb]
  · have := evaluatem_spec C w hx hw
    rw [hb] at this
    convert this using 4 with i
    unfold linear
    simp only [mul_comm]

/-- C86 for `MLPPLinReg`. -/
theorem C86_lin_reg (R : Ready s h X y θ) (hi : s.initialized = true) :
    Predicts id h θ (LinReg.model_test s) (LinReg.model_set_test s) := by
  have := predicts_of linReg_computes R.wf R.weights R.bias
  unfold LinReg.model_test LinReg.model_set_test
  simpa only [hi, if_true] using this

/-- C86 for `MLPPLogReg`. -/
theorem C86_log_reg (R : Ready s h X y θ) (hi : s.initialized = true) :
    Predicts logistic h θ (LogReg.model_test s) (LogReg.model_set_test s) := by
  have := predicts_of logReg_link R.wf R.weights R.bias
  unfold LogReg.model_test LogReg.model_set_test
  simpa only [hi, if_true] using this

/-- C86 for `MLPPTanhReg`. -/
theorem C86_tanh_reg (R : Ready s h X y θ) {p : Fin n → ℝ} (hp : HasV h s.y_hat p) :
    Predicts Real.tanh h θ (TanhReg.model_test s) (TanhReg.model_set_test s) := by
  have q := predicts_of tanhReg_link R.wf R.weights R.bias
  refine ⟨fun x u hx => ?_, fun x m A hx => ?_⟩
  · unfold TanhReg.model_test
    rw [bind_ok (needs_init_run R hp)]
    exact q.1 x u hx
  · unfold TanhReg.model_set_test
    exact Runs.step (needs_init_run R hp) (q.2 x m A hx)

/-- C86 for `MLPPProbitReg`. -/
theorem C86_probit_reg (R : Ready s h X y θ) {p : Fin n → ℝ} (hp : HasV h s.y_hat p) :
    Predicts normalCdf h θ (ProbitReg.model_test s) (ProbitReg.model_set_test s) := by
  have q := predicts_of probitReg_link R.wf R.weights R.bias
  refine ⟨fun x u hx => ?_, fun x m A hx => ?_⟩
  · unfold ProbitReg.model_test
    rw [bind_ok (needs_init_run R hp)]
    exact q.1 x u hx
  · unfold ProbitReg.model_set_test
    exact Runs.step (needs_init_run R hp) (q.2 x m A hx)

/-- C86 for `MLPPCLogLogReg`. -/
theorem C86_cloglog_reg (R : Ready s h X y θ) : Predicts cLogLog h θ (CLogLogReg.model_test s) (CLogLogReg.model_set_test s) :=
  predicts_of cloglogReg_link R.wf R.weights R.bias

/-- C86 (no data): an object made without data answers 0 and null, and the training methods leave it as it is. -/
theorem C86_uninitialized (h : Heap ℝ) (s : Glm) (hi : s.initialized = false) (r : Ref) (pick : Nat → Nat) (lr : ℝ) (e b : Int)
    (c d x : ℝ) :
    LinReg.model_test s r h = .ok (0, h) ∧ LinReg.model_set_test s r h = .ok (none, h) ∧ LinReg.score s h = .ok (0, h) ∧
    LogReg.model_test s r h = .ok (0, h) ∧ LogReg.model_set_test s r h = .ok (none, h) ∧ LogReg.score s h = .ok (0, h) ∧
    ∀ train ∈ [LinReg.gradient_descent s lr e, LinReg.newton_raphson s lr e, LinReg.sgd s pick lr e, LinReg.mbgd s lr e b,
      LinReg.momentum s lr e b c, LinReg.nag s lr e b c, LinReg.adagrad s lr e b c, LinReg.adadelta s lr e b c d,
      LinReg.adam s lr e b c d x, LinReg.adamax s lr e b c d, LinReg.nadam s lr e b c d x, LinReg.normal_equation s,
      LogReg.gradient_descent s lr e, LogReg.mle s lr e, LogReg.sgd s pick lr e, LogReg.mbgd s lr e b], train h = .ok (s, h) := by
  refine ⟨?_, ?_, ?_, ?_, ?_, ?_, ?_⟩
  · unfold LinReg.model_test; rw [hi]; rfl
  · unfold LinReg.model_set_test; rw [hi]; rfl
  · unfold LinReg.score; rw [hi]; rfl
  · unfold LogReg.model_test; rw [hi]; rfl
  · unfold LogReg.model_set_test; rw [hi]; rfl
  · unfold LogReg.score; rw [hi]; rfl
  · intro t ht
    have ad : ∀ {σ : Type} (i : M ℝ σ) (l : σ → Glm → M ℝ Unit) (r : Nat → Ref → σ → M ℝ (σ × Ref)),
        LinReg.adaptive i l r s lr e b h = .ok (s, h) := by
      intro σ i l r; unfold LinReg.adaptive; rw [hi]; rfl
    simp only [List.mem_cons, List.not_mem_nil, or_false] at ht
    rcases ht with rfl | rfl | rfl | rfl | rfl | rfl | rfl | rfl | rfl | rfl | rfl | rfl | rfl | rfl | rfl | rfl
    · unfold LinReg.gradient_descent; rw [hi]; rfl
    · unfold LinReg.newton_raphson; rw [hi]; rfl
    · unfold LinReg.sgd; rw [hi]; rfl
    · unfold LinReg.mbgd; rw [hi]; rfl
    · exact ad _ _ _
    · exact ad _ _ _
    · exact ad _ _ _
    · exact ad _ _ _
    · exact ad _ _ _
    · exact ad _ _ _
    · exact ad _ _ _
    · unfold LinReg.normal_equation; rw [hi]; rfl
    · unfold LogReg.gradient_descent; rw [hi]; rfl
    · unfold LogReg.mle; rw [hi]; rfl
    · unfold LogReg.sgd; rw [hi]; rfl
    · unfold LogReg.mbgd; rw [hi]; rfl

/-- C86 (no data): the same for the classes that look at their data instead of at a flag. -/
theorem C86_missing_data (h : Heap ℝ) (s : Glm) (hn : s.input_set = none ∨ s.output_set = none) (r : Ref) (pick : Nat → Nat) (lr : ℝ)
    (e b : Int) :
    TanhReg.model_test s r h = .ok (0, h) ∧ TanhReg.model_set_test s r h = .ok (none, h) ∧ TanhReg.score s h = .ok (0, h) ∧
    ProbitReg.model_test s r h = .ok (0, h) ∧ ProbitReg.model_set_test s r h = .ok (none, h) ∧ ProbitReg.score s h = .ok (0, h) ∧
    ∀ train ∈ [TanhReg.train_gradient_descent s lr e, TanhReg.train_sgd s pick lr e, TanhReg.train_mbgd s lr e b,
      ProbitReg.train_gradient_descent s lr e, ProbitReg.train_mle s lr e, ProbitReg.train_sgd s pick lr e, ProbitReg.train_mbgd s lr e b],
      train h = .ok (s, h) := by
  have q := needs_init_null (h := h) hn
  refine ⟨?_, ?_, ?_, ?_, ?_, ?_, ?_⟩
  · exact bind_ok q
  · exact bind_ok q
  · exact bind_ok q
  · exact bind_ok q
  · exact bind_ok q
  · exact bind_ok q
  · intro t ht
    simp only [List.mem_cons, List.not_mem_nil, or_false] at ht
    rcases ht with rfl | rfl | rfl | rfl | rfl | rfl | rfl <;> exact bind_ok q

/-- C86: `MLPPTanhReg::set_output_set` always sets null — its parameter is a matrix, the field a vector —, whatever is passed; from then on
the object answers 0 and cannot be trained (`C86_missing_data`). -/
theorem C86_tanh_set_output_set_fails (h : Heap ℝ) (s : Glm) (val r : Ref) (lr : ℝ) (e : Int) :
    (TanhReg.set_output_set s val).output_set = none ∧
    TanhReg.model_test (TanhReg.set_output_set s val) r h = .ok (0, h) ∧
    TanhReg.train_gradient_descent (TanhReg.set_output_set s val) lr e h = .ok (TanhReg.set_output_set s val, h) := by
  have e0 : (TanhReg.set_output_set s val).output_set = none := by
    unfold TanhReg.set_output_set
    rcases val with _ | l
    · rfl
    · cases l <;> rfl
  have q := C86_missing_data h (TanhReg.set_output_set s val) (.inr e0) r id lr e e
  exact ⟨e0, q.1, q.2.2.2.2.2.2 _ (by simp)⟩

/-- C86: and `get_output_set` returns null even when there is an output set. -/
theorem C86_tanh_get_output_set_fails {v : Fin n → ℝ} (hv : HasV h s.output_set v) : TanhReg.get_output_set s = none := by
  obtain ⟨a, e, -, -⟩ := hv
  unfold TanhReg.get_output_set
  rw [e]; rfl

/-! ## Constructors -/

/-- C86 (constructors): an object made from an input set and an output set is set up, its weights and its bias are the numbers drawn, in
`[0, 1)`; nothing that existed changes. -/
theorem C86_create (gw gb : Utilities.Source) (w : h.WF) {a b : Ref} (ha : HasM h a X) (hb : HasV h b y) (r : Reg.Kind) (l al : ℝ) :
    Runs (create gw gb a b r l al) h fun s h' => ∃ θ p, Ready s h' X y θ ∧ HasV h' s.y_hat (p : Fin n → ℝ) ∧
      Keeps h h' (fun _ => False) ∧ s.initialized = true ∧ s.input_set = a ∧ s.output_set = b ∧ s.reg = r ∧ s.lambda = l ∧ s.alpha = al ∧
      (∀ j, θ.1 j = gw.u j) ∧ θ.2 = gb.u 0 := by
  unfold create
  refine Runs.step (Hd.sizem_run ha) ?_
  refine stepNewV w fun o1 h1 v1 w1 k1 f1 a1 => ?_
  have ha1 := adv_hasm k1 ha
  have hb1 := adv_hasv k1 hb
  refine stepNewV w1 fun o2 h2 v2 w2 k2 f2 a2 => ?_
  obtain ⟨_, e2, l2, i2⟩ := a2
  cases e2
  refine Runs.bind ((Utilities.C64_vector gw h2 w2 o2 v2 i2 .default).mono fun _ h3 ⟨w3, k3, a3⟩ => ?_)
  refine Runs.step (show Utilities.bias_initializationr gb h3 = .ok (gb.u 0, h3) from Utilities.uniform01_run gb 0 h3) ?_
  have K3 : Keeps h2 h3 (some · = some (Loc.v o2)) := k3.mono fun _ _ e => congrArg some e
  have ne : b ≠ some (.v o2) := (f2.ne hb1).symm
  have ne1 : some (Loc.v o1) ≠ some (Loc.v o2) := (f2.ne a1).symm
  refine Runs.of_eq rfl ⟨(_, gb.u 0), v1, ⟨w3, rfl, rfl, ?_, ?_, ⟨o2, rfl, K3.live l2, a3⟩, rfl, ne⟩,
    ?_, ?_, rfl, rfl, rfl, rfl, rfl, rfl, fun j => rfl, rfl⟩
  · exact (adv_hasm k2 ha1).off K3 (v := v2) ⟨o2, rfl, l2, i2⟩
  · exact (adv_hasv k2 hb1).off K3 ne
  · exact (adv_hasv k2 a1).off K3 ne1
  · exact (k1.trans k2).trans_new K3 fun l e hl => f2 l e.symm (k1.live hl)

/-- The hypotheses are met. -/
example : Ready (exGlm .none) glmHeap exX exY exθ ∧ HasV glmHeap (exGlm .none).y_hat (![0, 0, 0] : Fin 3 → ℝ) ∧ (exGlm .none).initialized = true ∧
    HasV glmHeap (some (.v 3)) (![5, -5] : Fin 2 → ℝ) := ⟨exReady _, exShown _, rfl, exSample⟩

end Verif
