import Verif.Props.GlmStochastic
import Verif.Lemmas.GlmAdaptive

/-!
# C91: the adaptive training methods of linear regression

`momentum`, `nag`, `adagrad`, `adadelta`, `adam`, `adamax`, `nadam` of `MLPPLinReg` should make the steps these methods are named after, with
the gradient of the loss of a mini-batch. The factor of the gradient is computed by an integer division, `1 / size`: it is 1 for a batch of
one sample and 0 for every larger one. So with batches of two or more samples and no regularisation the weights never change. With batches of
one sample the recurrences are as stated here.
-/

namespace Verif
open Spec Finset Glm
variable {n k : Nat} {h h' : Heap ℝ} {s : Glm} {X : Matrix (Fin n) (Fin k) ℝ} {y : Fin n → ℝ} {θ : Params k} {τ : Type}

/-- The training method, with batches of one sample, makes the steps of an adaptive method, starting in the state `t0`: the samples in order,
again and again, but with the first output in place of the output of the sample. -/
def Adapts (train : M ℝ Glm) (t0 : τ) (look : τ → Fin k → ℝ) (rule : Nat → (Fin k → ℝ) → τ → τ × (Fin k → ℝ)) (learning_rate : ℝ)
    (hn : 0 < n) (epochs : Nat) (s : Glm) (h : Heap ℝ) (X : Matrix (Fin n) (Fin k) ℝ) (y : Fin n → ℝ) (θ : Params k) : Prop :=
  Runs train h fun s' h' => ∃ t' θ', Trained id s h s' h' X y θ' ∧
    Rounds hn (fun epoch i => AdaptiveStep (sqLoss id (sampleX X i) (sampleY y ⟨0, hn⟩)) (penaltySlope s.reg s.lambda s.alpha) look
      (rule epoch) learning_rate) epochs (t0, θ) (t', θ')

theorem slope_eq {r : Reg.Kind} (hr : r ≠ .weight_clipping) (l a : ℝ) : Reg.derivTerm l a r = penaltySlope r l a := by
  funext x
  cases r with
  | weight_clipping => exact absurd rfl hr
  | none => rfl
  | ridge => rfl
  | lasso => simp only [Reg.derivTerm, penaltySlope, sign_normr_eq]
  | elastic_net => simp only [Reg.derivTerm, penaltySlope, sign_normr_eq]

theorem adapt_ok {m : Nat} (hm : m = 1) (A : Matrix (Fin m) (Fin k) ℝ) (z : Fin m → ℝ) (P : ℝ → ℝ) (look : τ → Fin k → ℝ)
    (rule : (Fin k → ℝ) → τ → τ × (Fin k → ℝ)) (lr : ℝ) (a : τ × Params k) :
    AdaptiveStep (sqLoss id A z) P look rule lr a (adaptStep A z ((1 / m : Nat) : ℝ) P (fun t w => w - look t) rule lr a) := by
  subst hm
  obtain ⟨g, c, hg, hc, e⟩ := sq_gradStep (X := A) (y := z) (f := id) (g := fun _ => 1) (fun z => hasDerivAt_id z) 1 id (a.2.1 - look a.1, a.2.2)
  have e1 := congrArg Prod.fst e
  have e2 := congrArg Prod.snd e
  simp only [stepWith, id, mul_one, Nat.cast_one, div_one] at e1 e2
  have hg' : ∀ j, g j = ∑ i, A i j * (linear A (a.2.1 - look a.1, a.2.2) i - z i) := fun j => by
    have := congrFun e1 j
    linarith
  have hc' : c = ∑ i, (linear A (a.2.1 - look a.1, a.2.2) i - z i) := by linarith
  refine ⟨g, c, hg, hc, ?_⟩
  unfold adaptStep
  have : g = fun j => ∑ i, A i j * (linear A (a.2.1 - look a.1, a.2.2) i - z i) := funext hg'
  subst this hc'
  simp only [Nat.div_one, Nat.cast_one, mul_one, div_one]
  rfl

theorem one_sample {m : Nat} (hm : m = 1) (p q : Fin m → Fin n) {i i0 : Fin n} (hp : ∀ j, p j = i) (hq : ∀ j, q j = i0)
    (L : ∀ {n : Nat}, Matrix (Fin n) (Fin k) ℝ → (Fin n → ℝ) → Params k → ℝ) :
    L (fun j => X (p j)) (fun j => y (q j)) = L (sampleX X i) (sampleY y i0) := by
  subst hm
  have ep : p = fun _ => i := funext hp
  have eq : q = fun _ => i0 := funext hq
  subst ep eq
  rfl

/-- The common part of the proofs. -/
theorem adapts_of {σ : Type} (R : Ready s h X y θ) (hi : s.initialized = true) (hr : s.reg ≠ .weight_clipping) (lr : ℝ) (e : Int) (hn : 0 < n)
    {J : σ → Heap ℝ → τ → Prop} (S : StateRel s.weights J) {init : M ℝ σ} {t0 : τ}
    (hinit : ∀ h1, Ready s h1 X y θ → Runs init h1 fun st h2 => h2.WF ∧ Keeps h1 h2 (fun _ => False) ∧ J st h2 t0)
    {look : σ → Glm → M ℝ Unit} {lookf : τ → Fin k → ℝ}
    (hlook : ∀ {st s1 h1 t} {θ1 : Params k}, Ready s1 h1 X y θ1 → s1.weights = s.weights → J st h1 t → Runs (look st s1) h1 fun _ h2 =>
      h2.WF ∧ Keeps h1 h2 (some · = s.weights) ∧ HasV h2 s.weights (θ1.1 - lookf t))
    {rule : Nat → Ref → σ → M ℝ (σ × Ref)} {rulef : Nat → (Fin k → ℝ) → τ → τ × (Fin k → ℝ)}
    (hrule : ∀ ep, RuleOk s.weights J (rule ep) (rulef ep)) :
    Adapts (LinReg.adaptive init look rule s lr e (1 : Nat)) t0 lookf rulef lr hn (epochCount e) s h X y θ := by
  have hd : n / n = 1 := Nat.div_self hn
  refine (adaptive_run R hi lr e one_pos (Nat.div_one n) hn (by rw [hd]; exact one_pos) S hinit (lookf := fun t w => w - lookf t) hlook
    (rulef := rulef) fun {ep g st h1 t u v} a b c d => hrule ep a b c d).mono fun s' h' T => ⟨(walk (roundStep hn fun ep i =>
      adaptStep (batchX X n i) (firstY y n) ((1 / (n / n) : Nat) : ℝ) (Reg.derivTerm s.lambda s.alpha s.reg) (fun t w => w - lookf t)
        (rulef ep) lr) (t0, θ) (epochCount e * n)).1, _, T, ?_⟩
  refine rounds_walk hn (fun ep i a => ?_) _ _
  rw [slope_eq hr]
  have := adapt_ok hd (batchX X n i) (firstY y n) (penaltySlope s.reg s.lambda s.alpha) lookf (rulef ep) lr a
  have e1 : sqLoss id (batchX X n i) (firstY y n) = sqLoss id (sampleX X i) (sampleY y ⟨0, hn⟩) := by
    refine one_sample hd (fun j => ⟨n / n * i + j, batchRow_lt n n i j⟩) (fun j => ⟨j, j.2.trans_le (Nat.div_le_self n n)⟩) (fun j => ?_)
      (fun j => ?_) (sqLoss id)
    · have : j.val < 1 := j.2.trans_le hd.le
      apply Fin.ext
      show n / n * i.val + j.val = i.val
      have e2 : n / n * i.val = i.val := by simp [hd]
      omega
    · have : j.val < 1 := j.2.trans_le hd.le
      apply Fin.ext
      show j.val = 0
      omega
  rw [e1] at this
  exact this

theorem plain_look {σ : Type} {J : σ → Heap ℝ → τ → Prop} {st : σ} {s1 : Glm} {h1 : Heap ℝ} {t : τ} {θ1 : Params k}
    (R1 : Ready s1 h1 X y θ1) (ew : s1.weights = s.weights) (_ : J st h1 t) :
    Runs ((fun _ _ => pure () : σ → Glm → M ℝ Unit) st s1) h1 fun _ h2 =>
      h2.WF ∧ Keeps h1 h2 (some · = s.weights) ∧ HasV h2 s.weights (θ1.1 - (fun _ => 0 : τ → Fin k → ℝ) t) :=
  Runs.of_eq rfl ⟨R1.wf, Keeps.refl _ _, by rw [sub_zero, ← ew]; exact R1.weights⟩

theorem nag_look (gamma : ℝ) {st : Ref} {s1 : Glm} {h1 : Heap ℝ} {t : Fin k → ℝ} {θ1 : Params k} (R1 : Ready s1 h1 X y θ1)
    (ew : s1.weights = s.weights) (j : StV s.weights st h1 t) :
    Runs (do let a ← Hd.scalar_multiplyn st gamma; Hd.sub s1.weights a) h1 fun _ h2 =>
      h2.WF ∧ Keeps h1 h2 (some · = s.weights) ∧ HasV h2 s.weights (θ1.1 - fun j => gamma * t j) := by
  refine stepV (Hd.scalar_multiplyn_spec R1.wf j.1 gamma) fun a h2 w2 k2 f2 a2 => ?_
  refine (Hd.sub_run w2 (R1.keep w2 k2).weights a2).mono fun _ h3 ⟨w3, k3, a3⟩ => ⟨w3, ?_, ?_⟩
  · rw [← ew]; exact (k2.mono fun _ _ => nofun).trans k3
  · rw [← ew]; exact a3.cast (funext fun j => by simp [mul_comm])

variable (R : Ready s h X y θ) (hi : s.initialized = true) (hr : s.reg ≠ .weight_clipping) (lr : ℝ) (e : Int) (hn : 0 < n)
include R hi hr

/-- C91 for `momentum`, with batches of one sample. -/
theorem C91_momentum_partial (gamma : ℝ) :
    Adapts (LinReg.momentum s lr e (1 : Nat) gamma) (fun _ => 0) (fun _ _ => 0) (fun _ => momentumRule gamma lr) lr hn (epochCount e) s h X y θ :=
  adapts_of R hi hr lr e hn (stV_rel _) (fun _ R1 => zeros_init R1) plain_look fun _ => momentum_rule _ gamma lr

/-- C91 for `nag`, with batches of one sample: the gradient is taken ahead, at `w - γ v`, but the weights stay there before `v` is
subtracted. -/
theorem C91_nag_partial (gamma : ℝ) :
    Adapts (LinReg.nag s lr e (1 : Nat) gamma) (fun _ => 0) (fun v j => gamma * v j) (fun _ => momentumRule gamma lr) lr hn (epochCount e)
      s h X y θ :=
  adapts_of R hi hr lr e hn (stV_rel _) (fun _ R1 => zeros_init R1) (fun a b c => nag_look gamma a b c) fun _ => momentum_rule _ gamma lr

/-- C91 for `adagrad`, with batches of one sample: the squares of the gradients are not accumulated. -/
theorem C91_adagrad_partial (ε : ℝ) :
    Adapts (LinReg.adagrad s lr e (1 : Nat) ε) (fun _ => 0) (fun _ _ => 0) (fun _ => adagradRule ε lr) lr hn (epochCount e) s h X y θ :=
  adapts_of R hi hr lr e hn (stV_rel _) (fun _ R1 => zeros_init R1) plain_look fun _ => adagrad_rule _ ε lr

/-- C91 for `adadelta`, with batches of one sample. -/
theorem C91_adadelta_partial (b1 ε : ℝ) :
    Adapts (LinReg.adadelta s lr e (1 : Nat) b1 ε) (fun _ => 0) (fun _ _ => 0) (fun _ => adadeltaRule b1 ε lr) lr hn (epochCount e) s h X y θ :=
  adapts_of R hi hr lr e hn (stV_rel _) (fun _ R1 => zeros_init R1) plain_look fun _ => adadelta_rule _ b1 ε lr

/-- C91 for `adam`, with batches of one sample: the exponents of the correction count epochs, not steps. -/
theorem C91_adam_partial (b1 b2 ε : ℝ) :
    Adapts (LinReg.adam s lr e (1 : Nat) b1 b2 ε) (fun _ => 0, fun _ => 0) (fun _ _ => 0) (adamRule b1 b2 ε lr) lr hn (epochCount e) s h X y θ :=
  adapts_of R hi hr lr e hn (stV2_rel _) (fun _ R1 => zeros2_init R1) plain_look fun ep => adam_rule _ b1 b2 ε lr ep

/-- C91 for `adamax`, with batches of one sample, where no gradient is 0 in a component in which all before were. -/
theorem C91_adamax_partial (b1 b2 : ℝ) :
    Adapts (LinReg.adamax s lr e (1 : Nat) b1 b2) (fun _ => 0, fun _ => 0) (fun _ _ => 0) (adamaxRule b1 b2 lr) lr hn (epochCount e) s h X y θ :=
  adapts_of R hi hr lr e hn (stV2_rel _) (fun _ R1 => zeros2_init R1) plain_look fun ep => adamax_rule _ b1 b2 lr ep

/-- C91 for `nadam`, with batches of one sample: the first moment is not corrected before it is used. -/
theorem C91_nadam_partial (b1 b2 ε : ℝ) :
    Adapts (LinReg.nadam s lr e (1 : Nat) b1 b2 ε) (fun _ => 0, fun _ => 0) (fun _ _ => 0) (nadamRule b1 b2 ε lr) lr hn (epochCount e) s h X y θ :=
  adapts_of R hi hr lr e hn (stV2_rel _) (fun _ R1 => zeros2_init R1) plain_look fun ep => nadam_rule _ b1 b2 ε lr ep

omit R hi hr

theorem frozen {σ : Type} (R : Ready s h X y θ) (hi : s.initialized = true) (hr : s.reg = .none) (lr : ℝ) (e : Int) {b : Nat} (hb : 2 ≤ b)
    (hbn : b ≤ n) {J : σ → Heap ℝ → τ → Prop} (S : StateRel s.weights J) {init : M ℝ σ} {t0 : τ}
    (hinit : ∀ h1, Ready s h1 X y θ → Runs init h1 fun st h2 => h2.WF ∧ Keeps h1 h2 (fun _ => False) ∧ J st h2 t0)
    {look : σ → Glm → M ℝ Unit} {lookf : τ → Fin k → ℝ}
    (hlook : ∀ {st s1 h1 t} {θ1 : Params k}, Ready s1 h1 X y θ1 → s1.weights = s.weights → J st h1 t → Runs (look st s1) h1 fun _ h2 =>
      h2.WF ∧ Keeps h1 h2 (some · = s.weights) ∧ HasV h2 s.weights (θ1.1 - lookf t))
    {rule : Nat → Ref → σ → M ℝ (σ × Ref)} {rulef : Nat → (Fin k → ℝ) → τ → τ × (Fin k → ℝ)}
    (hrule : ∀ ep, RuleOk s.weights J (rule ep) (rulef ep)) (P : τ → Prop) (p0 : P t0)
    (hP : ∀ ep t, P t → lookf t = 0 ∧ P (rulef ep (fun _ => 0) t).1 ∧ (rulef ep (fun _ => 0) t).2 = 0) :
    Runs (LinReg.adaptive init look rule s lr e b) h fun s' h' => ∃ c, Trained id s h s' h' X y (θ.1, c) := by
  have hb0 : 0 < b := by omega
  have hK : 0 < n / b := Nat.div_pos hbn hb0
  have hm : 2 ≤ n / (n / b) := by
    rw [Nat.le_div_iff_mul_le hK]
    have := Nat.mul_div_le n b
    nlinarith
  refine (adaptive_run R hi lr e hb0 rfl hK (by omega) S hinit (lookf := fun t w => w - lookf t) hlook
    (rulef := rulef) fun {ep g st h1 t u v} a b c d => hrule ep a b c d).mono fun s' h' T => ?_
  have q0 : ((1 / (n / (n / b)) : Nat) : ℝ) = 0 := by rw [Nat.div_eq_of_lt (by omega)]; exact Nat.cast_zero
  rw [q0, hr] at T
  have key : ∀ N, (walk (roundStep hK fun ep i => adaptStep (batchX X (n / b) i) (firstY y (n / b)) 0 (Reg.derivTerm s.lambda s.alpha .none)
      (fun t w => w - lookf t) (rulef ep) lr) (t0, θ) N).2.1 = θ.1 ∧
      P (walk (roundStep hK fun ep i => adaptStep (batchX X (n / b) i) (firstY y (n / b)) 0 (Reg.derivTerm s.lambda s.alpha .none)
      (fun t w => w - lookf t) (rulef ep) lr) (t0, θ) N).1 := by
    intro N
    induction N with
    | zero => exact ⟨rfl, p0⟩
    | succ N ih =>
      obtain ⟨ih1, ih2⟩ := ih
      rw [show ∀ (f : Nat → τ × Params k → τ × Params k) a, walk f a (N + 1) = f N (walk f a N) from fun _ _ => rfl]
      generalize walk _ _ N = a at ih1 ih2
      obtain ⟨l0, p1, u0⟩ := hP (N / (n / b) + 1) a.1 ih2
      simp only [roundStep, adaptStep, mul_zero, Reg.derivTerm, add_zero]
      refine ⟨?_, p1⟩
      rw [u0, l0, sub_zero, ← ih1]
      funext j
      simp
  exact ⟨_, by rw [← (key (epochCount e * (n / b))).1]; exact T⟩

/-- C91 does not hold for batches of two or more samples: without regularisation the weights are never changed, whatever the data, the
learning rate and the number of epochs. (`adamax` divides zero by zero instead.) -/
theorem C91_frozen_fails (R : Ready s h X y θ) (hi : s.initialized = true) (hr : s.reg = .none) (lr : ℝ) (e : Int) {b : Nat} (hb : 2 ≤ b)
    (hbn : b ≤ n) {gamma b1 b2 ε : ℝ} (_ : 0 < ε) (_ : 0 ≤ b1 ∧ b1 < 1) (_ : 0 ≤ b2 ∧ b2 < 1) :
    ∀ train ∈ [LinReg.momentum s lr e b gamma, LinReg.nag s lr e b gamma, LinReg.adagrad s lr e b ε, LinReg.adadelta s lr e b b1 ε,
      LinReg.adam s lr e b b1 b2 ε, LinReg.nadam s lr e b b1 b2 ε],
    Runs train h fun s' h' => ∃ c, Trained id s h s' h' X y (θ.1, c) := by
  intro train ht
  simp only [List.mem_cons, List.not_mem_nil, or_false] at ht
  rcases ht with rfl | rfl | rfl | rfl | rfl | rfl
  · refine frozen R hi hr lr e hb hbn (stV_rel _) (fun _ R1 => zeros_init R1) (lookf := fun _ _ => 0) plain_look
      (fun _ => momentum_rule _ gamma lr) (fun t => t = fun _ => 0) rfl ?_
    rintro ep t rfl
    exact ⟨rfl, by simp [momentumRule], by funext j; simp [momentumRule]⟩
  · refine frozen R hi hr lr e hb hbn (stV_rel _) (fun _ R1 => zeros_init R1) (lookf := fun v j => gamma * v j)
      (fun a b c => nag_look gamma a b c) (fun _ => momentum_rule _ gamma lr) (fun t => t = fun _ => 0) rfl ?_
    rintro ep t rfl
    exact ⟨by funext j; simp, by simp [momentumRule], by funext j; simp [momentumRule]⟩
  · refine frozen R hi hr lr e hb hbn (stV_rel _) (fun _ R1 => zeros_init R1) (lookf := fun _ _ => 0) plain_look
      (fun _ => adagrad_rule _ ε lr) (fun _ => True) trivial ?_
    rintro ep t -
    exact ⟨rfl, trivial, by funext j; simp [adagradRule]⟩
  · refine frozen R hi hr lr e hb hbn (stV_rel _) (fun _ R1 => zeros_init R1) (lookf := fun _ _ => 0) plain_look
      (fun _ => adadelta_rule _ b1 ε lr) (fun _ => True) trivial ?_
    rintro ep t -
    exact ⟨rfl, trivial, by funext j; simp [adadeltaRule]⟩
  · refine frozen R hi hr lr e hb hbn (stV2_rel _) (fun _ R1 => zeros2_init R1) (lookf := fun _ _ => 0) plain_look
      (fun ep => adam_rule _ b1 b2 ε lr ep) (fun t => t.1 = fun _ => 0) rfl ?_
    rintro ep ⟨t1, t2⟩ rfl
    exact ⟨rfl, by simp [adamRule], by funext j; simp [adamRule]⟩
  · refine frozen R hi hr lr e hb hbn (stV2_rel _) (fun _ R1 => zeros2_init R1) (lookf := fun _ _ => 0) plain_look
      (fun ep => nadam_rule _ b1 b2 ε lr ep) (fun t => t.1 = fun _ => 0) rfl ?_
    rintro ep ⟨t1, t2⟩ rfl
    exact ⟨rfl, by simp [nadamRule], by funext j; simp [nadamRule]⟩

/-- The hypotheses are met. -/
example : Ready (exGlm .none) glmHeap exX exY exθ ∧ (exGlm .none).initialized = true ∧ (exGlm .none).reg = .none ∧
    (exGlm .ridge).reg ≠ .weight_clipping ∧ Ready (exGlm .ridge) glmHeap exX exY exθ ∧ 0 < 3 ∧ 2 ≤ 2 ∧ 2 ≤ 3 :=
  ⟨exReady _, rfl, rfl, by simp [exGlm], exReady _, by decide, by decide, by decide⟩

end Verif
