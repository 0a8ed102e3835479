import Verif.Spec.Glm
import Verif.Lemmas.Handle
import Mathlib.Data.Sign.Basic

/-! # The shared text of the linear models -/

namespace Verif
open Spec Finset

namespace Glm
variable {n k : Nat} {h h' : Heap ℝ} {s : Glm} {X : Matrix (Fin n) (Fin k) ℝ} {y : Fin n → ℝ} {θ : Params k} {F : Fns} {f g : ℝ → ℝ}

/-- The functions of a class compute the link function `f`. -/
structure Computes (F : Fns) (f : ℝ → ℝ) : Prop where
  normr : F.normr = f
  normv : ∀ {n : Nat} {h : Heap ℝ} {z : Ref} {v : Fin n → ℝ}, h.WF → HasV h z v →
    Runs (F.normv z) h fun r h' => h'.WF ∧ Keeps h h' (fun _ => False) ∧ HasV h' r (fun i => f (v i)) ∧ (r = z ∨ NotIn h r)
  loss : ∀ {n : Nat} {h : Heap ℝ} {a b : Ref} {p y : Fin n → ℝ}, h.WF → HasV h a p → HasV h b y → ∃ c, F.loss a b h = .ok (c, h)

/-- The functions of a class compute `g` as the derivative of the link function. -/
def Derives (F : Fns) (g : ℝ → ℝ) : Prop :=
  ∀ {n : Nat} {h : Heap ℝ} {z : Ref} {v : Fin n → ℝ}, h.WF → HasV h z v → ReturnsVec (F.derivv z) h fun i => g (v i)

theorem computes_lifts {normr : ℝ → ℝ} {normv derivv : Ref → M ℝ Ref} {loss : Ref → Ref → M ℝ ℝ} {z : Bool} (l : Lifts Loc.v normr normv)
    (hl : ∀ {n : Nat} {h : Heap ℝ} {a b : Ref} {p y : Fin n → ℝ}, h.WF → HasV h a p → HasV h b y → ∃ c, loss a b h = .ok (c, h)) :
    Computes ⟨normr, normv, derivv, loss, z⟩ normr where
  normr := rfl
  normv := by
    rintro n h z v w ⟨a, rfl, la, ha⟩
    exact (l.vec w ha la).has.mono fun r h' q => ⟨q.1, q.2.1, q.2.2.2, .inr q.2.2.1⟩
  loss := hl

theorem loss_ok {L : Ref → Ref → M ℝ ℝ} {t : ℝ → ℝ → ℝ} {c : ℝ → Size → ℝ} (e : L = fun a b => Cost.lossOf t c (Ref.asV a) (Ref.asV b))
    {n : Nat} {h : Heap ℝ} {a b : Ref} {p y : Fin n → ℝ} (w : h.WF) (ha : HasV h a p) (hb : HasV h b y) : ∃ c, L a b h = .ok (c, h) := by
  obtain ⟨a, rfl, la, ha⟩ := ha
  obtain ⟨b, rfl, lb, hb⟩ := hb
  rw [e]
  exact ⟨_, Cost.lossOf_vec w ha hb⟩

theorem linReg_computes : Computes LinReg.fns id where
  normr := rfl
  normv := fun w hv => Runs.of_eq rfl ⟨w, Keeps.refl _ _, hv, .inl rfl⟩
  loss := loss_ok rfl
theorem logReg_computes : Computes LogReg.fns Activation.sigmoid_normr := computes_lifts Activation.sigmoid_normv_lifts (loss_ok rfl)
theorem tanhReg_computes : Computes TanhReg.fns Activation.tanh_normr := computes_lifts Activation.tanh_normv_lifts (loss_ok rfl)
theorem probitReg_computes : Computes ProbitReg.fns Activation.gaussian_cdf_normr :=
  computes_lifts Activation.gaussian_cdf_normv_lifts (loss_ok rfl)
theorem cloglogReg_computes : Computes CLogLogReg.fns Activation.cloglog_normr :=
  computes_lifts Activation.cloglog_normv_lifts (loss_ok rfl)

theorem derives_lifts (l : Lifts Loc.v g F.derivv) : Derives F g := by
  rintro n h z v w ⟨a, rfl, la, ha⟩
  exact l.vec w ha la

/-! ## Moving facts along -/

theorem _root_.Verif.Spec.Ready.keep (R : Ready s h X y θ) (w : h'.WF) (k : Keeps h h' (fun _ => False)) : Ready s h' X y θ :=
  ⟨w, R.rows, R.cols, adv_hasm k R.input, adv_hasv k R.output, adv_hasv k R.weights, R.bias, R.apart⟩

theorem _root_.Verif.Spec.Ready.put (R : Ready s h X y θ) (z p : Ref) : Ready { s with z := z, y_hat := p } h X y θ :=
  ⟨R.wf, R.rows, R.cols, R.input, R.output, R.weights, R.bias, R.apart⟩

/-- What one call may do to an object and to the heap. -/
structure Moves (s : Glm) (h : Heap ℝ) (s' : Glm) (h' : Heap ℝ) : Prop where
  same : Same s s'
  keeps : Keeps h h' (some · = s.weights)
  fresh : s'.weights = s.weights ∨ NotIn h s'.weights

theorem _root_.Verif.Spec.Same.refl (s : Glm) : Same s s := ⟨rfl, rfl, rfl, rfl, rfl, rfl, rfl, rfl⟩
theorem _root_.Verif.Spec.Same.trans {s s' s'' : Glm} (a : Same s s') (b : Same s' s'') : Same s s'' :=
  ⟨b.1.trans a.1, b.2.trans a.2, b.3.trans a.3, b.4.trans a.4, b.5.trans a.5, b.6.trans a.6, b.7.trans a.7, b.8.trans a.8⟩

theorem Moves.refl (s : Glm) (h : Heap ℝ) : Moves s h s h := ⟨.refl s, Keeps.refl _ _, .inl rfl⟩

theorem Moves.trans {s s' s'' : Glm} {h h' h'' : Heap ℝ} (a : Moves s h s' h') (b : Moves s' h' s'' h'') : Moves s h s'' h'' where
  same := a.same.trans b.same
  keeps := a.keeps.trans_new b.keeps fun l e hl => by
    rcases a.fresh with f | f
    · exact e.trans f
    · exact absurd hl (f l e.symm)
  fresh := by
    rcases b.fresh with f | f
    · rw [f]; exact a.fresh
    · exact .inr (f.mono a.keeps)

theorem Moves.of_new {s s' : Glm} (e : Same s s') (ew : s'.weights = s.weights) (k : Keeps h h' (fun _ => False)) : Moves s h s' h' :=
  ⟨e, k.mono fun _ _ => nofun, .inl ew⟩

/-! ## The pieces -/

theorem cost_run (C : Computes F f) (w : h.WF) {a b : Ref} {m : Nat} {p q : Fin m → ℝ} {v : Fin k → ℝ} (ha : HasV h a p) (hb : HasV h b q)
    (hw : HasV h s.weights v) : ∃ c, cost F s a b h = .ok (c, h) := by
  obtain ⟨c, e⟩ := C.loss w ha hb
  obtain ⟨x, ex, lx, ix⟩ := hw
  unfold cost
  rw [bind_ok e, ex, bind_ok (Reg.reg_termv_run w ix _ _ _)]
  exact ⟨_, rfl⟩

theorem evaluatev_run (C : Computes F f) (w : h.WF) {x : Ref} {u v : Fin k → ℝ} (hx : HasV h x u) (hw : HasV h s.weights v) :
    evaluatev F s x h = .ok (f (∑ j, v j * u j + s.bias), h) := by
  unfold evaluatev
  rw [bind_ok (Hd.dot_run w hw hx), C.normr]
  rfl

theorem propagatev_run (w : h.WF) {x : Ref} {u v : Fin k → ℝ} (hx : HasV h x u) (hw : HasV h s.weights v) :
    propagatev s x h = .ok (∑ j, v j * u j + s.bias, h) := by
  unfold propagatev
  rw [bind_ok (Hd.dot_run w hw hx)]
  rfl

theorem propagatem_spec (w : h.WF) {x : Ref} {m : Nat} {A : Matrix (Fin m) (Fin k) ℝ} {v : Fin k → ℝ} (hx : HasM h x A)
    (hw : HasV h s.weights v) : ReturnsVec (propagatem s x) h (linear A (v, s.bias)) := by
  refine .of_has ?_
  unfold propagatem
  refine stepV (Hd.mult_vec_spec w hx hw) fun r h1 w1 k1 f1 a1 => ?_
  refine (Hd.scalar_addn_spec w1 a1 s.bias).has.mono fun r2 h2 q => ⟨q.1, k1.trans q.2.1, q.2.2.1.mono k1, q.2.2.2⟩

theorem evaluatem_spec (C : Computes F f) (w : h.WF) {x : Ref} {m : Nat} {A : Matrix (Fin m) (Fin k) ℝ} {v : Fin k → ℝ} (hx : HasM h x A)
    (hw : HasV h s.weights v) : ReturnsVec (evaluatem F s x) h fun i => f (linear A (v, s.bias) i) := by
  refine .of_has ?_
  unfold evaluatem
  refine stepV (Hd.mult_vec_spec w hx hw) fun r h1 w1 k1 f1 a1 => ?_
  refine stepV (Hd.scalar_addn_spec w1 a1 s.bias) fun r2 h2 w2 k2 f2 a2 => ?_
  refine (C.normv w2 a2).mono fun r3 h3 q => ⟨q.1, (k1.trans k2).trans q.2.1, ?_, q.2.2.1⟩
  rcases q.2.2.2 with e | e
  · rw [e]; exact f2.mono k1
  · exact e.mono (k1.trans k2)

/-- The stored predictions are those of `θ`. -/
structure Shown (F : Fns) (f : ℝ → ℝ) (s : Glm) (h : Heap ℝ) (X : Matrix (Fin n) (Fin k) ℝ) (θ : Params k) : Prop where
  pred : HasV h s.y_hat fun i => f (linear X θ i)
  apart : s.y_hat ≠ s.weights
  z : F.usesZ = true → HasV h s.z (linear X θ) ∧ s.z ≠ s.weights

theorem forward_pass_run (C : Computes F f) (R : Ready s h X y θ) : Runs (forward_pass F s) h fun s' h' =>
    (Ready s' h' X y θ ∧ Shown F f s' h' X θ) ∧ Keeps h h' (fun _ => False) ∧ ∃ z p, s' = { s with z := z, y_hat := p } := by
  have w := R.wf
  unfold forward_pass
  split
  next hz =>
    refine stepV (propagatem_spec w R.input R.weights) fun z h1 w1 k1 f1 a1 => ?_
    rw [R.bias] at a1
    refine Runs.bind ((C.normv w1 a1).mono fun p h2 q => ?_)
    obtain ⟨w2, k2, a2, f2⟩ := q
    have k := k1.trans k2
    refine Runs.of_eq rfl ⟨⟨(R.keep w2 k).put _ _, a2, ?_, fun _ => ⟨adv_hasv k2 a1, f1.ne R.weights⟩⟩, k, _, _, rfl⟩
    rcases f2 with e | e
    · rw [e]; exact f1.ne R.weights
    · exact e.ne (adv_hasv k1 R.weights)
  next hz =>
    refine stepV (evaluatem_spec C w R.input R.weights) fun p h1 w1 k1 f1 a1 => ?_
    rw [R.bias] at a1
    exact Runs.of_eq rfl ⟨⟨(R.keep w1 k1).put _ _, a1, f1.ne R.weights, fun e => absurd e hz⟩, k1, _, _, rfl⟩

theorem gradient_spec (w : h.WF) {x e : Ref} {m : Nat} {A : Matrix (Fin m) (Fin k) ℝ} {v : Fin m → ℝ} (hx : HasM h x A) (he : HasV h e v)
    (c : ℝ) : ReturnsVec (gradient x e c) h fun j => (∑ i, A i j * v i) * c := by
  refine .of_has ?_
  unfold gradient
  refine stepM (Hd.transposen_spec w hx) fun r h1 w1 k1 f1 a1 => ?_
  refine stepV (Hd.mult_vec_spec w1 a1 (adv_hasv k1 he)) fun r2 h2 w2 k2 f2 a2 => ?_
  have k := k1.trans k2
  refine (Hd.scalar_multiplyn_spec w2 a2 c).has.mono fun r3 h3 q => ⟨q.1, k.trans q.2.1, q.2.2.1.mono k, q.2.2.2⟩

theorem sign_normr_eq (x : ℝ) : Activation.sign_normr x = ((SignType.sign x : SignType) : ℝ) := by
  unfold Activation.sign_normr
  rcases lt_trichotomy x 0 with c | c | c
  · simp [c]
  · simp [c]
  · simp [c, not_lt.2 c.le, c.ne']

theorem reg_weightsv_spec (w : h.WF) {a : Ref} {v : Fin k → ℝ} (ha : HasV h a v) (l al : ℝ) (r : Reg.Kind) :
    ReturnsVec (Reg.reg_weightsv a l al r) h fun i => decay r l al (v i) := by
  obtain ⟨x, rfl, lx, hx⟩ := ha
  have key : ∀ r, ReturnsVec (app1 (LinAlg.subtractionnv (some (.v x))) (Reg.reg_deriv_termv (some (.v x)) l al r)) h
      fun i => v i - Reg.derivTerm l al r (v i) := by
    intro r
    unfold app1 ReturnsVec
    refine (Reg.reg_deriv_termv_spec w hx lx l al r).bind fun o h1 w1 k1 f1 l1 q1 => ?_
    have k := k1
    advance k1
    exact (LinAlg.subV_lifts.vec w1 hx q1 lx l1).from k
  cases r with
  | none => have := key .none; simp only [Reg.derivTerm, sub_zero] at this; exact this
  | ridge => exact key .ridge
  | lasso => have := key .lasso; simp only [Reg.derivTerm, sign_normr_eq] at this; exact this
  | elastic_net => have := key .elastic_net; simp only [Reg.derivTerm, sign_normr_eq] at this; exact this
  | weight_clipping => exact Reg.reg_deriv_termv_spec w hx lx l al .weight_clipping

theorem regularize_run (w : h.WF) {v : Fin k → ℝ} (hw : HasV h s.weights v) : Runs (regularize s) h fun s' h' =>
    ∃ r, s' = { s with weights := r } ∧ h'.WF ∧ Keeps h h' (fun _ => False) ∧ NotIn h r ∧
      HasV h' r (fun j => decay s.reg s.lambda s.alpha (v j)) := by
  unfold regularize
  refine stepV (reg_weightsv_spec w hw _ _ _) fun r h1 w1 k1 f1 a1 => ?_
  exact Runs.of_eq rfl ⟨r, rfl, w1, k1, f1, a1⟩

theorem subStep_run (w : h.WF) {d : Ref} {v u : Fin k → ℝ} (hw : HasV h s.weights v) (hd : HasV h d u) :
    Runs (subStep s d) h fun s' h' => ∃ r, s' = { s with weights := r } ∧ h'.WF ∧ Keeps h h' (some · = s.weights) ∧ NotIn h r ∧
      HasV h' r (fun j => decay s.reg s.lambda s.alpha (v j - u j)) := by
  unfold subStep
  refine Runs.bind ((Hd.sub_run w hw hd).mono fun _ h1 q => ?_)
  refine (regularize_run q.1 q.2.2).mono fun s' h' ⟨r, e, w', k', f', a'⟩ => ?_
  exact ⟨r, e, w', q.2.1.trans_new k' fun _ => nofun, f'.mono q.2.1, a'⟩

theorem addStep_run (w : h.WF) {d : Ref} {v u : Fin k → ℝ} (hw : HasV h s.weights v) (hd : HasV h d u) :
    Runs (addStep s d) h fun s' h' => ∃ r, s' = { s with weights := r } ∧ h'.WF ∧ Keeps h h' (some · = s.weights) ∧ NotIn h r ∧
      HasV h' r (fun j => decay s.reg s.lambda s.alpha (v j + u j)) := by
  unfold addStep
  refine Runs.bind ((Hd.add_run w hw hd).mono fun _ h1 q => ?_)
  refine (regularize_run q.1 q.2.2).mono fun s' h' ⟨r, e, w', k', f', a'⟩ => ?_
  exact ⟨r, e, w', q.2.1.trans_new k' fun _ => nofun, f'.mono q.2.1, a'⟩

end Glm
end Verif
