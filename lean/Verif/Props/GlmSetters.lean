import Verif.Model.GlmSetters
import Verif.Props.Scores
import Verif.Lemmas.AnnOptRules

/-! # C146: a probit regression set up step by step -/

namespace Verif.ProbitReg
open Spec Glm
variable {h h' : Heap ℝ} {n k : Nat} {s : Glm} {X : Matrix (Fin n) (Fin k) ℝ} {y : Fin n → ℝ} {θ : Params k}

/-- The last value that a history sets, `d` if it sets none: `f` says which calls set the value in question, and to what. -/
def lastSet {α : Type} (f : Call → Option α) (hist : List Call) (d : α) : α := ((hist.filterMap f).getLast?).getD d

theorem lastSet_fold {α : Type} (f : Call → Option α) (get : Glm → α) (step : ∀ s c, get (call s c) = (f c).getD (get s)) (hist : List Call) (s : Glm) :
    get (hist.foldl call s) = lastSet f hist (get s) := by
  induction hist generalizing s with
  | nil => rfl
  | cons c hist ih =>
    rw [List.foldl_cons, ih, step]
    unfold lastSet
    cases e : f c with
    | none => simp [e]
    | some v =>
      rw [List.filterMap_cons_some e]
      cases q : hist.filterMap f with
      | nil => rfl
      | cons a l => simp [List.getLast?_cons]

/-- **C146** (setters): after any history of calls of setters each getter returns the value set last; a null vector given to `data_z_set`, `data_y_hat_set` or
`data_weights_set` is ignored. -/
theorem C146_last (hist : List Call) (s : Glm) :
    get_input_set (hist.foldl call s) = lastSet (fun | .set_input_set v => some v | _ => none) hist (get_input_set s) ∧
    get_output_set (hist.foldl call s) = lastSet (fun | .set_output_set v => some v | _ => none) hist (get_output_set s) ∧
    get_reg (hist.foldl call s) = lastSet (fun | .set_reg v => some v | _ => none) hist (get_reg s) ∧
    get_lambda (hist.foldl call s) = lastSet (fun | .set_lambda v => some v | _ => none) hist (get_lambda s) ∧
    get_alpha (hist.foldl call s) = lastSet (fun | .set_alpha v => some v | _ => none) hist (get_alpha s) ∧
    data_bias_get (hist.foldl call s) = lastSet (fun | .data_bias_set v => some v | _ => none) hist (data_bias_get s) ∧
    data_z_get (hist.foldl call s) = lastSet (fun | .data_z_set (some v) => some (some v) | _ => none) hist (data_z_get s) ∧
    data_y_hat_get (hist.foldl call s) = lastSet (fun | .data_y_hat_set (some v) => some (some v) | _ => none) hist (data_y_hat_get s) ∧
    data_weights_get (hist.foldl call s) = lastSet (fun | .data_weights_set (some v) => some (some v) | _ => none) hist (data_weights_get s) := by
  refine ⟨?_, ?_, ?_, ?_, ?_, ?_, ?_, ?_, ?_⟩ <;> refine lastSet_fold _ _ (fun s c => ?_) hist s <;> cases c <;> try rfl
  all_goals rename_i v; cases v <;> rfl

/-- **C146** (empty object): a new object has no data, the standard settings and bias 0; every prediction is refused, and training does nothing, until data is
set. -/
theorem C146_blank (w : h.WF) :
    Runs blank h fun s h' => h'.WF ∧ Keeps h h' (fun _ => False) ∧ get_input_set s = none ∧ get_output_set s = none ∧ get_reg s = .none ∧
      get_lambda s = 1 / 2 ∧ get_alpha s = 1 / 2 ∧ data_bias_get s = 0 ∧
      (∃ v u z : Fin 0 → ℝ, HasV h' (data_y_hat_get s) v ∧ HasV h' (data_weights_get s) u ∧ HasV h' (data_z_get s) z) ∧
      NotIn h (data_y_hat_get s) ∧ NotIn h (data_weights_get s) ∧ data_y_hat_get s ≠ data_weights_get s ∧
      ∀ (x : Ref) (lr : ℝ) (e : Int), ProbitReg.model_test s x h' = .ok (0, h') ∧ ProbitReg.model_set_test s x h' = .ok (none, h') ∧
        ProbitReg.train_gradient_descent s lr e h' = .ok (s, h') := by
  unfold blank
  refine stepV0 w fun o1 h1 v1 w1 k1 f1 a1 => ?_
  refine stepV0 w1 fun o2 h2 v2 w2 k2 f2 a2 => ?_
  refine stepV0 w2 fun o3 h3 v3 w3 k3 f3 a3 => ?_
  have K3 := (k1.trans k2).trans k3
  refine Runs.of_eq rfl ⟨w3, K3, rfl, rfl, rfl, rfl, rfl, rfl, ⟨v2, v3, v1, a2.keep k3 fun _ _ => id, a3, (a1.keep k2 fun _ _ => id).keep k3 fun _ _ => id⟩,
    f2.mono k1, f3.mono (k1.trans k2), (f3.ne a2).symm, fun x lr e => ?_⟩
  have hn := needs_init_null (h := h3) (s := ⟨true, none, none, some (.v o1), some (.v o2), some (.v o3), 0, .none, 1 / 2, 1 / 2, 0, 0⟩) (.inl rfl)
  refine ⟨?_, ?_, ?_⟩
  · unfold ProbitReg.model_test; rw [bind_ok hn]; rfl
  · unfold ProbitReg.model_set_test; rw [bind_ok hn]; rfl
  · unfold ProbitReg.train_gradient_descent; rw [bind_ok hn]; rfl

/-- **C146** (initialising): `initialize` on an object with data, whose vectors of predictions and weights are two different vectors and not the output set, makes
the object ready: the weights, as many as the data has columns, and the bias are numbers drawn in `[0, 1)`; only the object's own vectors are written. -/
theorem C146_initialize (gw gb : Utilities.Source) (w : h.WF) {p q : Nat} {v : Fin p → ℝ} {u : Fin q → ℝ} (ha : HasM h (get_input_set s) X)
    (hb : HasV h (get_output_set s) y) (hv : HasV h (data_y_hat_get s) v) (hu : HasV h (data_weights_get s) u) (n1 : data_y_hat_get s ≠ data_weights_get s)
    (n2 : get_output_set s ≠ data_y_hat_get s) (n3 : get_output_set s ≠ data_weights_get s) :
    Runs (initialize_ gw gb s) h fun s' h' => ∃ (θ : Params k) (p : Fin n → ℝ), Ready s' h' X y θ ∧ HasV h' (data_y_hat_get s') p ∧
      Keeps h h' (some · ∈ [data_y_hat_get s, data_weights_get s]) ∧ get_input_set s' = get_input_set s ∧ get_output_set s' = get_output_set s ∧
      get_reg s' = get_reg s ∧ get_lambda s' = get_lambda s ∧ get_alpha s' = get_alpha s ∧ (∀ j, θ.1 j = gw.u j) ∧ θ.2 = gb.u 0 := by
  obtain ⟨i, a, b, z, c, d, bias, r, l, al, n', k'⟩ := s
  unfold get_input_set get_output_set data_y_hat_get data_weights_get at *
  dsimp only at *
  obtain ⟨ia, rfl, -, -⟩ := id ha
  obtain ⟨ib, rfl, -, -⟩ := id hb
  obtain ⟨o2, rfl, -, -⟩ := id hv
  obtain ⟨o3, rfl, -, -⟩ := id hu
  unfold Glm.initialize_
  dsimp only
  refine Runs.step (Hd.sizem_run ha) ?_
  refine Runs.step (derefV_run o2 h) ?_
  refine Runs.bind ((show Runs (resizeTo (.v o2) ⟨n, 1, 1⟩) h _ from Hd.resizev_run w hv n).mono fun _ h4 ⟨w4, k4, u4, a4⟩ => ?_)
  have ha4 := ha.off k4 hv
  have hb4 := hb.off k4 n2
  have a34 := hu.off k4 n1.symm
  refine Runs.step (derefV_run o3 h4) ?_
  refine Runs.bind ((show Runs (resizeTo (.v o3) ⟨k, 1, 1⟩) h4 _ from Hd.resizev_run w4 a34 k).mono fun _ h5 ⟨w5, k5, u5, a5⟩ => ?_)
  have ha5 := ha4.off k5 a34
  have hb5 := hb4.off k5 n3
  have a25 := a4.off k5 n1
  obtain ⟨_, e5, l5, i5⟩ := id a5
  cases e5
  refine Runs.bind ((Utilities.C64_vector gw h5 w5 o3 u5 i5 .default).mono fun _ h6 ⟨w6, k6, a6⟩ => ?_)
  have K6 : Keeps h5 h6 (some · = some (Loc.v o3)) := k6.mono fun _ _ e => congrArg some e
  refine Runs.step (show Utilities.bias_initializationr gb h6 = .ok (gb.u 0, h6) from Utilities.uniform01_run gb 0 h6) ?_
  refine Runs.of_eq rfl ⟨(_, gb.u 0), u4, ⟨w6, rfl, rfl, ha5.off K6 a5, hb5.off K6 n3, ⟨o3, rfl, K6.live l5, a6⟩, rfl, n3⟩,
    a25.off K6 n1, ?_, rfl, rfl, rfl, rfl, rfl, fun _ => rfl, rfl⟩
  exact (((Keeps.refl h (some · ∈ [some (Loc.v o2), some (Loc.v o3)])).into k4 (by simp)).into k5 (by simp)).into K6 (by simp)

/-- **C146** (set up step by step): an object created empty, given any history of calls of setters, in any order and with any repetitions, of which the last data
sets are `a` and `b` and none of which sets the object's own vectors, and then initialised, is what the constructor with data makes: ready for the data, with the
settings set last, and weights and bias drawn in `[0, 1)`. Nothing that existed changes. -/
theorem C146_session (gw gb : Utilities.Source) (w : h.WF) (hist : List Call) {a b : Ref} (ha : HasM h a X) (hb : HasV h b y)
    (la : lastSet (fun | .set_input_set v => some v | _ => none) hist none = a) (lb : lastSet (fun | .set_output_set v => some v | _ => none) hist none = b)
    (own : ∀ c ∈ hist, match c with | .data_y_hat_set v => v = none | .data_weights_set v => v = none | _ => True) :
    Runs (blank >>= fun s => initialize_ gw gb (hist.foldl call s)) h fun s' h' => ∃ (θ : Params k) (p : Fin n → ℝ), Ready s' h' X y θ ∧
      HasV h' (data_y_hat_get s') p ∧ Keeps h h' (fun _ => False) ∧ get_input_set s' = a ∧ get_output_set s' = b ∧
      get_reg s' = lastSet (fun | .set_reg v => some v | _ => none) hist .none ∧ get_lambda s' = lastSet (fun | .set_lambda v => some v | _ => none) hist (1 / 2) ∧
      get_alpha s' = lastSet (fun | .set_alpha v => some v | _ => none) hist (1 / 2) ∧ (∀ j, θ.1 j = gw.u j) ∧ θ.2 = gb.u 0 := by
  refine Runs.bind ((C146_blank w).mono fun s h1 ⟨w1, k1, e1, e2, e3, e4, e5, e6, ⟨v, u, z, hv, hu, hz⟩, f1, f2, ne, _⟩ => ?_)
  obtain ⟨g1, g2, g3, g4, g5, -, -, g8, g9⟩ := C146_last hist s
  have nov : ∀ {f : Call → Option Ref}, (∀ c ∈ hist, f c = none) → ∀ d, lastSet f hist d = d := by
    intro f hf d
    unfold lastSet
    rw [List.filterMap_eq_nil_iff.2 hf]
    rfl
  rw [nov (fun c hc => by have := own c hc; cases c <;> try rfl
                          all_goals rename_i v; cases v <;> [rfl; simp at this])] at g8 g9
  rw [e1, la] at g1
  rw [e2, lb] at g2
  rw [e3] at g3
  rw [e4] at g4
  rw [e5] at g5
  generalize hist.foldl call s = t at *
  have ha1 : HasM h1 (get_input_set t) X := by rw [g1]; exact ha.keep k1 fun _ _ => id
  have hb1 : HasV h1 (get_output_set t) y := by rw [g2]; exact hb.keep k1 fun _ _ => id
  refine (C146_initialize gw gb w1 ha1 hb1 (by rw [g8]; exact hv) (by rw [g9]; exact hu) (by rw [g8, g9]; exact ne) (by rw [g2, g8]; exact (f1.ne hb).symm)
    (by rw [g2, g9]; exact (f2.ne hb).symm)).mono fun s' h' ⟨θ, p, R, hp, K, q1, q2, q3, q4, q5, q6, q7⟩ => ?_
  refine ⟨θ, p, R, hp, k1.trans_new K fun l e hl => ?_, q1.trans g1, q2.trans g2, q3.trans g3, q4.trans g4, q5.trans g5, q6, q7⟩
  rw [g8, g9] at e
  simp at e
  rcases e with e | e
  · exact f1 l e.symm hl
  · exact f2 l e.symm hl

/-- **C146** (own weights): a vector of weights and a bias set on a ready object are those the predictions use. -/
theorem C146_weights (R : Ready s h X y θ) {p : Fin n → ℝ} (hp : HasV h (data_y_hat_get s) p) {r : Ref} {b : ℝ} {v : Fin k → ℝ} (hr : HasV h r v)
    (ne : get_output_set s ≠ r) :
    Ready (data_bias_set (data_weights_set s r) b) h X y (v, b) ∧
      Predicts normalCdf h (v, b) (ProbitReg.model_test (data_bias_set (data_weights_set s r) b)) (ProbitReg.model_set_test (data_bias_set (data_weights_set s r) b)) := by
  obtain ⟨a, rfl, -, -⟩ := id hr
  have R' : Ready (data_bias_set (data_weights_set s (some (.v a))) b) h X y (v, b) := ⟨R.wf, R.rows, R.cols, R.input, R.output, hr, rfl, ne⟩
  exact ⟨R', (C86_probit_reg R' (p := p) hp)⟩

/-- **C146** (data of another size): if the data set on a ready object has another number of rows or of columns, predictions are refused and training does nothing
until the object is initialised again. -/
theorem C146_stale (R : Ready s h X y θ) {p : Fin n → ℝ} (hp : HasV h (data_y_hat_get s) p) {a : Ref} {n' k' : Nat} {A : Matrix (Fin n') (Fin k') ℝ}
    (ha : HasM h a A) (d : n' ≠ n ∨ k' ≠ k) (x : Ref) (lr : ℝ) (e : Int) :
    ProbitReg.model_test (set_input_set s a) x h = .ok (0, h) ∧ ProbitReg.model_set_test (set_input_set s a) x h = .ok (none, h) ∧
      ProbitReg.train_gradient_descent (set_input_set s a) lr e h = .ok (set_input_set s a, h) := by
  have hn : needs_init (set_input_set s a) h = .ok (true, h) := by
    obtain ⟨ia, rfl, -, -⟩ := id ha
    obtain ⟨ib, eb, -, -⟩ := R.output
    unfold needs_init
    have eb' : (set_input_set s (some (.m ia))).output_set = some (.v ib) := eb
    have ea' : (set_input_set s (some (.m ia))).input_set = some (.m ia) := rfl
    rw [eb', ea']
    dsimp only
    rw [bind_ok (Hd.sizem_run ha), bind_ok (Hd.size_run (show HasV h (set_input_set s (some (.m ia))).y_hat p from hp))]
    dsimp only
    by_cases q : n = n'
    · rw [if_neg (by simpa using q), bind_ok (Hd.size_run (show HasV h (set_input_set s (some (.m ia))).weights θ.1 from R.weights))]
      have : k ≠ k' := fun z => d.elim (fun x => x q.symm) (fun x => x z.symm)
      simp [this]
    · rw [if_pos (by simpa using q)]
      rfl
  refine ⟨?_, ?_, ?_⟩
  · unfold ProbitReg.model_test; rw [bind_ok hn]; rfl
  · unfold ProbitReg.model_set_test; rw [bind_ok hn]; rfl
  · unfold ProbitReg.train_gradient_descent; rw [bind_ok hn]; rfl

/-- A history that meets the hypotheses of `C146_session`: the data is set, changed, and set again. -/
example (a a' b : Ref) : lastSet (fun | .set_input_set v => some v | _ => none) [.set_input_set a', .set_output_set b, .set_lambda 3, .set_input_set a] none = a ∧
    lastSet (fun | .set_output_set v => some v | _ => none) [.set_input_set a', .set_output_set b, .set_lambda 3, .set_input_set a] none = b := ⟨rfl, rfl⟩

/-- The hypotheses of the others are met by the object of C86. -/
example : Ready (exGlm .none) glmHeap exX exY exθ ∧ HasV glmHeap (data_y_hat_get (exGlm .none)) (![0, 0, 0] : Fin 3 → ℝ) := ⟨exReady _, exShown _⟩

end Verif.ProbitReg

namespace Verif
open Glm

/-- **C86** (empty object: false): an empty linear or logistic regression refuses to predict, but after `initialize()`, which needs no data, it does not:
predictions, training and the score then use a null pointer, whatever the argument is. -/
theorem C86_initialize_fails (h : Heap ℝ) (s : Glm) (r : Ref) (lr : ℝ) (e : Int) :
    (LinReg.model_test (LinReg.blank s) r h = .ok (0, h) ∧ LogReg.model_test (LogReg.blank s) r h = .ok (0, h)) ∧
    LinReg.model_test (LinReg.initialize_ (LinReg.blank s)) r h = .ub ∧ LinReg.model_set_test (LinReg.initialize_ (LinReg.blank s)) r h = .ub ∧
    LinReg.gradient_descent (LinReg.initialize_ (LinReg.blank s)) lr e h = .ub ∧
    LogReg.model_test (LogReg.initialize_ (LogReg.blank s)) r h = .ub ∧ LogReg.model_set_test (LogReg.initialize_ (LogReg.blank s)) r h = .ub ∧
    LogReg.gradient_descent (LogReg.initialize_ (LogReg.blank s)) lr e h = .ub := by
  have dv : ∀ {β : Type} (k : Nat → M ℝ β), (derefV none >>= k) h = .ub := fun k => rfl
  have em : ∀ (F : Fns) (t : Glm) (q : Ref), t.weights = none → evaluatem F t q h = .ub := by
    intro F t q ht
    unfold evaluatem
    rw [ht]
    rcases q with _ | ⟨_ | _ | _⟩ <;> rfl
  have fw : ∀ (F : Fns) (t : Glm), F.usesZ = false → t.weights = none → forward_pass F t h = .ub := by
    intro F t hF ht
    unfold forward_pass
    rw [hF, if_neg (by simp)]
    exact bind_ub (em F t t.input_set ht)
  refine ⟨⟨rfl, rfl⟩, rfl, em _ _ _ rfl, ?_, rfl, em _ _ _ rfl, ?_⟩
  · exact bind_ub (fw LinReg.fns _ rfl rfl)
  · exact bind_ub (fw LogReg.fns _ rfl rfl)

end Verif
