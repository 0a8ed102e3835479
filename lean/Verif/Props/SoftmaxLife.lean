import Verif.Spec.SoftmaxLife
import Verif.Props.SoftmaxReg
import Verif.Props.MlpLife

/-! # C151: a softmax regression over its whole life -/

namespace Verif
open Spec Finset Glm
namespace SoftmaxReg
open Spec.SoftmaxLife
open Mlp (lastValue_snoc)
variable {n k c p q : Nat} {h h0 : Heap ℝ} {s : SoftmaxReg} {X : Matrix (Fin n) (Fin k) ℝ} {Y : Matrix (Fin n) (Fin c) ℝ} {θ : MParams k c} {pre : List Call}

/-- **C151** (initialising): `initialize` on an object with data whose own matrices and vector are not the data makes the object ready for the data, with weights
drawn in `[0, 1)`; only the object's own matrices and vector are written. -/
theorem C151_initialize (gw gb : Utilities.Source) (w : h.WF) (ha : HasM h s.input_set X) (hb : HasM h s.output_set Y) {p1 p2 p3 p4 p5 : Nat}
    {P : Matrix (Fin p1) (Fin p2) ℝ} {W : Matrix (Fin p3) (Fin p4) ℝ} {v : Fin p5 → ℝ} (hP : HasM h s.y_hat P) (hW : HasM h s.weights W) (hv : HasV h s.bias v)
    (ne : s.y_hat ≠ s.weights) (a1 : s.input_set ≠ s.y_hat) (a2 : s.input_set ≠ s.weights) (b1 : s.output_set ≠ s.y_hat) (b2 : s.output_set ≠ s.weights) :
    Runs (initialize_ gw gb s) h fun s' h' => s' = s ∧ ∃ θ : MParams k c, SoftmaxReady s h' X Y θ ∧ (∃ P : Matrix (Fin n) (Fin 0) ℝ, HasM h' s.y_hat P) ∧
      Keeps h h' (some · ∈ [s.y_hat, s.weights, s.bias]) ∧ ∀ i j, θ.1 i j = gw.u (i.val * c + j.val) := by
  obtain ⟨a, b, y_hat, weights, bias, r, l, al⟩ := s
  dsimp only at *
  unfold initialize_
  obtain ⟨ia, eia, -, -⟩ := id ha
  obtain ⟨ib, eib, -, -⟩ := id hb
  obtain ⟨o2, rfl, -, -⟩ := id hW
  obtain ⟨o3, rfl, -, -⟩ := id hv
  subst eia eib
  dsimp only
  refine Runs.step (Hd.sizem_run ha) (Runs.step (Hd.sizem_run hb) ?_)
  have K0 := Keeps.refl h (some · ∈ [y_hat, some (Loc.m o2), some (Loc.v o3)])
  refine Runs.bind ((Hd.resizem_run w hP n 0).mono fun _ h4 ⟨w4, k4, P', hP'⟩ => ?_)
  have K4 := K0.into k4 (by simp)
  wr k4
  refine Runs.bind ((Hd.resizem_run w4 hW k c).mono fun _ h5 ⟨w5, k5, W', hW'⟩ => ?_)
  have K5 := K4.into k5 (by simp)
  wr k5
  refine Runs.bind ((Hd.resizev_run w5 hv c).mono fun _ h6 ⟨w6, k6, B, hB⟩ => ?_)
  have K6 := K5.into k6 (by simp)
  wr k6
  obtain ⟨o, eo, lo, io⟩ := id hW'
  cases eo
  refine Runs.bind (((Utilities.weightM_run gw h6 w6 o2 W' io .default (fun i => gw.u i)
    fun i h => Utilities.uniform01_run gw i h).hasM lo).mono fun _ h7 ⟨w7, k7, hW7⟩ => ?_)
  have K7 := K6.into k7 (by simp)
  wr k7
  refine Runs.step (Utilities.C64_bias_vector_fails gb h7 o3) ?_
  exact Runs.of_eq rfl ⟨rfl, (_, B), ⟨w7, ha, hb, hW7, hB, a2, b2⟩, ⟨P', hP'⟩, K7, fun _ _ => rfl⟩

theorem refuses_of (hn : needs_init s h = .ok (true, h)) : Refuses s h :=
  fun _ _ _ _ _ => ⟨bind_ok hn, bind_ok hn, bind_ok hn, bind_ok hn, bind_ok hn, bind_ok hn⟩

theorem needs_init_stale (ha : HasM h s.input_set X) (hb : HasM h s.output_set Y) {p1 p2 p3 p4 : Nat}
    {P : Matrix (Fin p1) (Fin p2) ℝ} {W : Matrix (Fin p3) (Fin p4) ℝ} (hP : HasM h s.y_hat P) (hW : HasM h s.weights W)
    (d : ¬ (p1 = n ∧ p3 = k ∧ p4 = c)) : needs_init s h = .ok (true, h) := by
  obtain ⟨i, ei, -, -⟩ := id ha
  obtain ⟨o, eo, -, -⟩ := id hb
  unfold needs_init
  rw [ei, eo]
  dsimp only
  rw [← ei, ← eo, bind_ok (Hd.sizem_run ha), bind_ok (Hd.sizem_run hb), bind_ok (Hd.sizem_run hP)]
  dsimp only
  by_cases e : p1 = n
  · rw [if_neg (by simpa using e), bind_ok (Hd.sizem_run hW)]
    dsimp only
    rw [if_pos (by by_contra z; push Not at z; exact d ⟨e, z.2, z.1⟩)]
    rfl
  · rw [if_pos e]
    rfl

theorem fitted_snoc (x : Call) : Fitted h0 n (pre ++ [x]) k c ↔
    (Fitted h0 n pre k c ∧ ((∀ g g', x ≠ .initialize_ g g') ∨ lastInput pre = none ∨ lastOutput pre = none)) ∨
    ∃ g g', x = .initialize_ g g' ∧ (∃ X : Matrix (Fin n) (Fin k) ℝ, HasM h0 (lastInput pre) X) ∧ ∃ Y : Matrix (Fin n) (Fin c) ℝ, HasM h0 (lastOutput pre) Y := by
  constructor
  · rintro ⟨before, g, g', after, eq, hX, hY, no⟩
    rcases List.eq_nil_or_concat after with rfl | ⟨l, x', rfl⟩
    · obtain ⟨rfl, q⟩ := List.append_inj' eq rfl
      cases q
      exact .inr ⟨g, g', rfl, hX, hY⟩
    · rw [List.concat_eq_append, ← List.cons_append, ← List.append_assoc] at eq
      obtain ⟨rfl, q⟩ := List.append_inj' eq rfl
      cases q
      rw [List.concat_eq_append] at no
      refine .inl ⟨⟨before, g, g', l, rfl, hX, hY, fun pre a b post e => no pre a b (post ++ [x]) (by rw [e]; simp)⟩, ?_⟩
      by_cases z : ∃ a b, x = .initialize_ a b
      · obtain ⟨a, b, rfl⟩ := z
        exact .inr (no l a b [] rfl)
      · exact .inl fun a b e => z ⟨a, b, e⟩
  · rintro (⟨⟨before, g, g', after, rfl, hX, hY, no⟩, d⟩ | ⟨g, g', rfl, hX, hY⟩)
    · refine ⟨before, g, g', after ++ [x], by simp, hX, hY, fun pre a b post e => ?_⟩
      rcases List.eq_nil_or_concat post with rfl | ⟨l, x', rfl⟩
      · obtain ⟨rfl, q⟩ := List.append_inj' e rfl
        cases q
        rcases d with d | d
        · exact absurd rfl (d a b)
        · exact d
      · rw [List.concat_eq_append, ← List.cons_append, ← List.append_assoc] at e
        obtain ⟨rfl, q⟩ := List.append_inj' e rfl
        exact no pre a b l rfl
    · exact ⟨pre, g, g', [], rfl, hX, hY, fun l a b post e => by simp at e⟩

/-- What holds after the history `pre`. -/
structure Life (h0 : Heap ℝ) (n : Nat) (pre : List Call) (s : SoftmaxReg) (h : Heap ℝ) : Prop where
  wf : h.WF
  keep : Keeps h0 h (fun _ => False)
  e_input : s.input_set = lastInput pre
  e_output : s.output_set = lastOutput pre
  e_lambda : s.lambda = lastValue (fun | .set_lambda v => some v | _ => none) pre (1 / 2)
  e_alpha : s.alpha = lastValue (fun | .set_alpha v => some v | _ => none) pre (1 / 2)
  e_reg : s.reg = lastValue (fun | .set_reg v => some v | _ => none) pre .none
  input : s.input_set = none ∨ ∃ (k : Nat) (X : Matrix (Fin n) (Fin k) ℝ), HasM h0 s.input_set X
  output : s.output_set = none ∨ ∃ (c : Nat) (Y : Matrix (Fin n) (Fin c) ℝ), HasM h0 s.output_set Y
  own : ∃ (p q k' c' : Nat) (P : Matrix (Fin p) (Fin q) ℝ) (θ : MParams k' c'), HasM h s.y_hat P ∧ HasM h s.weights θ.1 ∧ HasV h s.bias θ.2 ∧
    (∀ k c, Fitted h0 n pre k c → p = n ∧ k' = k ∧ c' = c) ∧ (p = 0 ∨ ∃ k c, Fitted h0 n pre k c)
  new_y : NotIn h0 s.y_hat
  new_w : NotIn h0 s.weights
  new_b : NotIn h0 s.bias
  ne : s.y_hat ≠ s.weights

/-- The object is ready for its data if the sizes are right, and refuses otherwise. -/
theorem Life.state (L : Life h0 n pre s h) (ha : HasM h0 s.input_set X) (hb : HasM h0 s.output_set Y) :
    (∃ (θ : MParams k c) (q : Nat) (P : Matrix (Fin n) (Fin q) ℝ), SoftmaxReady s h X Y θ ∧ HasM h s.y_hat P) ∧ (∀ k' c', Fitted h0 n pre k' c' → k' = k ∧ c' = c) ∨
    Refuses s h ∧ ¬ Fitted h0 n pre k c := by
  obtain ⟨p, q, k', c', P, θ, hP, hW, hB, hf, -⟩ := L.own
  have ha' := ha.keep L.keep fun _ _ => id
  have hb' := hb.keep L.keep fun _ _ => id
  by_cases d : p = n ∧ k' = k ∧ c' = c
  · obtain ⟨rfl, rfl, rfl⟩ := d
    refine .inl ⟨⟨θ, q, P, ⟨L.wf, ha', hb', hW, hB, (L.new_w.ne_mat ha).symm, (L.new_w.ne_mat hb).symm⟩, hP⟩, fun k c f => ?_⟩
    obtain ⟨-, e1, e2⟩ := hf k c f
    exact ⟨e1.symm, e2.symm⟩
  · exact .inr ⟨refuses_of (needs_init_stale ha' hb' hP hW d), fun f => d (hf k c f)⟩

theorem Life.nodata (h : Heap ℝ) (d : s.input_set = none ∨ s.output_set = none) : Refuses s h := refuses_of (needs_init_null d)

/-- A call that does not set anything and does not initialise. -/
theorem Life.idle (L : Life h0 n pre s h) {x : Call} (hx : (∃ g g', x = .initialize_ g g' ∧ (s.input_set = none ∨ s.output_set = none)) ∨
    ∃ lr e, x = .train_gradient_descent lr e) : Life h0 n (pre ++ [x]) s h := by
  obtain ⟨p, q, k', c', P, θ, hP, hW, hB, hf, hu⟩ := L.own
  have ft : ∀ k c, Fitted h0 n (pre ++ [x]) k c ↔ Fitted h0 n pre k c := by
    intro k c
    rw [fitted_snoc, ← L.e_input, ← L.e_output]
    rcases hx with ⟨g, g', rfl, d⟩ | ⟨lr, e, rfl⟩
    · constructor
      · rintro (⟨f, -⟩ | ⟨_, _, -, ⟨X, ha⟩, ⟨Y, hb⟩⟩)
        · exact f
        · obtain ⟨_, e1, -⟩ := ha
          obtain ⟨_, e2, -⟩ := hb
          rcases d with d | d
          · rw [d] at e1; cases e1
          · rw [d] at e2; cases e2
      · exact fun f => .inl ⟨f, .inr d⟩
    · constructor
      · rintro (⟨f, -⟩ | ⟨_, _, e, -⟩)
        · exact f
        · cases e
      · exact fun f => .inl ⟨f, .inl (by intros; exact Call.noConfusion)⟩
  refine ⟨L.wf, L.keep, ?_, ?_, ?_, ?_, ?_, L.input, L.output, ⟨p, q, k', c', P, θ, hP, hW, hB, fun k c f => hf k c ((ft k c).1 f),
    hu.imp_right fun ⟨k, c, f⟩ => ⟨k, c, (ft k c).2 f⟩⟩, L.new_y, L.new_w, L.new_b, L.ne⟩
  · rw [L.e_input]; unfold lastInput; rw [lastValue_snoc]; rcases hx with ⟨g, g', rfl, d⟩ | ⟨lr, e, rfl⟩ <;> rfl
  · rw [L.e_output]; unfold lastOutput; rw [lastValue_snoc]; rcases hx with ⟨g, g', rfl, d⟩ | ⟨lr, e, rfl⟩ <;> rfl
  · rw [L.e_lambda, lastValue_snoc]; rcases hx with ⟨g, g', rfl, d⟩ | ⟨lr, e, rfl⟩ <;> rfl
  · rw [L.e_alpha, lastValue_snoc]; rcases hx with ⟨g, g', rfl, d⟩ | ⟨lr, e, rfl⟩ <;> rfl
  · rw [L.e_reg, lastValue_snoc]; rcases hx with ⟨g, g', rfl, d⟩ | ⟨lr, e, rfl⟩ <;> rfl

theorem Life.call_init (L : Life h0 n pre s h) (gw gb : Utilities.Source) :
    Runs (initialize_ gw gb s) h fun s' h' => Life h0 n (pre ++ [.initialize_ gw gb]) s' h' := by
  rcases L.input with ea | ⟨k, X, ha⟩
  · refine Runs.of_eq ?_ (L.idle (.inl ⟨_, _, rfl, .inl ea⟩))
    unfold initialize_; rw [ea]; rfl
  rcases L.output with eb | ⟨c, Y, hb⟩
  · refine Runs.of_eq ?_ (L.idle (.inl ⟨_, _, rfl, .inr eb⟩))
    obtain ⟨ia, ea, -, -⟩ := id ha
    unfold initialize_; rw [eb, ea]; rfl
  obtain ⟨p, q, k', c', P, θ, hP, hW, hB, -, -⟩ := L.own
  refine (C151_initialize gw gb L.wf (ha.keep L.keep fun _ _ => id) (hb.keep L.keep fun _ _ => id) hP hW hB L.ne (L.new_y.ne_mat ha).symm (L.new_w.ne_mat ha).symm
    (L.new_y.ne_mat hb).symm (L.new_w.ne_mat hb).symm).mono fun s' h' ⟨es, θ', R, ⟨P', hP'⟩, K, _⟩ => ?_
  subst es
  refine ⟨R.wf, L.keep.trans_new K fun l hl lv => ?_, ?_, ?_, ?_, ?_, ?_, L.input, L.output, ⟨_, _, _, _, P', θ', hP', R.weights, R.bias, fun k2 c2 f => ?_, ?_⟩,
    L.new_y, L.new_w, L.new_b, L.ne⟩
  · simp only [List.mem_cons, List.not_mem_nil, or_false] at hl
    rcases hl with e | e | e
    · exact L.new_y l e.symm lv
    · exact L.new_w l e.symm lv
    · exact L.new_b l e.symm lv
  · rw [L.e_input]; unfold lastInput; rw [lastValue_snoc]; rfl
  · rw [L.e_output]; unfold lastOutput; rw [lastValue_snoc]; rfl
  · rw [L.e_lambda, lastValue_snoc]; rfl
  · rw [L.e_alpha, lastValue_snoc]; rfl
  · rw [L.e_reg, lastValue_snoc]; rfl
  · rw [fitted_snoc, ← L.e_input, ← L.e_output] at f
    rcases f with ⟨-, f | f | f⟩ | ⟨_, _, -, ⟨X2, f1⟩, ⟨Y2, f2⟩⟩
    · exact absurd rfl (f gw gb)
    · obtain ⟨_, e, -⟩ := ha; rw [f] at e; cases e
    · obtain ⟨_, e, -⟩ := hb; rw [f] at e; cases e
    · exact ⟨rfl, Mlp.hasM_width ha f1, Mlp.hasM_width hb f2⟩
  · exact .inr ⟨k, c, (fitted_snoc _).2 (.inr ⟨_, _, rfl, ⟨X, L.e_input ▸ ha⟩, ⟨Y, L.e_output ▸ hb⟩⟩)⟩

theorem Life.call_train (L : Life h0 n pre s h) (lr : ℝ) (e : Int) :
    Runs (train_gradient_descent s lr e) h fun s' h' => Life h0 n (pre ++ [.train_gradient_descent lr e]) s' h' := by
  have no : Refuses s h → Runs (train_gradient_descent s lr e) h fun s' h' => Life h0 n (pre ++ [.train_gradient_descent lr e]) s' h' := fun r =>
    Runs.of_eq (r none (fun _ => 0) lr e 0).2.2.2.1 (L.idle (.inr ⟨_, _, rfl⟩))
  rcases L.input with ea | ⟨k, X, ha⟩
  · exact no (Life.nodata h (.inl ea))
  rcases L.output with eb | ⟨c, Y, hb⟩
  · exact no (Life.nodata h (.inr eb))
  rcases L.state ha hb with ⟨⟨θ, q, P, R, hP⟩, hf⟩ | ⟨r, -⟩
  swap
  · exact no r
  obtain ⟨p, q', k', c', P', θ0, hP', -, -, -, hu⟩ := L.own
  refine (gd_run R hP lr e).mono fun s' h' ⟨R', S, same, K, o1, o2, o3⟩ => ?_
  have e1 : s'.input_set = s.input_set := by rw [same]
  have e2 : s'.output_set = s.output_set := by rw [same]
  have e4 : s'.lambda = s.lambda := by rw [same]
  have e5 : s'.alpha = s.alpha := by rw [same]
  have e6 : s'.reg = s.reg := by rw [same]
  have e7 : s'.bias = s.bias := by rw [same]
  have ft : ∀ k c, Fitted h0 n (pre ++ [.train_gradient_descent lr e]) k c ↔ Fitted h0 n pre k c := by
    intro k c
    rw [fitted_snoc]
    constructor
    · rintro (⟨f, -⟩ | ⟨_, _, e, -⟩)
      · exact f
      · cases e
    · exact fun f => .inl ⟨f, .inl (by intros; exact Call.noConfusion)⟩
  refine ⟨R'.wf, L.keep.trans_new K fun l hl lv => ?_, ?_, ?_, ?_, ?_, ?_, e1 ▸ L.input, e2 ▸ L.output,
    ⟨_, _, _, _, _, _, S, R'.weights, R'.bias, fun k2 c2 f => ?_, ?_⟩, o1.mono L.keep, ?_, e7 ▸ L.new_b, o3⟩
  · rcases hl with e | e
    · exact L.new_w l e.symm lv
    · exact L.new_b l e.symm lv
  · rw [e1, L.e_input]; unfold lastInput; rw [lastValue_snoc]; rfl
  · rw [e2, L.e_output]; unfold lastOutput; rw [lastValue_snoc]; rfl
  · rw [e4, L.e_lambda, lastValue_snoc]; rfl
  · rw [e5, L.e_alpha, lastValue_snoc]; rfl
  · rw [e6, L.e_reg, lastValue_snoc]; rfl
  · obtain ⟨a, b⟩ := hf k2 c2 ((ft _ _).1 f)
    exact ⟨rfl, a.symm, b.symm⟩
  · rcases hu with z | ⟨k, c, f⟩
    · have : p = n := by
        obtain ⟨i, ei, -, z1, -⟩ := hP
        obtain ⟨j, ej, -, z2, -⟩ := hP'
        rw [ei] at ej
        cases ej
        rw [z1] at z2
        exact (congrArg Size.y z2).symm
      exact .inl (this ▸ z)
    · exact .inr ⟨k, c, (ft _ _).2 f⟩
  · rcases o2 with e | f
    · rw [e]; exact L.new_w
    · exact f.mono L.keep

theorem Life.step (L : Life h0 n pre s h) (x : Call) (hx : Admissible h0 n x) : Runs (call s x) h fun s' h' => Life h0 n (pre ++ [x]) s' h' := by
  have ft : ∀ {x : Call}, (∀ g g', x ≠ .initialize_ g g') → ∃ (p q k' c' : Nat) (P : Matrix (Fin p) (Fin q) ℝ) (θ : MParams k' c'), HasM h s.y_hat P ∧
      HasM h s.weights θ.1 ∧ HasV h s.bias θ.2 ∧ (∀ k c, Fitted h0 n (pre ++ [x]) k c → p = n ∧ k' = k ∧ c' = c) ∧
      (p = 0 ∨ ∃ k c, Fitted h0 n (pre ++ [x]) k c) := by
    intro x nx
    obtain ⟨p, q, k', c', P, θ, hP, hW, hB, hf, hu⟩ := L.own
    have ft : ∀ k c, Fitted h0 n (pre ++ [x]) k c ↔ Fitted h0 n pre k c := by
      intro k c
      rw [fitted_snoc]
      constructor
      · rintro (⟨f, -⟩ | ⟨_, _, e, -⟩)
        · exact f
        · exact absurd e (nx _ _)
      · exact fun f => .inl ⟨f, .inl nx⟩
    exact ⟨p, q, k', c', P, θ, hP, hW, hB, fun k c f => hf k c ((ft k c).1 f), hu.imp_right fun ⟨k, c, f⟩ => ⟨k, c, (ft k c).2 f⟩⟩
  cases x with
  | initialize_ gw gb => exact L.call_init gw gb
  | train_gradient_descent lr e => exact L.call_train lr e
  | set_input_set v =>
    refine Runs.of_eq rfl ⟨L.wf, L.keep, ?_, ?_, ?_, ?_, ?_, hx, L.output, ft (by intros; exact Call.noConfusion), L.new_y, L.new_w, L.new_b, L.ne⟩
    · unfold lastInput; rw [lastValue_snoc]; rfl
    · unfold lastOutput; rw [lastValue_snoc]; exact L.e_output
    · rw [lastValue_snoc]; exact L.e_lambda
    · rw [lastValue_snoc]; exact L.e_alpha
    · rw [lastValue_snoc]; exact L.e_reg
  | set_output_set v =>
    refine Runs.of_eq rfl ⟨L.wf, L.keep, ?_, ?_, ?_, ?_, ?_, L.input, hx, ft (by intros; exact Call.noConfusion), L.new_y, L.new_w, L.new_b, L.ne⟩
    · unfold lastInput; rw [lastValue_snoc]; exact L.e_input
    · unfold lastOutput; rw [lastValue_snoc]; rfl
    · rw [lastValue_snoc]; exact L.e_lambda
    · rw [lastValue_snoc]; exact L.e_alpha
    · rw [lastValue_snoc]; exact L.e_reg
  | set_lambda v | set_alpha v | set_reg v =>
    refine Runs.of_eq rfl ⟨L.wf, L.keep, ?_, ?_, ?_, ?_, ?_, L.input, L.output, ft (by intros; exact Call.noConfusion), L.new_y, L.new_w, L.new_b, L.ne⟩
    · unfold lastInput; rw [lastValue_snoc]; exact L.e_input
    · unfold lastOutput; rw [lastValue_snoc]; exact L.e_output
    · rw [lastValue_snoc]; first | rfl | exact L.e_lambda
    · rw [lastValue_snoc]; first | rfl | exact L.e_alpha
    · rw [lastValue_snoc]; first | rfl | exact L.e_reg

theorem Life.run (L : Life h0 n pre s h) (hist : List Call) (hc : ∀ x ∈ hist, Admissible h0 n x) :
    Runs (run s hist) h fun s' h' => Life h0 n (pre ++ hist) s' h' := by
  induction hist generalizing pre s h with
  | nil => exact Runs.of_eq rfl (by simpa using L)
  | cons c hist ih =>
    refine Runs.bind ((L.step c (hc c (by simp))).mono fun s' h' L' => ?_)
    have := ih L' fun c q => hc c (by simp [q])
    rwa [List.append_assoc] at this

theorem Life.blank (w : h.WF) (n : Nat) : Runs blank h fun s h' => Life h n [] s h' := by
  unfold SoftmaxReg.blank
  refine stepM0 w fun o1 h1 A1 w1 k1 f1 b1 => ?_
  refine stepM0 w1 fun o2 h2 A2 w2 k2 f2 b2 => ?_
  refine stepV0 w2 fun o3 h3 v3 w3 k3 f3 b3 => ?_
  have no : ∀ k c, ¬ Fitted h n [] k c := by
    rintro k c ⟨before, _, _, after, e, _⟩
    simp at e
  exact Runs.of_eq rfl ⟨w3, (k1.trans k2).trans k3, rfl, rfl, rfl, rfl, rfl, .inl rfl, .inl rfl,
    ⟨_, _, _, _, _, (A2, v3), adv_hasm k3 (adv_hasm k2 b1), adv_hasm k3 b2, b3, fun k c f => absurd f (no k c), .inl rfl⟩, f1, f2.mono k1, f3.mono (k1.trans k2),
    (f2.ne_mat b1).symm⟩

/-- **C151** (every life): an object created empty is given any calls of setters of the data and the settings, of `initialize` and of training by gradient descent,
in any order and with any repetitions; the data may have any number of columns and classes, but all the same number `n` of rows. Nothing that existed before it was
made is ever changed, and every getter returns the value set last. Without data it refuses everything. With data, it is ready for it, in the sense of C101, or refuses
everything; it is ready if the last initialising was with data of the same widths, even if the data was exchanged since; it refuses if that was with data of other
widths, or if there was none (and there are samples). -/
theorem C151_history (w : h.WF) (hist : List Call) (hc : ∀ x ∈ hist, Admissible h n x) :
    Runs (blank >>= fun s => run s hist) h fun s h' => h'.WF ∧ Keeps h h' (fun _ => False) ∧
      get_input_set s = lastInput hist ∧ get_output_set s = lastOutput hist ∧
      get_lambda s = lastValue (fun | .set_lambda v => some v | _ => none) hist (1 / 2) ∧
      get_alpha s = lastValue (fun | .set_alpha v => some v | _ => none) hist (1 / 2) ∧
      get_reg s = lastValue (fun | .set_reg v => some v | _ => none) hist .none ∧
      (lastInput hist = none ∨ lastOutput hist = none → Refuses s h') ∧
      ∀ (k c : Nat) (X : Matrix (Fin n) (Fin k) ℝ) (Y : Matrix (Fin n) (Fin c) ℝ), HasM h (lastInput hist) X → HasM h (lastOutput hist) Y →
        ((∃ (θ : MParams k c) (q : Nat) (P : Matrix (Fin n) (Fin q) ℝ), SoftmaxReady s h' X Y θ ∧ HasM h' (data_y_hat_get s) P) ∨ Refuses s h') ∧
        (Fitted h n hist k c →
          ∃ (θ : MParams k c) (q : Nat) (P : Matrix (Fin n) (Fin q) ℝ), SoftmaxReady s h' X Y θ ∧ HasM h' (data_y_hat_get s) P) ∧
        (∀ k' c', Fitted h n hist k' c' → k' ≠ k ∨ c' ≠ c → Refuses s h') ∧
        ((∀ k' c', ¬ Fitted h n hist k' c') → n ≠ 0 → Refuses s h') := by
  refine Runs.bind ((Life.blank w n).mono fun s h1 L => ?_)
  refine (L.run hist hc).mono fun s' h' L' => ?_
  rw [List.nil_append] at L'
  refine ⟨L'.wf, L'.keep, L'.e_input, L'.e_output, L'.e_lambda, L'.e_alpha, L'.e_reg, fun d => ?_, fun k c X Y ha hb => ?_⟩
  · rw [← L'.e_input, ← L'.e_output] at d
    exact Life.nodata h' d
  · rw [← L'.e_input] at ha
    rw [← L'.e_output] at hb
    have St := L'.state ha hb
    refine ⟨St.imp And.left And.left, fun f => ?_, fun k' c' f d => ?_, fun nf n0 => ?_⟩
    · exact St.elim And.left fun r => absurd f r.2
    · rcases St with ⟨-, z⟩ | ⟨r, -⟩
      · obtain ⟨rfl, rfl⟩ := z k' c' f
        exact absurd rfl (d.elim id fun d => absurd rfl d)
      · exact r
    · obtain ⟨p, q, k', c', P, θ, hP, hW, hB, -, hu⟩ := L'.own
      rcases hu with rfl | ⟨k, c, f⟩
      · exact refuses_of (needs_init_stale (ha.keep L'.keep fun _ _ => id) (hb.keep L'.keep fun _ _ => id) hP hW fun z => n0 z.1.symm)
      · exact absurd f (nf k c)

/-- **C151** (own weights): a matrix of weights and a vector of biases of the right sizes set on a ready object are those the predictions use. -/
theorem C151_weights (R : SoftmaxReady s h X Y θ) {a b : Ref} {W : Matrix (Fin k) (Fin c) ℝ} {v : Fin c → ℝ} (ha : HasM h a W) (hb : HasV h b v)
    (n1 : get_input_set s ≠ a) (n2 : get_output_set s ≠ a) : SoftmaxReady (data_bias_set (data_weights_set s a) b) h X Y (W, v) :=
  ⟨R.wf, R.input, R.output, ha, hb, n1, n2⟩

/-- A history that meets the hypotheses of `C151_history`, with the data of the example of C101: it is initialised and trained, then the inputs are exchanged. -/
example (g : Utilities.Source) :
    (∀ x ∈ [Call.set_input_set (some (.m 0)), .set_output_set (some (.m 1)), .initialize_ g g, .train_gradient_descent 1 7, .set_input_set (some (.m 2))],
      Admissible smHeap 3 x) ∧
    Fitted smHeap 3 [Call.set_input_set (some (.m 0)), .set_output_set (some (.m 1)), .initialize_ g g, .train_gradient_descent 1 7, .set_input_set (some (.m 2))] 2 2
      := by
  have hm : ∀ i < 3, ∃ X : Matrix (Fin 3) (Fin 2) ℝ, HasM smHeap (some (.m i)) X := by
    intro i hi
    obtain ⟨f, hf⟩ := exists_Cells (h := smHeap) (l := .m i) (Heap.ofLists_wf _ _ _ (by simp)) (show smHeap.size (.m i) = ⟨2, 3, 1⟩ by
      interval_cases i <;> simp [smHeap, Heap.ofLists])
    exact ⟨fun a b => f a b, i, rfl, by simp [smHeap, Heap.ofLists, Heap.live, Loc.id]; omega, hf.isMat fun _ _ => rfl⟩
  refine ⟨?_, [.set_input_set (some (.m 0)), .set_output_set (some (.m 1))], g, g, [.train_gradient_descent 1 7, .set_input_set (some (.m 2))], rfl, hm 0 (by omega),
    hm 1 (by omega), ?_⟩
  · intro x hx
    simp only [List.mem_cons, List.not_mem_nil, or_false] at hx
    rcases hx with rfl | rfl | rfl | rfl | rfl
    exacts [.inr ⟨_, hm 0 (by omega)⟩, .inr ⟨_, hm 1 (by omega)⟩, trivial, trivial, .inr ⟨_, hm 2 (by omega)⟩]
  · intro l a b post e
    have : Call.initialize_ a b ∈ [Call.train_gradient_descent 1 7, .set_input_set (some (.m 2))] := by rw [e]; simp
    simp at this

end SoftmaxReg
end Verif
