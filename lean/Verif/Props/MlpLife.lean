import Verif.Spec.MlpLife
import Verif.Props.Mlp
import Verif.Lemmas.AnnOptRules

/-! # C150: a multilayer perceptron over its whole life -/

namespace Verif
open Spec Finset Glm
namespace Mlp
open Spec.MlpLife
variable {n k m : Nat} {h h0 : Heap ℝ} {s : Mlp} {X : Matrix (Fin n) (Fin k) ℝ} {y : Fin n → ℝ} {θ : NetParams k m}

theorem lastValue_snoc {β α : Type} (f : β → Option α) (l : List β) (c : β) (d : α) : lastValue f (l ++ [c]) d = (f c).getD (lastValue f l d) := by
  unfold lastValue
  rw [List.filterMap_append, List.getLast?_append]
  cases e : f c <;> simp [e]

/-- **C150** (initialising): `initialize` on an object with data and hidden units, whose own vectors and matrix are different from each other and from the data,
makes the object ready for the data, with weights and the bias of the output drawn in `[0, 1)`; only the object's own vectors and matrix are written. -/
theorem C150_initialize (gw1 gw2 gb1 gb2 : Utilities.Source) (w : h.WF) (hi : s.initialized = false) (ha : HasM h s.input_set X) (hb : HasV h s.output_set y)
    (em : s.n_hidden = m) (hm : m ≠ 0) {p1 p2 p3 p4 p5 : Nat} {v : Fin p1 → ℝ} {A : Matrix (Fin p2) (Fin p3) ℝ} {u : Fin p4 → ℝ} {z : Fin p5 → ℝ}
    (hv : HasV h s.y_hat v) (hA : HasM h s.weights1 A) (hu : HasV h s.weights2 u) (hz : HasV h s.bias1 z)
    (nd : [s.y_hat, s.weights2, s.bias1, s.output_set].Nodup) (nw : s.weights1 ≠ s.input_set) :
    Runs (initialize_ gw1 gw2 gb1 gb2 s) h fun s' h' => ∃ θ : NetParams k m, MlpReady s' h' X y θ ∧
      Keeps h h' (some · ∈ [s.y_hat, s.weights1, s.weights2, s.bias1]) ∧ NotIn h s'.z2 ∧ NotIn h s'.a2 ∧
      s' = ⟨true, s.input_set, s.output_set, s.y_hat, s.weights1, s.weights2, s.bias1, s'.bias2, s'.z2, s'.a2, s.n_hidden, s.reg, s.lambda, s.alpha, n, k⟩ ∧
      (∀ i j, θ.1.1 i j = gw1.u (i.val * m + j.val)) ∧ (∀ j, θ.2.1 j = gw2.u j) ∧ θ.2.2 = gb2.u 0 := by
  obtain ⟨i, a, b, y_hat, weights1, weights2, bias1, bias2, z2, a2, m', r, l, al, n', k'⟩ := s
  dsimp only at *
  subst em hi
  have D := nd
  simp only [List.nodup_cons, List.mem_cons, List.not_mem_nil, or_false, not_or, not_false_eq_true, List.nodup_nil, and_true] at nd
  casesm* _ ∧ _
  unfold initialize_
  obtain ⟨ia, eia, -, -⟩ := id ha
  obtain ⟨ib, eib, -, -⟩ := id hb
  obtain ⟨o1, rfl, -, -⟩ := id hA
  obtain ⟨o2, rfl, -, -⟩ := id hu
  obtain ⟨ob, rfl, -, -⟩ := id hz
  subst eia eib
  dsimp only
  rw [if_neg (by decide), if_neg hm]
  refine Runs.step (Hd.sizem_run ha) ?_
  dsimp only
  have K0 := Keeps.refl h (some · ∈ [y_hat, some (Loc.m o1), some (Loc.v o2), some (Loc.v ob)])
  refine Runs.bind ((Hd.resizev_run w hv n).mono fun _ h7 ⟨w7, k7, vy', by2⟩ => ?_)
  have K7 := K0.into k7 (by simp)
  wr k7
  refine Runs.bind ((Hd.resizem_run w7 hA k m').mono fun _ h8 ⟨w8, k8, W1, bW1'⟩ => ?_)
  have K8 := K7.into k8 (by simp)
  wr k8
  refine Runs.bind ((Hd.resizev_run w8 hu m').mono fun _ h9 ⟨w9, k9, W2, bW2'⟩ => ?_)
  have K9 := K8.into k9 (by simp)
  wr k9
  refine Runs.bind ((Hd.resizev_run w9 hz m').mono fun _ h10 ⟨w10, k10, B1, bb'⟩ => ?_)
  have K10 := K9.into k10 (by simp)
  wr k10
  obtain ⟨o, eo, lo, io⟩ := id bW1'
  cases eo
  refine Runs.bind (((Utilities.weightM_run gw1 h10 w10 o1 W1 io .default (fun i => gw1.u i)
    fun i h => Utilities.uniform01_run gw1 i h).hasM lo).mono fun _ h11 ⟨w11, k11, bW3⟩ => ?_)
  have K11 := K10.into k11 (by simp)
  wr k11
  obtain ⟨o, eo, lo, io⟩ := id bW2'
  cases eo
  refine Runs.bind (((Utilities.C64_vector gw2 h11 w11 o2 W2 io .default).hasV lo).mono fun _ h12 ⟨w12, k12, bW4⟩ => ?_)
  have K12 := K11.into k12 (by simp)
  wr k12
  refine Runs.step (Utilities.C64_bias_vector_fails gb1 h12 ob) ?_
  refine Runs.step (Utilities.C64_bias (n := 0) gb2 h12).1 ?_
  refine stepM0 w12 fun oz h13 Az w13 k13 f13 bz' => ?_
  have K13 := K12.trans (k13.mono fun _ _ => nofun)
  have g13 := f13.mono K12
  fresh f13
  adv k13
  refine stepM0 w13 fun oa h14 Aa w14 k14 f14 ba' => ?_
  have K14 := K13.trans (k14.mono fun _ _ => nofun)
  have g14 := f14.mono K13
  fresh f14
  adv k14
  refine Runs.of_eq rfl ⟨((_, B1), (_, gb2.u 0)), ⟨w14, rfl, rfl, ha, hb, bW3, bb', bW4, rfl, ⟨_, _, by2⟩, ⟨_, _, _, bz'⟩, ⟨_, _, _, ba'⟩, D, ?_⟩,
    K14, g13, g14, rfl, fun _ _ => rfl, fun _ => rfl, rfl⟩
  simp only [List.nodup_cons, List.mem_cons, List.not_mem_nil, or_false, not_or, not_false_eq_true, List.nodup_nil, and_true]
  repeat' apply And.intro
  all_goals first | assumption | exact Ne.symm (by assumption)

theorem hasM_width {A : Matrix (Fin n) (Fin k) ℝ} {k' : Nat} {B : Matrix (Fin n) (Fin k') ℝ} {r : Ref} (a : HasM h r A) (b : HasM h r B) : k = k' := by
  obtain ⟨i, rfl, -, e, -⟩ := a
  obtain ⟨j, ej, -, e', -⟩ := b
  cases ej
  rw [e] at e'
  exact congrArg Size.x e'

theorem hasM_unique {A B : Matrix (Fin n) (Fin k) ℝ} {r : Ref} (a : HasM h r A) (b : HasM h r B) : A = B := by
  obtain ⟨i, rfl, -, -, c⟩ := a
  obtain ⟨j, ej, -, -, d⟩ := b
  cases ej
  exact funext fun x => funext fun y => Option.some.inj ((c x y).symm.trans (d x y))

theorem hasV_unique {u v : Fin n → ℝ} {r : Ref} (a : HasV h r u) (b : HasV h r v) : u = v := by
  obtain ⟨i, rfl, -, -, c⟩ := a
  obtain ⟨j, ej, -, -, d⟩ := b
  cases ej
  exact funext fun x => Option.some.inj ((c x).symm.trans (d x))

theorem setUp_snoc (pre : List Call) (c : Call) : SetUp (pre ++ [c]) ↔ (¬ isSetter c ∧ SetUp pre) ∨
    ∃ gw1 gw2 gb1 gb2, c = .initialize_ gw1 gw2 gb1 gb2 ∧ lastInput pre ≠ none ∧ lastOutput pre ≠ none ∧ lastHidden pre ≠ 0 := by
  constructor
  · rintro ⟨before, a, b, d, e, after, eq, h1, h2, h3, h4⟩
    rcases List.eq_nil_or_concat after with rfl | ⟨l, c', rfl⟩
    · obtain ⟨rfl, q⟩ := List.append_inj' eq rfl
      cases q
      exact .inr ⟨a, b, d, e, rfl, h1, h2, h3⟩
    · rw [List.concat_eq_append, ← List.cons_append, ← List.append_assoc] at eq
      obtain ⟨rfl, q⟩ := List.append_inj' eq rfl
      cases q
      rw [List.concat_eq_append] at h4
      exact .inl ⟨h4 _ (by simp), before, a, b, d, e, l, rfl, h1, h2, h3, fun c hc => h4 c (by simp [hc])⟩
  · rintro (⟨q, before, a, b, d, e, after, rfl, h1, h2, h3, h4⟩ | ⟨a, b, d, e, rfl, h1, h2, h3⟩)
    · refine ⟨before, a, b, d, e, after ++ [c], by simp, h1, h2, h3, fun x hx => ?_⟩
      rcases List.mem_append.1 hx with hx | hx
      · exact h4 x hx
      · rw [List.mem_singleton.1 hx]; exact q
    · exact ⟨pre, a, b, d, e, [], rfl, h1, h2, h3, nofun⟩

/-- What holds after the history `pre`. -/
structure Life (h0 : Heap ℝ) (n : Nat) (pre : List Call) (s : Mlp) (h : Heap ℝ) : Prop where
  wf : h.WF
  keep : Keeps h0 h (fun _ => False)
  e_input : s.input_set = lastInput pre
  e_output : s.output_set = lastOutput pre
  e_hidden : s.n_hidden = lastHidden pre
  e_lambda : s.lambda = lastValue (fun | .set_lambda v => some v | _ => none) pre (1 / 2)
  e_alpha : s.alpha = lastValue (fun | .set_alpha v => some v | _ => none) pre (1 / 2)
  e_reg : s.reg = lastValue (fun | .set_reg v => some v | _ => none) pre .none
  input : s.input_set = none ∨ ∃ (k : Nat) (X : Matrix (Fin n) (Fin k) ℝ), HasM h0 s.input_set X
  output : s.output_set = none ∨ ∃ y : Fin n → ℝ, HasV h0 s.output_set y
  flag : s.initialized = true ↔ SetUp pre
  y_hat : ∃ (p : Nat) (v : Fin p → ℝ), HasV h s.y_hat v
  weights1 : ∃ (p q : Nat) (A : Matrix (Fin p) (Fin q) ℝ), HasM h s.weights1 A
  weights2 : ∃ (p : Nat) (v : Fin p → ℝ), HasV h s.weights2 v
  bias1 : ∃ (p : Nat) (v : Fin p → ℝ), HasV h s.bias1 v
  new_y : NotIn h0 s.y_hat
  new_w1 : NotIn h0 s.weights1
  new_w2 : NotIn h0 s.weights2
  new_b1 : NotIn h0 s.bias1
  nd : [s.y_hat, s.weights2, s.bias1].Nodup
  ready : s.initialized = true → NotIn h0 s.z2 ∧ NotIn h0 s.a2 ∧
    ∃ (k : Nat) (X : Matrix (Fin n) (Fin k) ℝ) (y : Fin n → ℝ) (θ : NetParams k s.n_hidden), MlpReady s h X y θ

variable {pre : List Call}

/-- Training a ready object. -/
theorem Life.trained (L : Life h0 n pre s h) {c : Call} (hc : ¬ isSetter c) (hi : ∀ a b d e, c ≠ .initialize_ a b d e) {θ : NetParams k s.n_hidden}
    (R : MlpReady s h X y θ) {f : M ℝ Mlp} {θ' : NetParams k s.n_hidden} (T : Runs f h fun s' h' => MlpTrained s h s' h' X y θ') :
    Runs f h fun s' h' => Life h0 n (pre ++ [c]) s' h' := by
  refine T.mono fun s' h' ⟨R', S, same, K, own⟩ => ?_
  obtain ⟨nz, na, -⟩ := L.ready R.init
  have e1 : s'.input_set = s.input_set := by rw [same]
  have e2 : s'.output_set = s.output_set := by rw [same]
  have e3 : s'.n_hidden = s.n_hidden := by rw [same]
  have e4 : s'.lambda = s.lambda := by rw [same]
  have e5 : s'.alpha = s.alpha := by rw [same]
  have e6 : s'.reg = s.reg := by rw [same]
  have e7 : s'.weights1 = s.weights1 := by rw [same]
  have e8 : s'.weights2 = s.weights2 := by rw [same]
  have e9 : s'.bias1 = s.bias1 := by rw [same]
  have e10 : s'.z2 = s.z2 := by rw [same]
  have e11 : s'.a2 = s.a2 := by rw [same]
  have e12 : s'.initialized = s.initialized := by rw [same]
  have nd := R'.apart_vectors
  simp only [List.nodup_cons, List.mem_cons, List.not_mem_nil, or_false, not_or, not_false_eq_true, List.nodup_nil, and_true] at nd
  refine ⟨R'.wf, L.keep.trans_new K fun l hl lv => ?_, ?_, ?_, ?_, ?_, ?_, ?_, e1 ▸ L.input, e2 ▸ L.output, ?_, ⟨_, _, S⟩, ⟨_, _, _, R'.weights1⟩,
    ⟨_, _, R'.weights2⟩, ⟨_, _, R'.bias1⟩, ?_, e7 ▸ L.new_w1, e8 ▸ L.new_w2, e9 ▸ L.new_b1, ?_, fun _ => ⟨e10 ▸ nz, e11 ▸ na, ?_⟩⟩
  · simp only [List.mem_cons, List.not_mem_nil, or_false] at hl
    rcases hl with e | e | e | e | e | e
    · exact L.new_y l e.symm lv
    · exact L.new_w1 l e.symm lv
    · exact L.new_w2 l e.symm lv
    · exact L.new_b1 l e.symm lv
    · exact nz l e.symm lv
    · exact na l e.symm lv
  · rw [e1, L.e_input]
    unfold lastInput
    rw [lastValue_snoc]
    cases c <;> first | rfl | exact absurd trivial hc
  · rw [e2, L.e_output]
    unfold lastOutput
    rw [lastValue_snoc]
    cases c <;> first | rfl | exact absurd trivial hc
  · rw [e3, L.e_hidden]
    unfold lastHidden
    rw [lastValue_snoc]
    cases c <;> first | rfl | exact absurd trivial hc
  · rw [e4, L.e_lambda, lastValue_snoc]
    cases c <;> first | rfl | exact absurd trivial hc
  · rw [e5, L.e_alpha, lastValue_snoc]
    cases c <;> first | rfl | exact absurd trivial hc
  · rw [e6, L.e_reg, lastValue_snoc]
    cases c <;> first | rfl | exact absurd trivial hc
  · rw [e12, L.flag, setUp_snoc]
    exact ⟨fun q => .inl ⟨hc, q⟩, fun q => q.elim And.right fun ⟨a, b, d, e, q, _⟩ => absurd q (hi a b d e)⟩
  · rcases own with e | f
    · rw [e]; exact L.new_y
    · exact f.mono L.keep
  · simp only [List.nodup_cons, List.mem_cons, List.not_mem_nil, or_false, not_or, not_false_eq_true, List.nodup_nil, and_true]
    exact ⟨⟨nd.1.1, nd.1.2.1⟩, nd.2.1.1⟩
  · rw [e3]; exact ⟨_, _, _, _, R'⟩

/-- A call that leaves the object as it is. -/
theorem Life.idle (L : Life h0 n pre s h) {c : Call} (hc : ¬ isSetter c) (q : SetUp (pre ++ [c]) ↔ SetUp pre) : Life h0 n (pre ++ [c]) s h := by
  refine ⟨L.wf, L.keep, ?_, ?_, ?_, ?_, ?_, ?_, L.input, L.output, L.flag.trans q.symm, L.y_hat, L.weights1, L.weights2, L.bias1, L.new_y, L.new_w1, L.new_w2,
    L.new_b1, L.nd, L.ready⟩
  · rw [L.e_input]
    unfold lastInput
    rw [lastValue_snoc]
    cases c <;> first | rfl | exact absurd trivial hc
  · rw [L.e_output]
    unfold lastOutput
    rw [lastValue_snoc]
    cases c <;> first | rfl | exact absurd trivial hc
  · rw [L.e_hidden]
    unfold lastHidden
    rw [lastValue_snoc]
    cases c <;> first | rfl | exact absurd trivial hc
  · rw [L.e_lambda, lastValue_snoc]
    cases c <;> first | rfl | exact absurd trivial hc
  · rw [L.e_alpha, lastValue_snoc]
    cases c <;> first | rfl | exact absurd trivial hc
  · rw [L.e_reg, lastValue_snoc]
    cases c <;> first | rfl | exact absurd trivial hc

theorem Life.call_init (L : Life h0 n pre s h) (gw1 gw2 gb1 gb2 : Utilities.Source) :
    Runs (initialize_ gw1 gw2 gb1 gb2 s) h fun s' h' => Life h0 n (pre ++ [.initialize_ gw1 gw2 gb1 gb2]) s' h' := by
  have no : (s.initialized = true ∨ s.input_set = none ∨ s.output_set = none ∨ s.n_hidden = 0) →
      Life h0 n (pre ++ [.initialize_ gw1 gw2 gb1 gb2]) s h := by
    intro q
    refine L.idle id ?_
    rw [setUp_snoc, ← L.e_input, ← L.e_output, ← L.e_hidden, ← L.flag]
    constructor
    · rintro (⟨-, p⟩ | ⟨_, _, _, _, -, p1, p2, p3⟩)
      · exact p
      · rcases q with q | q | q | q
        exacts [q, absurd q p1, absurd q p2, absurd q p3]
    · exact fun p => .inl ⟨id, p⟩
  cases hi : s.initialized with
  | true =>
    refine Runs.of_eq ?_ (no (.inl hi))
    unfold initialize_; rw [if_pos hi]; rfl
  | false =>
  have ni : ¬ s.initialized = true := by rw [hi]; decide
  rcases L.input with ea | ⟨k, X, ha⟩
  · refine Runs.of_eq ?_ (no (.inr (.inl ea)))
    unfold initialize_; rw [if_neg ni, ea]; rfl
  rcases L.output with eb | ⟨y, hb⟩
  · refine Runs.of_eq ?_ (no (.inr (.inr (.inl eb))))
    obtain ⟨ia, ea, -, -⟩ := id ha
    unfold initialize_; rw [if_neg ni, eb, ea]; rfl
  by_cases hm : s.n_hidden = 0
  · refine Runs.of_eq ?_ (no (.inr (.inr (.inr hm))))
    obtain ⟨ia, ea, -, -⟩ := id ha
    obtain ⟨ib, eb, -, -⟩ := id hb
    unfold initialize_; rw [if_neg ni, eb, ea]; dsimp only; rw [if_pos hm]; rfl
  have ha' : HasM h s.input_set X := ha.keep L.keep fun _ _ => id
  have hb' : HasV h s.output_set y := hb.keep L.keep fun _ _ => id
  obtain ⟨p1, v, hv⟩ := L.y_hat
  obtain ⟨p2, p3, A, hA⟩ := L.weights1
  obtain ⟨p4, u, hu⟩ := L.weights2
  obtain ⟨p5, z, hz⟩ := L.bias1
  have nd := L.nd
  have n1 := L.new_y.ne hb
  have n2 := L.new_w2.ne hb
  have n3 := L.new_b1.ne hb
  have D : [s.y_hat, s.weights2, s.bias1, s.output_set].Nodup := by
    simp only [List.nodup_cons, List.mem_cons, List.not_mem_nil, or_false, not_or, not_false_eq_true, List.nodup_nil, and_true] at nd ⊢
    exact ⟨⟨nd.1.1, nd.1.2, n1⟩, ⟨nd.2, n2⟩, n3⟩
  refine (C150_initialize gw1 gw2 gb1 gb2 L.wf hi ha' hb' rfl hm hv hA hu hz D (L.new_w1.ne_mat ha)).mono
    fun s' h' ⟨θ, R, K, nz, na, same, _⟩ => ?_
  have e1 : s'.input_set = s.input_set := by rw [same]
  have e2 : s'.output_set = s.output_set := by rw [same]
  have e3 : s'.n_hidden = s.n_hidden := by rw [same]
  have e4 : s'.lambda = s.lambda := by rw [same]
  have e5 : s'.alpha = s.alpha := by rw [same]
  have e6 : s'.reg = s.reg := by rw [same]
  have e7 : s'.weights1 = s.weights1 := by rw [same]
  have e8 : s'.weights2 = s.weights2 := by rw [same]
  have e9 : s'.bias1 = s.bias1 := by rw [same]
  have e10 : s'.y_hat = s.y_hat := by rw [same]
  obtain ⟨q, v', hv'⟩ := R.y_hat
  refine ⟨R.wf, L.keep.trans_new K fun l hl lv => ?_, ?_, ?_, ?_, ?_, ?_, ?_, e1 ▸ L.input, e2 ▸ L.output, ?_, ⟨_, _, hv'⟩, ⟨_, _, _, R.weights1⟩,
    ⟨_, _, R.weights2⟩, ⟨_, _, R.bias1⟩, e10 ▸ L.new_y, e7 ▸ L.new_w1, e8 ▸ L.new_w2, e9 ▸ L.new_b1, by rw [e10, e8, e9]; exact L.nd,
    fun _ => ⟨nz.mono L.keep, na.mono L.keep, ?_⟩⟩
  · simp only [List.mem_cons, List.not_mem_nil, or_false] at hl
    rcases hl with e | e | e | e
    · exact L.new_y l e.symm lv
    · exact L.new_w1 l e.symm lv
    · exact L.new_w2 l e.symm lv
    · exact L.new_b1 l e.symm lv
  · rw [e1, L.e_input]; unfold lastInput; rw [lastValue_snoc]; rfl
  · rw [e2, L.e_output]; unfold lastOutput; rw [lastValue_snoc]; rfl
  · rw [e3, L.e_hidden]; unfold lastHidden; rw [lastValue_snoc]; rfl
  · rw [e4, L.e_lambda, lastValue_snoc]; rfl
  · rw [e5, L.e_alpha, lastValue_snoc]; rfl
  · rw [e6, L.e_reg, lastValue_snoc]; rfl
  · refine ⟨fun _ => (setUp_snoc _ _).2 (.inr ⟨_, _, _, _, rfl, ?_, ?_, ?_⟩), fun _ => R.init⟩
    · rw [← L.e_input]; obtain ⟨_, e, -⟩ := ha; rw [e]; nofun
    · rw [← L.e_output]; obtain ⟨_, e, -⟩ := hb; rw [e]; nofun
    · rw [← L.e_hidden]; exact hm
  · rw [e3]; exact ⟨_, _, _, _, R⟩

theorem Life.step (L : Life h0 n pre s h) (c : Call) (hc : Admissible h0 n c) : Runs (call s c) h fun s' h' => Life h0 n (pre ++ [c]) s' h' := by
  have ns : ∀ {c : Call}, isSetter c → ¬ SetUp (pre ++ [c]) := fun {c} hs q => by
    rcases (setUp_snoc _ _).1 q with q | ⟨_, _, _, _, rfl, -⟩
    · exact q.1 hs
    · exact hs
  have un : ∀ {c : Call}, ¬ isSetter c → (∀ a b d e, c ≠ .initialize_ a b d e) → Life h0 n (pre ++ [c]) s h := fun {c} q q' => by
    refine L.idle q ?_
    rw [setUp_snoc]
    exact ⟨fun p => p.elim And.right fun ⟨a, b, d, e, p, _⟩ => absurd p (q' a b d e), fun p => .inl ⟨q, p⟩⟩
  cases c with
  | set_input_set v =>
    refine Runs.of_eq rfl ⟨L.wf, L.keep, ?_, ?_, ?_, ?_, ?_, ?_, hc, L.output, ?_, L.y_hat, L.weights1, L.weights2, L.bias1, L.new_y, L.new_w1, L.new_w2,
      L.new_b1, L.nd, nofun⟩
    · unfold lastInput; rw [lastValue_snoc]; rfl
    · unfold lastOutput; rw [lastValue_snoc]; exact L.e_output
    · unfold lastHidden; rw [lastValue_snoc]; exact L.e_hidden
    · rw [lastValue_snoc]; exact L.e_lambda
    · rw [lastValue_snoc]; exact L.e_alpha
    · rw [lastValue_snoc]; exact L.e_reg
    · exact ⟨nofun, fun q => absurd q (ns trivial)⟩
  | set_output_set v =>
    refine Runs.of_eq rfl ⟨L.wf, L.keep, ?_, ?_, ?_, ?_, ?_, ?_, L.input, hc, ?_, L.y_hat, L.weights1, L.weights2, L.bias1, L.new_y, L.new_w1, L.new_w2,
      L.new_b1, L.nd, nofun⟩
    · unfold lastInput; rw [lastValue_snoc]; exact L.e_input
    · unfold lastOutput; rw [lastValue_snoc]; rfl
    · unfold lastHidden; rw [lastValue_snoc]; exact L.e_hidden
    · rw [lastValue_snoc]; exact L.e_lambda
    · rw [lastValue_snoc]; exact L.e_alpha
    · rw [lastValue_snoc]; exact L.e_reg
    · exact ⟨nofun, fun q => absurd q (ns trivial)⟩
  | set_n_hidden v | set_lambda v | set_alpha v | set_reg v =>
    refine Runs.of_eq rfl ⟨L.wf, L.keep, ?_, ?_, ?_, ?_, ?_, ?_, L.input, L.output, ?_, L.y_hat, L.weights1, L.weights2, L.bias1, L.new_y, L.new_w1, L.new_w2,
      L.new_b1, L.nd, nofun⟩
    · unfold lastInput; rw [lastValue_snoc]; exact L.e_input
    · unfold lastOutput; rw [lastValue_snoc]; exact L.e_output
    · unfold lastHidden; rw [lastValue_snoc]; first | rfl | exact L.e_hidden
    · rw [lastValue_snoc]; first | rfl | exact L.e_lambda
    · rw [lastValue_snoc]; first | rfl | exact L.e_alpha
    · rw [lastValue_snoc]; first | rfl | exact L.e_reg
    · exact ⟨nofun, fun q => absurd q (ns trivial)⟩
  | initialize_ a b d e => exact L.call_init a b d e
  | gradient_descent lr e =>
    cases hi : s.initialized with
    | false => exact Runs.of_eq (C102_uninitialised h s hi (fun _ => 0) lr e 0).1 (un id (by intros; exact Call.noConfusion))
    | true =>
      obtain ⟨-, -, k, X, y, θ, R⟩ := L.ready hi
      exact L.trained id (by intros; exact Call.noConfusion) R (gd_run R lr e)
  | sgd pick lr e =>
    cases hi : s.initialized with
    | false => exact Runs.of_eq (C102_uninitialised h s hi pick lr e 0).2.1 (un id (by intros; exact Call.noConfusion))
    | true =>
      obtain ⟨-, -, k, X, y, θ, R⟩ := L.ready hi
      exact L.trained id (by intros; exact Call.noConfusion) R (sgd_run R hc lr e)
  | mbgd lr e b =>
    cases hi : s.initialized with
    | false => exact Runs.of_eq (C102_uninitialised h s hi (fun _ => 0) lr e b).2.2 (un id (by intros; exact Call.noConfusion))
    | true =>
      obtain ⟨-, -, k, X, y, θ, R⟩ := L.ready hi
      obtain ⟨hb, hn⟩ := hc
      obtain ⟨b, rfl⟩ := Int.eq_ofNat_of_zero_le hb.le
      have hb' : 0 < b := by omega
      exact L.trained id (by intros; exact Call.noConfusion) R (mbgd_run R lr e hb' rfl (Nat.div_pos (by omega) hb'))

theorem Life.run (L : Life h0 n pre s h) (hist : List Call) (hc : ∀ c ∈ hist, Admissible h0 n c) :
    Runs (run s hist) h fun s' h' => Life h0 n (pre ++ hist) s' h' := by
  induction hist generalizing pre s h with
  | nil => exact Runs.of_eq rfl (by simpa using L)
  | cons c hist ih =>
    refine Runs.bind ((L.step c (hc c (by simp))).mono fun s' h' L' => ?_)
    have := ih L' fun c q => hc c (by simp [q])
    rwa [List.append_assoc] at this

theorem Life.blank (w : h.WF) (n : Nat) : Runs blank h fun s h' => Life h n [] s h' := by
  unfold Mlp.blank
  refine stepV0 w fun oy h1 vy w1 k1 f1 by1 => ?_
  have K1 := k1
  refine stepM0 w1 fun o1 h2 A1 w2 k2 f2 bW1 => ?_
  have g2 := f2.mono K1
  have K2 := K1.trans k2
  nw f2 k2
  refine stepV0 w2 fun o2 h3 v2 w3 k3 f3 bW2 => ?_
  have g3 := f3.mono K2
  have K3 := K2.trans k3
  nw f3 k3
  refine stepV0 w3 fun ob h6 vb w6 k6 f6 bb => ?_
  have g6 := f6.mono K3
  have K6 := K3.trans k6
  nw f6 k6
  refine stepM0 w6 fun oz h4 Az w4 k4 f4 bz => ?_
  have K4 := K6.trans k4
  nw f4 k4
  refine stepM0 w4 fun oa h5 Aa w5 k5 f5 ba => ?_
  have K5 := K4.trans k5
  nw f5 k5
  refine Runs.of_eq rfl ⟨w5, K5, rfl, rfl, rfl, rfl, rfl, rfl, .inl rfl, .inl rfl, ⟨nofun, ?_⟩, ⟨_, _, by1⟩, ⟨_, _, _, bW1⟩, ⟨_, _, bW2⟩, ⟨_, _, bb⟩,
    f1, g2, g3, g6, ?_, nofun⟩
  · rintro ⟨before, _, _, _, _, after, e, _⟩
    simp at e
  · simp only [List.nodup_cons, List.mem_cons, List.not_mem_nil, or_false, not_or, not_false_eq_true, List.nodup_nil, and_true]
    repeat' apply And.intro
    all_goals first | assumption | exact Ne.symm (by assumption)

/-- **C150** (every life): an object created empty is given any calls of setters, of `initialize` and of methods of training, in any order and with any
repetitions; the data it is given may have any number of columns, but all the same number of rows. Nothing that existed before it was made is ever changed; every
getter returns the value set last; the object is initialised exactly if `initialize` was called when there was something to initialise from and no setter has been
called since; and then it is ready for the data and the number of hidden units set last, so that what C102 says of predictions and training holds. -/
theorem C150_history (w : h.WF) (hist : List Call) (hc : ∀ c ∈ hist, Admissible h n c) :
    Runs (blank >>= fun s => run s hist) h fun s h' => h'.WF ∧ Keeps h h' (fun _ => False) ∧
      get_input_set s = lastInput hist ∧ get_output_set s = lastOutput hist ∧ get_n_hidden s = lastHidden hist ∧
      get_lambda s = lastValue (fun | .set_lambda v => some v | _ => none) hist (1 / 2) ∧
      get_alpha s = lastValue (fun | .set_alpha v => some v | _ => none) hist (1 / 2) ∧
      get_reg s = lastValue (fun | .set_reg v => some v | _ => none) hist .none ∧
      (is_initialized s = true ↔ SetUp hist) ∧
      ∀ (k : Nat) (X : Matrix (Fin n) (Fin k) ℝ) (y : Fin n → ℝ), SetUp hist → HasM h (lastInput hist) X → HasV h (lastOutput hist) y →
        ∃ θ : NetParams k (lastHidden hist), MlpReady s h' X y θ := by
  refine Runs.bind ((Life.blank w n).mono fun s h1 L => ?_)
  refine (L.run hist hc).mono fun s' h' L' => ?_
  rw [List.nil_append] at L'
  refine ⟨L'.wf, L'.keep, L'.e_input, L'.e_output, L'.e_hidden, L'.e_lambda, L'.e_alpha, L'.e_reg, L'.flag, fun k X y hs ha hb => ?_⟩
  obtain ⟨-, -, k', X', y', θ, R⟩ := L'.ready (L'.flag.2 hs)
  have ha' : HasM h' s'.input_set X := by rw [L'.e_input]; exact ha.keep L'.keep fun _ _ => id
  have hb' : HasV h' s'.output_set y := by rw [L'.e_output]; exact hb.keep L'.keep fun _ _ => id
  obtain rfl := hasM_width ha' R.input
  obtain rfl := hasM_unique ha' R.input
  obtain rfl := hasV_unique hb' R.output
  rw [← L'.e_hidden]
  exact ⟨θ, R⟩

/-- **C150** (changing something): after any such life, a call of a setter, even with the value that the object has already, leaves an object that refuses to train
until it is initialised again, whatever the weights were. -/
theorem C150_setter_resets (s : Mlp) (h : Heap ℝ) {c : Call} (hc : isSetter c) : Runs (call s c) h fun s' h' => h' = h ∧ is_initialized s' = false ∧
    ∀ (pick : Nat → Nat) (lr : ℝ) (e b : Int), gradient_descent s' lr e h = .ok (s', h) ∧ sgd s' pick lr e h = .ok (s', h) ∧ mbgd s' lr e b h = .ok (s', h) := by
  cases c <;> first | exact absurd hc id | exact Runs.of_eq rfl ⟨rfl, rfl, fun pick lr e b => C102_uninitialised h _ rfl pick lr e b⟩

/-- A history that meets the hypotheses of `C150_history` and sets the object up: data, training refused, hidden units, initialising, training; nothing after it
sets anything. The data are those of the example of C102. -/
example (g : Utilities.Source) :
    (∀ c ∈ [Call.set_input_set (some (.m 0)), .mbgd 1 5 2, .set_output_set (some (.v 0)), .set_n_hidden 3, .initialize_ g g g g, .gradient_descent (1 / 10) 100],
      Admissible mlpHeap 2 c) ∧
    SetUp [Call.set_input_set (some (.m 0)), .mbgd 1 5 2, .set_output_set (some (.v 0)), .set_n_hidden 3, .initialize_ g g g g, .gradient_descent (1 / 10) 100] ∧
    HasM mlpHeap (some (.m 0)) !![5; 6] ∧ HasV mlpHeap (some (.v 0)) ![1, 0] := by
  have hm : HasM mlpHeap (some (.m 0)) !![5; 6] :=
    ⟨0, rfl, by simp [mlpHeap, Heap.ofLists, Heap.live, Loc.id], by simp [mlpHeap, Heap.ofLists],
      fun i j => by fin_cases i <;> fin_cases j <;> simp [mlpHeap, Heap.ofLists]⟩
  have hv : HasV mlpHeap (some (.v 0)) ![1, 0] :=
    ⟨0, rfl, by simp [mlpHeap, Heap.ofLists, Heap.live, Loc.id], by simp [mlpHeap, Heap.ofLists],
      fun i => by fin_cases i <;> simp [mlpHeap, Heap.ofLists]⟩
  refine ⟨?_, ⟨[.set_input_set (some (.m 0)), .mbgd 1 5 2, .set_output_set (some (.v 0)), .set_n_hidden 3], g, g, g, g, [.gradient_descent (1 / 10) 100], rfl,
    nofun, nofun, by simp [lastHidden, lastValue], ?_⟩, hm, hv⟩
  · intro c hc
    simp only [List.mem_cons, List.not_mem_nil, or_false] at hc
    rcases hc with rfl | rfl | rfl | rfl | rfl | rfl
    exacts [.inr ⟨_, _, hm⟩, ⟨by norm_num, by norm_num⟩, .inr ⟨_, hv⟩, trivial, trivial, trivial]
  · intro c hc
    rw [List.mem_singleton.1 hc]
    exact id

end Mlp
end Verif
