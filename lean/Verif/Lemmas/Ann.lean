import Verif.Spec.Ann
import Verif.Lemmas.Layers

/-! # Passes through a network -/

namespace Verif
open Spec Finset

namespace Ann
variable {n k : Nat}

theorem works_forward {u : Lay} (hu : u.Works) : u.act ∉ [Activation.Fn.adj_softmax, .swish, .mish, .softplus, .softsign] := by
  have := hu.1
  simp only [List.mem_cons, List.not_mem_nil, or_false, not_or] at this ⊢
  tauto

theorem written_mat {h : Heap ℝ} : ∀ (us : List Lay) {k : Nat} {H : Hiddens k us} {ls : List HiddenLayer}, LayersAre h us H ls →
    ∀ r ∈ written ls, ∃ (p q : Nat) (A : Matrix (Fin p) (Fin q) ℝ), HasM h r A
  | [], _, _, _, L, r, hr => by cases L; cases hr
  | u :: us, _, H, _, L, r, hr => by
    obtain ⟨l, ls, rfl, L1, L2⟩ := L
    simp only [written, List.flatMap_cons, List.mem_append, List.mem_cons, List.not_mem_nil, or_false] at hr
    rcases hr with (rfl | rfl) | hr
    · exact L1.z
    · exact ⟨_, _, _, L1.weights⟩
    · exact written_mat us L2 r hr

theorem notin_written {h : Heap ℝ} {us : List Lay} {H : Hiddens k us} {ls : List HiddenLayer} (L : LayersAre h us H ls) {r : Ref} (f : NotIn h r) :
    r ∉ written ls := fun hr => by
  obtain ⟨p, q, A, a⟩ := written_mat us L r hr
  exact f.ne_mat a rfl

theorem vec_written {h : Heap ℝ} {us : List Lay} {H : Hiddens k us} {ls : List HiddenLayer} (L : LayersAre h us H ls) {r : Ref} {v : Fin n → ℝ}
    (f : HasV h r v) : r ∉ written ls := fun hr => by
  obtain ⟨p, q, A, a⟩ := written_mat us L r hr
  exact f.ne_mat a rfl

theorem LayerIs.keep {h h' : Heap ℝ} {l : HiddenLayer} {u : Lay} {θ : MParams k u.units} (L : LayerIs h l u θ) {S : Loc → Prop} (K : Keeps h h' S)
    (hS : ∀ q ∈ [l.z, l.weights, l.bias], ∀ c, q = some c → ¬ S c) : LayerIs h' l u θ := by
  obtain ⟨p, q, A, a⟩ := L.z
  exact ⟨L.units, L.act, L.init, L.reg, L.lambda, L.alpha, L.weights.keep K (hS _ (by simp)), L.bias.keep K (hS _ (by simp)), p, q, A,
    a.keep K (hS _ (by simp))⟩

theorem LayersAre.keep {h h' : Heap ℝ} {S : Loc → Prop} (K : Keeps h h' S) : ∀ (us : List Lay) {k : Nat} {H : Hiddens k us}
    {ls : List HiddenLayer}, LayersAre h us H ls → (∀ l ∈ ls, ∀ q ∈ [l.z, l.weights, l.bias], ∀ c, q = some c → ¬ S c) → LayersAre h' us H ls
  | [], _, _, _, L, _ => L
  | u :: us, _, H, _, L, hS => by
    obtain ⟨l, ls, rfl, L1, L2⟩ := L
    exact ⟨l, ls, rfl, LayerIs.keep L1 K (hS l (by simp)), LayersAre.keep K us L2 fun l' hl => hS l' (by simp [hl])⟩

/-- After a pass: the inputs of the layers, and their values before the activation functions. -/
def Fed (h : Heap ℝ) : {k : Nat} → (us : List Lay) → Hiddens k us → List HiddenLayer → Matrix (Fin n) (Fin k) ℝ → Prop
  | _, [], _, _, _ => True
  | _, u :: us, H, ls, X => ∃ l ls', ls = l :: ls' ∧ HasM h l.input X ∧ HasM h l.z (affine X H.1) ∧ Fed h us H.2 ls' (layerOut u.act X H.1)

theorem Fed.keep {h h' : Heap ℝ} (K : Keeps h h' (fun _ => False)) : ∀ (us : List Lay) {k : Nat} {H : Hiddens k us}
    {ls : List HiddenLayer} {X : Matrix (Fin n) (Fin k) ℝ}, Fed h us H ls X → Fed h' us H ls X
  | [], _, _, _, _, _ => trivial
  | u :: us, _, H, _, X, L => by
    obtain ⟨l, ls, rfl, a, b, c⟩ := L
    exact ⟨l, ls, rfl, a.keep K (fun _ _ => id), b.keep K (fun _ _ => id), Fed.keep K us c⟩

/-- What a pass leaves of a layer. -/
def Same (l l' : HiddenLayer) : Prop := l' = { l with input := l'.input, a := l'.a, initialized := true }

theorem same_written : ∀ {ls ls' : List HiddenLayer}, List.Forall₂ Same ls ls' → written ls' = written ls ∧ ls'.map (·.bias) = ls.map (·.bias) ∧
    ls'.length = ls.length ∧ ∀ l ∈ ls', l.initialized = true
  | _, _, .nil => ⟨rfl, rfl, rfl, by simp⟩
  | _, _, .cons (a := l) (b := l') e es => by
    obtain ⟨a, b, c, d⟩ := same_written es
    refine ⟨?_, ?_, by simp [c], ?_⟩
    · show l'.z :: l'.weights :: written _ = l.z :: l.weights :: written _
      rw [a, e]
    · simp only [List.map_cons, b]
      rw [e]
    · intro x hx
      rcases List.mem_cons.1 hx with rfl | hx
      · rw [e]
      · exact d x hx

theorem bias_of {h : Heap ℝ} : ∀ (us : List Lay) {k : Nat} {H : Hiddens k us} {ls : List HiddenLayer}, LayersAre h us H ls →
    ∀ l ∈ ls, ∃ (p : Nat) (v : Fin p → ℝ), HasV h l.bias v
  | [], _, _, _, L, l, hl => by cases L; cases hl
  | u :: us, _, H, _, L, l, hl => by
    obtain ⟨l0, ls, rfl, L1, L2⟩ := L
    rcases List.mem_cons.1 hl with rfl | hl
    · exact ⟨_, _, L1.bias⟩
    · exact bias_of us L2 l hl

theorem layersPass_run (g : Draws) : ∀ (us : List Lay) {k : Nat} {H : Hiddens k us} {ls : List HiddenLayer} (i : Nat) {x : Ref}
    {X : Matrix (Fin n) (Fin k) ℝ} {h : Heap ℝ}, h.WF → LayersAre h us H ls → HasM h x X → (x :: written ls).Nodup → (∀ u ∈ us, u.Works) →
    Runs (layersPass g i x ls) h fun r h' => h'.WF ∧ Keeps h h' (fun l => some l ∈ written ls) ∧ List.Forall₂ Same ls r.1 ∧
      LayersAre h' us (redrawnH g us i H) r.1 ∧ Fed h' us (redrawnH g us i H) r.1 X ∧
      HasM h' r.2 (fun a => through us (redrawnH g us i H) (X a)) ∧ (r.2 = x ∨ NotIn h r.2) ∧ ∀ l ∈ r.1, l.input = x ∨ NotIn h l.input
  | [], _, _, _, i, x, X, h, w, L, hx, d, hu => by
    cases L
    exact Runs.of_eq rfl ⟨w, Keeps.refl _ _, .nil, rfl, trivial, hx, Or.inl rfl, by simp⟩
  | u :: us, k, H, _, i, x, X, h, w, L, hx, d, hu => by
    obtain ⟨l, ls, rfl, L1, L2⟩ := L
    have d' : (x :: l.z :: l.weights :: written ls).Nodup := d
    simp only [List.nodup_cons, List.mem_cons, not_or] at d'
    obtain ⟨⟨n1, n2, n3⟩, ⟨n4, n5⟩, n6, n7⟩ := d'
    have U := hu u (by simp)
    unfold layersPass
    have R : HiddenReady (HiddenLayer.set_input l x) h X H.1 := ⟨w, L1.units, hx, L1.weights, L1.bias, L1.z, by
      show [l.z, l.weights, x].Nodup
      simp only [List.nodup_cons, List.mem_cons, List.not_mem_nil, or_false, not_or, not_false_eq_true, List.nodup_nil, and_true]
      exact ⟨⟨n4, Ne.symm n1⟩, Ne.symm n2⟩⟩
    refine Runs.bind ((HiddenLayer.forward_new_run (g i).1 (g i).2 R rfl (by rw [show (HiddenLayer.set_input l x).weight_init = l.weight_init from rfl, L1.init]; exact U.2)
      (by rw [show (HiddenLayer.set_input l x).activation = l.activation from rfl, L1.act]; exact works_forward U)).mono fun l1 h1 ⟨e1, K1, N1, R1, z1, a1⟩ => ?_)
    rw [show (HiddenLayer.set_input l x).weight_init = l.weight_init from rfl, L1.init] at R1 z1 a1
    rw [show (HiddenLayer.set_input l x).activation = l.activation from rfl, L1.act] at a1
    have z1 : HasM h1 l.z _ := z1
    have K1 : Keeps h h1 (fun c => some c = l.z ∨ some c = l.weights) := K1
    have f1 : l1.n_hidden = l.n_hidden ∧ l1.activation = l.activation ∧ l1.weight_init = l.weight_init ∧ l1.reg = l.reg ∧ l1.lambda = l.lambda ∧
        l1.alpha = l.alpha ∧ l1.weights = l.weights ∧ l1.bias = l.bias ∧ l1.z = l.z ∧ l1.input = x := by
      rw [e1]; exact ⟨rfl, rfl, rfl, rfl, rfl, rfl, rfl, rfl, rfl, rfl⟩
    obtain ⟨f1, f2, f3, f4, f5, f6, f7, f8, f9, f10⟩ := f1
    have sm : Same l l1 := by unfold Same; rw [e1, f10.symm]; rfl
    have L2' : LayersAre h1 us H.2 ls := LayersAre.keep K1 us L2 fun l' hl q hq c e hc => by
      simp only [List.mem_cons, List.not_mem_nil, or_false] at hq
      have mz : l'.z ∈ written ls := List.mem_flatMap.2 ⟨l', hl, by simp⟩
      have mw : l'.weights ∈ written ls := List.mem_flatMap.2 ⟨l', hl, by simp⟩
      have mb : ∃ (p : Nat) (v : Fin p → ℝ), HasV h l'.bias v := bias_of us L2 l' hl
      rcases hq with rfl | rfl | rfl
      · rw [← e] at hc; rcases hc with hc | hc
        · exact n5 (hc ▸ mz)
        · exact n6 (hc ▸ mz)
      · rw [← e] at hc; rcases hc with hc | hc
        · exact n5 (hc ▸ mw)
        · exact n6 (hc ▸ mw)
      · obtain ⟨p, v, hv⟩ := mb
        rw [← e] at hc; rcases hc with hc | hc
        · obtain ⟨_, _, _, hz⟩ := L1.z
          exact hv.ne_mat hz hc
        · exact hv.ne_mat L1.weights hc
    have nd : (l1.a :: written ls).Nodup := List.nodup_cons.2 ⟨notin_written L2 N1, n7⟩
    refine Runs.bind ((layersPass_run g us (i + 1) R1.wf L2' a1 nd fun u' hu' => hu u' (by simp [hu'])).mono fun r h2 ⟨w2, K2, S2, L2, F2, a2, o2, o3⟩ => ?_)
    have kz : HasM h2 l1.z (affine X (drawnM (g i).1 u.init k u.units, H.1.2)) := by
      rw [f9]
      exact z1.keep K2 fun c e hc => n5 (e ▸ hc)
    have kw := R1.weights.keep K2 fun c e hc => n6 (f7 ▸ e ▸ hc)
    have kb := R1.bias.keep K2 fun c e hc => vec_written L2' R1.bias (e ▸ hc)
    have ki := R1.input.keep K2 fun c e hc => n3 (f10 ▸ e ▸ hc)
    refine Runs.of_eq rfl ⟨w2, ?_, .cons sm S2, ?_, ?_, a2, ?_, ?_⟩
    · refine (K1.mono fun c _ hc => ?_).trans (K2.mono fun c _ hc => ?_)
      · show some c ∈ l.z :: l.weights :: written ls
        rcases hc with hc | hc <;> simp [hc]
      · show some c ∈ l.z :: l.weights :: written ls
        simp [hc]
    · exact ⟨l1, r.1, rfl, ⟨f1.trans L1.units, f2.trans L1.act, f3.trans L1.init, f4.trans L1.reg, f5.trans L1.lambda, f6.trans L1.alpha,
        kw, kb, _, _, _, kz⟩, L2⟩
    · exact ⟨l1, r.1, rfl, ki, kz, F2⟩
    · rcases o2 with o2 | o2
      · exact Or.inr (o2 ▸ N1)
      · exact Or.inr (o2.mono K1)
    · intro l' hl'
      rcases List.mem_cons.1 hl' with rfl | hl'
      · exact Or.inl f10
      · rcases o3 l' hl' with q | q
        · exact Or.inr (q ▸ N1)
        · exact Or.inr (q.mono K1)

/-- The state of the layers after a pass with the inputs `X`. -/
structure Passed (h : Heap ℝ) (ls : List HiddenLayer) (l : OutputLayer) (o : Top) (us : List Lay) (X : Matrix (Fin n) (Fin k) ℝ) (N : Net k us) : Prop where
  wf : h.WF
  hidden : LayersAre h us N.1 ls
  fed : Fed h us N.1 ls X
  out : OutputIs h l o N.2
  input : HasM h l.input (fun a => through us N.1 (X a))
  z : HasV h l.z (fun a => ∑ j, through us N.1 (X a) j * N.2.1 j + N.2.2)
  a : HasV h l.a (fun a => netAt o us N (X a))
  init : (∀ l ∈ ls, l.initialized = true) ∧ l.initialized = true

theorem topworks_act {o : Top} (ho : o.Works) : o.act ≠ .adj_softmax ∧ ∀ {m : Nat} (v : Fin m → ℝ), applied o.act v = fun i => Activation.normReal o.act (v i) := by
  have := ho.1
  simp only [List.mem_cons, List.not_mem_nil, or_false, not_or] at this
  refine ⟨this.2.1, fun v => ?_⟩
  unfold applied
  split
  · exact absurd (by assumption) this.1
  · exact absurd (by assumption) this.2.1
  · rfl

theorem pass_raw (g : Draws) {s : Ann} {o : Top} {us : List Lay} {N : Net k us} {l : OutputLayer} {x : Ref} {X : Matrix (Fin n) (Fin k) ℝ} {h : Heap ℝ}
    (w : h.WF) (L : LayersAre h us N.1 s.network) (el : s.output_layer = some l) (O : OutputRaw h l o (width k us))
    (nb : l.weights ∉ s.network.map (·.bias)) (hx : HasM h x X) (d : (x :: written s.network).Nodup) (hu : ∀ u ∈ us, u.Works) (ho : o.Works)
    {β : Type} {f : List HiddenLayer → OutputLayer → β} :
    Runs (do
      let r ← layersPass g 0 x s.network
      let o ← output s
      let o ← OutputLayer.forward_pass (g s.network.length).1 (g s.network.length).2 (OutputLayer.set_input o r.2)
      pure (f r.1 o)) h fun r h' => ∃ ls l', r = f ls l' ∧ Keeps h h' (fun c => some c ∈ l.weights :: written s.network) ∧
        List.Forall₂ Same s.network ls ∧ l'.weights = l.weights ∧ NotIn h l'.a ∧ Passed h' ls l' o us X (redrawn g o us N) := by
  refine Runs.bind ((layersPass_run g us 0 w L hx d hu).mono fun r h1 ⟨w1, K1, S1, L1, F1, a1, o1⟩ => ?_)
  have e : output s h1 = .ok (l, h1) := by unfold output; rw [el]; rfl
  refine Runs.step e ?_
  obtain ⟨pw, vw, kw0⟩ := O.weights
  have kw : HasV h1 l.weights vw := kw0.keep K1 fun c e hc => vec_written L kw0 (e ▸ hc)
  obtain ⟨ta, tb⟩ := topworks_act ho
  have hl : s.network.length = us.length := by
    clear * - L
    generalize s.network = ls at L
    induction us generalizing k ls with
    | nil => cases L; rfl
    | cons u us ih => obtain ⟨l, ls', rfl, -, L2⟩ := L; simp [ih (N := (N.1.2, N.2)) ls' L2]
  refine Runs.bind ((OutputLayer.forward_raw_run (s := OutputLayer.set_input l r.2) _ _ w1 O.units a1 kw rfl (by show l.activation ≠ _; rw [O.act]; exact ta)).mono
    fun l1 h2 ⟨e1, K2, n1, n2, R2, z2, a2⟩ => ?_)
  have K2 : Keeps h1 h2 (some · = l.weights) := K2
  have fw : l1.weights = l.weights := by rw [e1]; rfl
  have eo : (OutputLayer.set_input l r.2).weight_init = o.init := O.init
  have ea : (OutputLayer.set_input l r.2).activation = o.act := O.act
  rw [eo, hl] at R2 z2 a2
  rw [ea, tb] at a2
  obtain ⟨sw, sb, sl, si⟩ := same_written S1
  refine Runs.of_eq rfl ⟨r.1, l1, rfl, ?_, S1, fw, n1.mono K1, ?_⟩
  · exact (K1.mono fun c _ hc => List.mem_cons_of_mem _ hc).trans (K2.mono fun c _ hc => by simp [hc])
  · have keepM : ∀ {p q : Nat} {A : Matrix (Fin p) (Fin q) ℝ} {c : Ref}, HasM h1 c A → HasM h2 c A := fun hc => hc.keep K2 fun x e hx =>
      kw.ne_mat hc (by rw [e, ← hx])
    have LK : ∀ (us : List Lay) {k : Nat} {H : Hiddens k us} {ls : List HiddenLayer}, LayersAre h1 us H ls → l.weights ∉ ls.map (·.bias) → LayersAre h2 us H ls :=
      fun us k H ls L nb => LayersAre.keep K2 us L fun l' hl q hq c e hc => by
        simp only [List.mem_cons, List.not_mem_nil, or_false] at hq
        rcases hq with rfl | rfl | rfl
        · obtain ⟨_, _, _, hz⟩ := written_mat us L l'.z (List.mem_flatMap.2 ⟨l', hl, by simp⟩)
          exact kw.ne_mat hz (by rw [e, ← hc])
        · obtain ⟨_, _, _, hz⟩ := written_mat us L l'.weights (List.mem_flatMap.2 ⟨l', hl, by simp⟩)
          exact kw.ne_mat hz (by rw [e, ← hc])
        · exact nb (List.mem_map.2 ⟨l', hl, by rw [e, ← hc]⟩)
    have FK : ∀ (us : List Lay) {k : Nat} {H : Hiddens k us} {ls : List HiddenLayer} {X : Matrix (Fin n) (Fin k) ℝ}, Fed h1 us H ls X → Fed h2 us H ls X := by
      intro us
      induction us with
      | nil => intros; trivial
      | cons u us ih =>
        intro k H ls X F
        obtain ⟨l, ls', rfl, a, b, c⟩ := F
        exact ⟨l, ls', rfl, keepM a, keepM b, ih c⟩
    have q : OutputIs h2 l1 o (redrawn g o us N).2 := by
      refine ⟨R2.units, ?_, ?_, ?_, ?_, ?_, ?_, R2.weights, R2.bias⟩
      · rw [e1]; exact O.act
      · rw [e1]; exact O.cost
      · rw [e1]; exact O.init
      · rw [e1]; exact O.reg
      · rw [e1]; exact O.lambda
      · rw [e1]; exact O.alpha
    exact ⟨R2.wf, LK us L1 (sb ▸ nb), FK us F1, q, R2.input, z2, a2, si, by rw [e1]⟩

theorem _root_.Verif.Spec.OutputIs.raw {h : Heap ℝ} {l : OutputLayer} {o : Top} {θ : Params k} (O : OutputIs h l o θ) : OutputRaw h l o k :=
  ⟨O.units, O.act, O.cost, O.init, O.reg, O.lambda, O.alpha, _, _, O.weights⟩

theorem pass_run (g : Draws) {s : Ann} {o : Top} {us : List Lay} {N : Net k us} {l : OutputLayer} {x : Ref} {X : Matrix (Fin n) (Fin k) ℝ} {h : Heap ℝ}
    (w : h.WF) (L : LayersAre h us N.1 s.network) (el : s.output_layer = some l) (O : OutputIs h l o N.2)
    (nb : l.weights ∉ s.network.map (·.bias)) (hx : HasM h x X) (d : (x :: written s.network).Nodup) (hu : ∀ u ∈ us, u.Works) (ho : o.Works)
    {β : Type} {f : List HiddenLayer → OutputLayer → β} :
    Runs (do
      let r ← layersPass g 0 x s.network
      let o ← output s
      let o ← OutputLayer.forward_pass (g s.network.length).1 (g s.network.length).2 (OutputLayer.set_input o r.2)
      pure (f r.1 o)) h fun r h' => ∃ ls l', r = f ls l' ∧ Keeps h h' (fun c => some c ∈ l.weights :: written s.network) ∧
        List.Forall₂ Same s.network ls ∧ l'.weights = l.weights ∧ NotIn h l'.a ∧ Passed h' ls l' o us X (redrawn g o us N) :=
  pass_raw g w L el O.raw nb hx d hu ho

theorem allFit_of : ∀ (us : List Lay) {k : Nat} {H : Hiddens k us} {v : Fin k → ℝ}, (∀ u ∈ us, u.act ≠ .adj_softmax) → allFit us H v
  | [], _, _, _, _ => trivial
  | u :: us, _, _, _, hu => ⟨Layer.fits_of (hu u (by simp)), allFit_of us fun v hv => hu v (by simp [hv])⟩

theorem test_layer (gw gb : Utilities.Source) {l : HiddenLayer} {u : Lay} {θ : MParams k u.units} {h : Heap ℝ} (w : h.WF) (L : LayerIs h l u θ)
    (hi : l.initialized = true) {x : Ref} {v : Fin k → ℝ} (hx : HasV h x v) (hr : FitsInt u.act fun a => ∑ j, v j * θ.1 j a + θ.2 a) :
    Runs (HiddenLayer.test gw gb l x) h fun s' h' => s' = { l with z_test := s'.z_test, a_test := s'.a_test } ∧ h'.WF ∧ Keeps h h' (fun _ => False) ∧
      HasV h' s'.a_test (applied u.act fun a => ∑ j, v j * θ.1 j a + θ.2 a) := by
  have uw := L.weights
  have ub := L.bias
  unfold HiddenLayer.test
  refine Runs.step (HiddenLayer.init_skip gw gb hi h) ?_
  refine stepM (Hd.transposen_spec w uw) fun t h1 w1 k1 f1 ut => ?_
  have K1 := k1
  nw f1 k1
  refine stepV (Hd.mult_vec_spec w1 ut hx) fun z h2 w2 k2 f2 uz => ?_
  have K2 := K1.trans k2
  have g2 := f2.mono K1
  nw f2 k2
  refine Runs.bind ((Hd.add_run w2 uz ub).mono fun _ h3 ⟨w3, k3, uz3⟩ => ?_)
  have K3 := K2.wr_new k3 g2
  wr k3
  rw [L.act]
  have er : (fun a => (∑ j, θ.1 j a * v j) + θ.2 a) = fun a => ∑ j, v j * θ.1 j a + θ.2 a :=
    funext fun a => by rw [Finset.sum_congr rfl fun j _ => mul_comm (θ.1 j a) (v j)]
  refine stepV (Layer.act_vec_gen (er ▸ hr) w3 uz3) fun a h4 w4 k4 f4 ua => ?_
  refine Runs.of_eq rfl ⟨rfl, w4, K3.trans k4, ?_⟩
  refine cast (congrArg _ ?_) ua
  refine congrArg _ (funext fun a => ?_)
  show (∑ j, θ.1 j a * v j) + θ.2 a = _
  rw [Finset.sum_congr rfl fun j _ => mul_comm (θ.1 j a) (v j)]

theorem layersTest_run (g : Draws) : ∀ (us : List Lay) {k : Nat} {H : Hiddens k us} {ls : List HiddenLayer} (i : Nat) {x : Ref}
    {v : Fin k → ℝ} {h : Heap ℝ}, h.WF → LayersAre h us H ls → (∀ l ∈ ls, l.initialized = true) → HasV h x v → allFit us H v →
    Runs (layersTest g i x ls) h fun r h' => h'.WF ∧ Keeps h h' (fun _ => False) ∧
      List.Forall₂ (fun l l' => l' = { l with z_test := l'.z_test, a_test := l'.a_test }) ls r.1 ∧ HasV h' r.2 (through us H v)
  | [], _, _, _, i, x, v, h, w, L, hi, hx, hu => by
    cases L
    exact Runs.of_eq rfl ⟨w, Keeps.refl _ _, .nil, hx⟩
  | u :: us, k, H, _, i, x, v, h, w, L, hi, hx, hu => by
    obtain ⟨l, ls, rfl, L1, L2⟩ := L
    unfold layersTest
    refine Runs.bind ((test_layer (g i).1 (g i).2 w L1 (hi l (by simp)) hx hu.1).mono fun l1 h1 ⟨e1, w1, K1, a1⟩ => ?_)
    refine Runs.bind ((layersTest_run g us (i + 1) w1 (LayersAre.keep K1 us L2 fun _ _ _ _ _ _ => id) (fun l hl => hi l (by simp [hl])) a1
      hu.2).mono fun r h2 ⟨w2, K2, S2, a2⟩ => ?_)
    exact Runs.of_eq rfl ⟨w2, K1.trans K2, .cons e1 S2, a2⟩

end Ann
end Verif
