import Verif.Lemmas.Ann
import Verif.Lemmas.Lists
import Verif.Props.CostReg
import Verif.Lemmas.Glm

/-! # Backward passes through a network -/

namespace Verif
open Spec Finset

namespace Ann
variable {n k : Nat}

/-- What the layers `us` hand back: the derivatives with respect to their inputs, if `S` are those with respect to their outputs. -/
noncomputable def backSig : {k : Nat} → (us : List Lay) → Hiddens k us → Matrix (Fin n) (Fin k) ℝ → Matrix (Fin n) (Fin (width k us)) ℝ → Matrix (Fin n) (Fin k) ℝ
  | _, [], _, _, S => S
  | _, u :: us, H, X, S => fun i j => ∑ a, backSig us H.2 (layerOut u.act X H.1) S i a * Activation.ownDerivReal u.act (affine X H.1 i a) * H.1.1 j a

/-- The derivatives with respect to the values before the activation functions of the first layer. -/
noncomputable def deltaOf (u : Lay) (us : List Lay) (H : Hiddens k (u :: us)) (X : Matrix (Fin n) (Fin k) ℝ) (S : Matrix (Fin n) (Fin (width k (u :: us))) ℝ) :
    Matrix (Fin n) (Fin u.units) ℝ :=
  fun i a => backSig us H.2 (layerOut u.act X H.1) S i a * Activation.ownDerivReal u.act (affine X H.1 i a)

/-- The gradients. -/
noncomputable def gradsH : {k : Nat} → (us : List Lay) → Hiddens k us → Matrix (Fin n) (Fin k) ℝ → Matrix (Fin n) (Fin (width k us)) ℝ → Hiddens k us
  | _, [], _, _, _ => ()
  | _, u :: us, H, X, S => ((fun j a => ∑ i, X i j * deltaOf u us H X S i a + Reg.derivTerm u.lambda u.alpha u.reg (H.1.1 j a),
      fun a => ∑ i, deltaOf u us H X S i a), gradsH us H.2 (layerOut u.act X H.1) S)

/-- The errors of the layers. -/
def Backed (h : Heap ℝ) : {k : Nat} → (us : List Lay) → Hiddens k us → List HiddenLayer → Matrix (Fin n) (Fin k) ℝ → Matrix (Fin n) (Fin (width k us)) ℝ → Prop
  | _, [], _, _, _, _ => True
  | _, u :: us, H, ls, X, S => ∃ l ls', ls = l :: ls' ∧ HasM h l.delta (deltaOf u us H X S) ∧ Backed h us H.2 ls' (layerOut u.act X H.1) S

theorem Backed.keep {h h' : Heap ℝ} (K : Keeps h h' (fun _ => False)) : ∀ (us : List Lay) {k : Nat} {H : Hiddens k us}
    {ls : List HiddenLayer} {X : Matrix (Fin n) (Fin k) ℝ} {S : Matrix (Fin n) (Fin (width k us)) ℝ}, Backed h us H ls X S → Backed h' us H ls X S
  | [], _, _, _, _, _, _ => trivial
  | u :: us, _, H, _, X, S, L => by
    obtain ⟨l, ls, rfl, a, c⟩ := L
    exact ⟨l, ls, rfl, a.keep K (fun _ _ => id), Backed.keep K us c⟩

/-- A matrix with its extents. -/
abbrev Some : Type := Σ p q : Nat, Matrix (Fin p) (Fin q) ℝ

def HasS (h : Heap ℝ) (r : Ref) (A : Some) : Prop := HasM h r A.2.2

theorem hasS_keep {h h' : Heap ℝ} (K : Keeps h h' (fun _ => False)) {rs : List Ref} {As : List Some} (F : List.Forall₂ (HasS h) rs As) :
    List.Forall₂ (HasS h') rs As := F.imp fun _ _ a => HasM.keep a K fun _ _ => id

/-- The matrices of gradients, the first layer first. -/
def gradList : {k : Nat} → (us : List Lay) → Hiddens k us → List Some
  | _, [], _ => []
  | k, u :: us, G => ⟨k, u.units, G.1.1⟩ :: gradList us G.2

theorem gradList_length : ∀ (us : List Lay) {k : Nat} (G : Hiddens k us), (gradList us G).length = us.length
  | [], _, _ => rfl
  | _ :: us, _, G => congrArg (· + 1) (gradList_length us G.2)

theorem layers_length {h : Heap ℝ} : ∀ (us : List Lay) {k : Nat} {H : Hiddens k us} {ls : List HiddenLayer}, LayersAre h us H ls → ls.length = us.length
  | [], _, _, _, L => by cases L; rfl
  | u :: us, _, _, _, L => by obtain ⟨l, ls', rfl, -, L2⟩ := L; simp [layers_length us L2]

theorem works_back {u : Lay} (hu : u.Works) (fuel : Nat) : Lifts Loc.m (Activation.ownDerivReal u.act) (Activation.derivMatrix fuel u.act) := by
  have := hu.1
  simp only [List.mem_cons, List.not_mem_nil, or_false, not_or] at this
  refine C45_deriv_matrix_partial fuel u.act ?_ (by simp only [List.mem_cons, List.not_mem_nil, or_false, not_or]; tauto)
  unfold Elementwise
  split <;> tauto

theorem reg_deriv_m {h : Heap ℝ} {a : Ref} {p q : Nat} {A : Matrix (Fin p) (Fin q) ℝ} (w : h.WF) (ha : HasM h a A) (l al : ℝ) (r : Reg.Kind) :
    ReturnsMat (Reg.reg_deriv_termm a l al r) h (A.map (Reg.derivTerm l al r)) := by
  obtain ⟨x, rfl, lx, hx⟩ := ha
  exact Reg.reg_deriv_termm_spec w hx lx l al r
theorem reg_deriv_v {h : Heap ℝ} {a : Ref} {p : Nat} {v : Fin p → ℝ} (w : h.WF) (ha : HasV h a v) (l al : ℝ) (r : Reg.Kind) :
    ReturnsVec (Reg.reg_deriv_termv a l al r) h (fun i => Reg.derivTerm l al r (v i)) := by
  obtain ⟨x, rfl, lx, hx⟩ := ha
  exact Reg.reg_deriv_termv_spec w hx lx l al r

theorem signal_run {h : Heap ℝ} (w : h.WF) {o : OutputLayer} (us : List Lay) {k : Nat} {H : Hiddens k us} {ls : List HiddenLayer}
    {X : Matrix (Fin n) (Fin k) ℝ} {d : Fin n → ℝ} {v : Fin (width k us) → ℝ} (L : LayersAre h us H ls) (hd : HasV h o.delta d)
    (hv : HasV h o.weights v) (B : Backed h us H ls X fun i j => d i * v j) : ReturnsMat (signal o ls) h (backSig us H X fun i j => d i * v j) := by
  cases us with
  | nil => cases L; exact Hd.outer_product_spec w hd hv
  | cons u us =>
    obtain ⟨l, ls, rfl, L1, L2⟩ := L
    obtain ⟨l', ls', e, b1, -⟩ := B
    cases e
    unfold signal
    have lw := L1.weights
    refine ReturnsMat.of_has ?_
    refine Verif.stepM (Hd.transposen_spec w lw) fun t h1 w1 k1 f1 ut => ?_
    have b1' := b1.keep k1 fun _ _ => id
    refine ((Hd.multn_spec w1 b1' ut).has).mono fun r h2 ⟨w2, k2, f2, u2⟩ => ⟨w2, k1.trans k2, f2.mono k1, ?_⟩
    exact u2

/-- What a backward pass leaves of a layer. -/
def SameB (l l' : HiddenLayer) : Prop := l' = { l with delta := l'.delta, initialized := false }

theorem LayerIs.back {h : Heap ℝ} {l l' : HiddenLayer} {u : Lay} {θ : MParams k u.units} (L : LayerIs h l u θ) (e : SameB l l') : LayerIs h l' u θ := by
  rw [e]; exact ⟨L.units, L.act, L.init, L.reg, L.lambda, L.alpha, L.weights, L.bias, L.z⟩

theorem signal_front {h : Heap ℝ} (w : h.WF) {o : OutputLayer} (us : List Lay) {k : Nat} {H : Hiddens k us} {ls rest : List HiddenLayer}
    {X : Matrix (Fin n) (Fin k) ℝ} {S : Matrix (Fin n) (Fin (width k us)) ℝ} (L : LayersAre h us H ls) (B : Backed h us H ls X S)
    (hs : ReturnsMat (signal o rest) h S) : ReturnsMat (signal o (ls ++ rest)) h (backSig us H X S) := by
  cases us with
  | nil => cases L; exact hs
  | cons u us =>
    obtain ⟨l, ls, rfl, L1, L2⟩ := L
    obtain ⟨l', ls', e, b1, -⟩ := B
    cases e
    rw [List.cons_append]
    unfold signal
    have lw := L1.weights
    refine ReturnsMat.of_has ?_
    refine Verif.stepM (Hd.transposen_spec w lw) fun t h1 w1 k1 f1 ut => ?_
    have b1' := b1.keep k1 fun _ _ => id
    refine ((Hd.multn_spec w1 b1' ut).has).mono fun r h2 ⟨w2, k2, f2, u2⟩ => ⟨w2, k1.trans k2, f2.mono k1, ?_⟩
    exact u2

theorem gradientOf_run (fuel : Nat) {h : Heap ℝ} (w : h.WF) {o : OutputLayer} {u : Lay} {us : List Lay} {k : Nat} {H : Hiddens k (u :: us)} {l : HiddenLayer}
    {ls : List HiddenLayer} {X : Matrix (Fin n) (Fin k) ℝ} {S : Matrix (Fin n) (Fin (width k (u :: us))) ℝ} (L1 : LayerIs h l u H.1)
    (hs : ReturnsMat (signal o ls) h (backSig us H.2 (layerOut u.act X H.1) S)) (hi : HasM h l.input X) (hz : HasM h l.z (affine X H.1)) (hu : u.Works) :
    Runs (gradientOf fuel o l ls) h fun r h' => h'.WF ∧ Keeps h h' (fun _ => False) ∧ SameB l r.1 ∧
      HasM h' r.1.delta (deltaOf u us H X S) ∧ HasM h' r.2 (gradsH (u :: us) H X S).1.1 ∧ NotIn h r.2 ∧ NotIn h r.1.delta ∧ r.1.delta ≠ r.2 := by
  unfold gradientOf
  have lw := L1.weights
  refine Verif.stepM hs fun e h1 w1 k1 f1 ue => ?_
  have K1 := k1
  nw f1 k1
  rw [L1.act]
  refine Verif.stepM (Hd.lifts_mat (works_back hu fuel) w1 hz) fun f h2 w2 k2 f2 uf => ?_
  have K2 := K1.trans k2
  nw f2 k2
  refine Verif.stepM (Hd.hadamard_productnm_spec w2 ue uf) fun dl h3 w3 k3 f3 ud => ?_
  have K3 := K2.trans k3
  have g3 := f3.mono K2
  nw f3 k3
  dsimp only [HiddenLayer.set_delta]
  refine Verif.stepM (Hd.transposen_spec w3 hi) fun t h4 w4 k4 f4 ut => ?_
  have K4 := K3.trans k4
  nw f4 k4
  refine Verif.stepM (Hd.multn_spec w4 ut ud) fun g h5 w5 k5 f5 ug => ?_
  have K5 := K4.trans k5
  nw f5 k5
  refine Verif.stepM (reg_deriv_m w5 lw l.lambda l.alpha l.reg) fun r h6 w6 k6 f6 ur => ?_
  have K6 := K5.trans k6
  nw f6 k6
  refine Verif.stepM (Hd.addnm_spec w6 ug ur) fun g' h7 w7 k7 f7 ug' => ?_
  have K7 := K6.trans k7
  have g7 := f7.mono K6
  have ne : g' ≠ dl := f7.ne_mat ud
  adv k7
  refine Runs.of_eq rfl ⟨w7, K7, ?_, ?_, ?_, g7, g3, Ne.symm ne⟩
  · unfold SameB; rw [L1.act]
  · exact ud
  · rw [L1.lambda, L1.alpha, L1.reg] at ug'
    exact ug'

theorem Backed.deltas {h : Heap ℝ} : ∀ (us : List Lay) {k : Nat} {H : Hiddens k us} {ls : List HiddenLayer} {X : Matrix (Fin n) (Fin k) ℝ}
    {S : Matrix (Fin n) (Fin (width k us)) ℝ}, LayersAre h us H ls → Backed h us H ls X S → ∀ l ∈ ls, ∃ (p q : Nat) (A : Matrix (Fin p) (Fin q) ℝ), HasM h l.delta A
  | [], _, _, _, _, _, L, _, l, hl => by cases L; cases hl
  | u :: us, _, _, _, _, _, L, B, l, hl => by
    obtain ⟨l0, ls, rfl, -, L2⟩ := L
    obtain ⟨l', ls', e, b, B2⟩ := B
    cases e
    rcases List.mem_cons.1 hl with rfl | hl
    · exact ⟨_, _, _, b⟩
    · exact Backed.deltas us L2 B2 l hl

/-- What is known about the matrices of gradients `gs`: they are new and different, and none of them is the error of a layer. -/
structure Apart (h : Heap ℝ) (ls : List HiddenLayer) (gs : List Ref) : Prop where
  nodup : gs.Nodup
  new : ∀ q ∈ gs, NotIn h q
  deltas : ∀ l ∈ ls, NotIn h l.delta ∧ l.delta ∉ gs

/-- A backward pass through the layers `ls`, if one through the `rest` hands them `S`. -/
theorem layersBack_front (fuel : Nat) {o : OutputLayer} {rest : List HiddenLayer} {P : List HiddenLayer × List Ref → Heap ℝ → Prop}
    (hP : ∀ r h h', h'.WF → Keeps h h' (fun _ => False) → P r h → P r h') :
    ∀ (us : List Lay) {k : Nat} {h : Heap ℝ} {H : Hiddens k us} {ls : List HiddenLayer} {X : Matrix (Fin n) (Fin k) ℝ}
    {S : Matrix (Fin n) (Fin (width k us)) ℝ},
    Runs (layersBack fuel o rest) h (fun r h' => h'.WF ∧ Keeps h h' (fun _ => False) ∧ Apart h r.1 r.2 ∧ P r h' ∧
      (∀ l ∈ r.1, ∃ (p q : Nat) (A : Matrix (Fin p) (Fin q) ℝ), HasM h' l.delta A) ∧ (∀ q ∈ r.2, ∃ (m n : Nat) (A : Matrix (Fin m) (Fin n) ℝ), HasM h' q A)) →
    (∀ r h', P r h' → ReturnsMat (signal o r.1) h' S) →
    LayersAre h us H ls → Fed h us H ls X → (∀ u ∈ us, u.Works) →
    Runs (layersBack fuel o (ls ++ rest)) h fun r h' => h'.WF ∧ Keeps h h' (fun _ => False) ∧ Apart h r.1 r.2 ∧ ∃ r1 r2 q1 q2, r.1 = r1 ++ r2 ∧ r.2 = q2 ++ q1 ∧
      P (r2, q2) h' ∧ List.Forall₂ SameB ls r1 ∧ LayersAre h' us H r1 ∧ Backed h' us H r1 X S ∧
      List.Forall₂ (HasS h') q1 (gradList us (gradsH us H X S)).reverse ∧
      (∀ l ∈ r.1, ∃ (p q : Nat) (A : Matrix (Fin p) (Fin q) ℝ), HasM h' l.delta A) ∧ (∀ q ∈ r.2, ∃ (m n : Nat) (A : Matrix (Fin m) (Fin n) ℝ), HasM h' q A)
  | [], _, h, _, _, X, S, R, hs, L, F, hu => by
    cases L
    refine Runs.mono R fun r h' ⟨a, b, c, d, e, f⟩ => ⟨a, b, c, [], r.1, [], r.2, rfl, by simp, d, .nil, rfl, trivial, .nil, e, f⟩
  | u :: us, k, h, H, _, X, S, R, hs, L, F, hu => by
    obtain ⟨l, ls, rfl, L1, L2⟩ := L
    obtain ⟨l', ls', e, F1, F2, F3⟩ := F
    cases e
    rw [List.cons_append]
    unfold layersBack
    refine Runs.bind ((layersBack_front fuel hP us (H := H.2) R hs L2 F3 fun u hu' => hu u (by simp [hu'])).mono
      fun r h1 ⟨w1, K1, A1, r1, r2, q1, q2, e1, e2, P1, S1, M1, B1, G1, D1, Q1⟩ => ?_)
    have L1' := LayerIs.keep L1 K1 fun _ _ _ _ => id
    have sg : ReturnsMat (signal o r.1) h1 (backSig us H.2 (layerOut u.act X H.1) S) := e1 ▸ signal_front w1 us M1 B1 (hs _ _ P1)
    refine Runs.bind ((gradientOf_run fuel w1 L1' sg (F1.keep K1 fun _ _ => id)
      (F2.keep K1 fun _ _ => id) (hu u (by simp))).mono fun p h2 ⟨w2, K2, S2, d2, g2, n2, n3, ne⟩ => ?_)
    refine Runs.of_eq rfl ⟨w2, K1.trans K2, ?_, p.1 :: r1, r2, q1 ++ [p.2], q2, by rw [e1]; rfl, by rw [e2, List.append_assoc], hP _ _ _ w2 K2 P1, .cons S2 S1,
      ⟨_, _, rfl, LayerIs.back (LayerIs.keep L1' K2 fun _ _ _ _ => id) S2,
      LayersAre.keep K2 us M1 fun _ _ _ _ _ _ => id⟩, ⟨_, _, rfl, d2, Backed.keep K2 us B1⟩, ?_, ?_, ?_⟩
    · refine ⟨?_, ?_, ?_⟩
      · rw [List.nodup_append]
        refine ⟨A1.nodup, by simp, fun a ha b hb => ?_⟩
        rw [List.mem_singleton] at hb
        subst hb
        obtain ⟨_, _, _, x⟩ := Q1 a ha
        exact Ne.symm (n2.ne_mat x)
      · intro q hq
        rcases List.mem_append.1 hq with hq | hq
        · exact A1.new q hq
        · rw [List.mem_singleton] at hq; subst hq; exact n2.mono K1
      · intro l' hl'
        rw [List.mem_append, not_or, List.mem_singleton]
        rcases List.mem_cons.1 hl' with rfl | hl'
        · refine ⟨n3.mono K1, fun hq => ?_, ne⟩
          obtain ⟨_, _, _, x⟩ := Q1 _ hq
          exact n3.ne_mat x rfl
        · refine ⟨(A1.deltas _ hl').1, (A1.deltas _ hl').2, ?_⟩
          obtain ⟨_, _, _, x⟩ := D1 _ hl'
          exact Ne.symm (n2.ne_mat x)
    · rw [show gradList (u :: us) (gradsH (u :: us) H X S) = ⟨k, u.units, _⟩ :: gradList us _ from rfl, List.reverse_cons]
      exact List.rel_append (hasS_keep K2 G1) (.cons g2 .nil)
    · intro l' hl'
      rcases List.mem_cons.1 hl' with rfl | hl'
      · exact ⟨_, _, _, d2⟩
      · obtain ⟨_, _, _, x⟩ := D1 _ hl'
        exact ⟨_, _, _, x.keep K2 fun _ _ => id⟩
    · intro q hq
      rcases List.mem_append.1 hq with hq | hq
      · obtain ⟨_, _, _, x⟩ := Q1 _ hq
        exact ⟨_, _, _, x.keep K2 fun _ _ => id⟩
      · rw [List.mem_singleton] at hq; subst hq; exact ⟨_, _, _, g2⟩

theorem layersBack_run (fuel : Nat) {o : OutputLayer} {d : Fin n → ℝ} (us : List Lay) {k : Nat} {h : Heap ℝ} {H : Hiddens k us} {ls : List HiddenLayer}
    {X : Matrix (Fin n) (Fin k) ℝ} {v : Fin (width k us) → ℝ} (w : h.WF) (L : LayersAre h us H ls) (hd : HasV h o.delta d) (hv : HasV h o.weights v)
    (F : Fed h us H ls X) (hu : ∀ u ∈ us, u.Works) :
    Runs (layersBack fuel o ls) h fun r h' => h'.WF ∧ Keeps h h' (fun _ => False) ∧ List.Forall₂ SameB ls r.1 ∧ LayersAre h' us H r.1 ∧
      Backed h' us H r.1 X (fun i j => d i * v j) ∧ List.Forall₂ (HasS h') r.2 (gradList us (gradsH us H X fun i j => d i * v j)).reverse ∧ Apart h r.1 r.2 := by
  have := layersBack_front fuel (o := o) (rest := []) (P := fun r h' => h'.WF ∧ r.1 = [] ∧ r.2 = [] ∧ HasV h' o.delta d ∧ HasV h' o.weights v)
    (fun r h h' w k ⟨_, a, b, c, d⟩ => ⟨w, a, b, c.keep k fun _ _ => id, d.keep k fun _ _ => id⟩) us (h := h) (H := H) (ls := ls) (X := X)
    (S := fun i j => d i * v j)
    (Runs.of_eq rfl ⟨w, Keeps.refl _ _, ⟨.nil, by simp, by simp⟩, ⟨w, rfl, rfl, hd, hv⟩, by simp, by simp⟩)
    (fun r h' ⟨w, e, _, c, d⟩ => by rw [e]; exact Hd.outer_product_spec w c d) L F hu
  rw [List.append_nil] at this
  refine this.mono fun r h' ⟨a, b, c, r1, r2, q1, q2, e1, e2, ⟨_, p1, p2, _⟩, s, m, b', g, _⟩ => ?_
  dsimp only at p1 p2
  subst p1 p2
  rw [List.append_nil] at e1
  rw [List.nil_append] at e2
  rw [e1, e2]
  exact ⟨a, b, s, m, b', g, e1 ▸ e2 ▸ c⟩

/-- Every cell times `c`. -/
noncomputable def scaled (c : ℝ) (A : Some) : Some := ⟨A.1, A.2.1, A.2.2.map (· * c)⟩

theorem mapL_scale (c : ℝ) : ∀ {rs : List Ref} {As : List Some} {h : Heap ℝ}, h.WF → List.Forall₂ (HasS h) rs As →
    Runs (LinAlg.scalar_multiplynvt c rs) h fun qs h' => h'.WF ∧ Keeps h h' (fun _ => False) ∧ List.Forall₂ (HasS h') qs (As.map (scaled c))
  | _, _, h, w, .nil => Runs.of_eq rfl ⟨w, Keeps.refl _ _, .nil⟩
  | _, _, h, w, .cons (a := r) (b := A) a as => by
    unfold LinAlg.scalar_multiplynvt LinAlg.mapL
    refine Verif.stepM (Hd.lifts_mat (LinAlg.dupM_lifts (· * c)) w (show HasM h r A.2.2 from a)) fun q h1 w1 k1 f1 uq => ?_
    refine Runs.bind ((mapL_scale c w1 (hasS_keep k1 as)).mono fun qs h2 ⟨w2, k2, F2⟩ => ?_)
    exact Runs.of_eq rfl ⟨w2, k1.trans k2, .cons (uq.keep k2 fun _ _ => id) F2⟩

/-- The parameters after a step of size `c` against `G`. -/
noncomputable def stepH (c : ℝ) : {k : Nat} → (us : List Lay) → Hiddens k us → Hiddens k us → Hiddens k us
  | _, [], H, _ => H
  | _, _ :: us, H, G => ((fun i j => H.1.1 i j - G.1.1 i j * c, fun j => H.1.2 j - G.1.2 j * c), stepH c us H.2 G.2)

theorem rows_run {h : Heap ℝ} (w : h.WF) {a b : Ref} {p q : Nat} {v : Fin q → ℝ} {B : Matrix (Fin p) (Fin q) ℝ} (ha : HasV h a v) (hb : HasM h b B) :
    ReturnsVec (Hd.subtract_matrix_rowsn a b) h fun j => v j - ∑ i, B i j := by
  obtain ⟨x, rfl, l, i⟩ := ha; obtain ⟨y, rfl, l', i'⟩ := hb
  exact Vec.subtract_matrix_rowsn_spec w i i' l l'

theorem layersUpdate_run (N : Nat) (lr : ℝ) {updations : List Ref} : ∀ (us : List Lay) {k : Nat} {h : Heap ℝ} {H : Hiddens k us} {ls : List HiddenLayer}
    {X : Matrix (Fin n) (Fin k) ℝ} {S : Matrix (Fin n) (Fin (width k us)) ℝ} {extra : List Some}, h.WF → LayersAre h us H ls → Backed h us H ls X S →
    List.Forall₂ (HasS h) updations (((gradList us (gradsH us H X S)).reverse).map (scaled (lr / N)) ++ extra) → (written ls).Nodup →
    Runs (layersUpdate N updations lr ls) h fun r h' => h'.WF ∧ Keeps h h' (fun _ => False) ∧ LayersAre h' us (stepH (lr / N) us H (gradsH us H X S)) r ∧
      (written r).Nodup ∧ (∀ q ∈ written r, q ∈ written ls ∨ NotIn h q) ∧ (∀ l ∈ r, NotIn h l.bias)
  | [], _, h, _, _, X, S, extra, w, L, B, U, d => by
    cases L
    exact Runs.of_eq rfl ⟨w, Keeps.refl _ _, rfl, .nil, by simp [written], by simp⟩
  | u :: us, k, h, H, _, X, S, extra, w, L, B, U, d => by
    obtain ⟨l, ls, rfl, L1, L2⟩ := L
    obtain ⟨l', ls', e, B1, B2⟩ := B
    cases e
    have d' : (l.z :: l.weights :: written ls).Nodup := d
    simp only [List.nodup_cons, List.mem_cons, not_or] at d'
    obtain ⟨⟨n4, n5⟩, n6, n7⟩ := d'
    have U' : List.Forall₂ (HasS h) updations (((gradList us (gradsH us H.2 (layerOut u.act X H.1) S)).reverse).map (scaled (lr / N)) ++
        (scaled (lr / N) ⟨k, u.units, (gradsH (u :: us) H X S).1.1⟩ :: extra)) := by
      rw [show gradList (u :: us) (gradsH (u :: us) H X S) = ⟨k, u.units, _⟩ :: gradList us _ from rfl, List.reverse_cons, List.map_append,
        List.append_assoc] at U
      exact U
    unfold layersUpdate
    refine Runs.bind ((layersUpdate_run N lr us w L2 B2 U' n7).mono fun r h1 ⟨w1, K1, M1, D1, W1, C1⟩ => ?_)
    have L1' := LayerIs.keep L1 K1 fun _ _ _ _ => id
    have len : r.length = us.length := layers_length us M1
    obtain ⟨sl, es, hs⟩ : ∃ sl, updations[r.length]? = some sl ∧ HasM h1 sl (scaled (lr / N) ⟨k, u.units, (gradsH (u :: us) H X S).1.1⟩).2.2 := by
      have U1 := hasS_keep K1 U'
      have hl := U1.length_eq
      have l1 : r.length = (((gradList us (gradsH us H.2 (layerOut u.act X H.1) S)).reverse).map (scaled (lr / N))).length := by
        rw [len, List.length_map, List.length_reverse, gradList_length]
      have lt : r.length < updations.length := by rw [hl, List.length_append, ← l1]; simp
      refine ⟨updations[r.length], List.getElem?_eq_getElem lt, ?_⟩
      have := U1.get lt (by rw [← hl]; exact lt)
      simp only [List.get_eq_getElem, l1, List.getElem_append_right (le_refl _), Nat.sub_self, List.getElem_cons_zero] at this
      simp only [l1]
      exact this
    have eb : Glm.batchAt updations r.length h1 = .ok (sl, h1) := by unfold Glm.batchAt; rw [es]; rfl
    refine Runs.step eb ?_
    have lw := L1'.weights
    have lb := L1'.bias
    obtain ⟨zp, zq, Z, lz⟩ := L1'.z
    have ld := B1.keep K1 fun _ _ => id
    refine Verif.stepM (Hd.subnm_spec w1 lw hs) fun wn h2 w2 k2 f2 uw => ?_
    have K2 := K1.trans k2
    have g2 := f2.mono K1
    have M2 := LayersAre.keep k2 us M1 fun _ _ _ _ _ _ => id
    have nz : wn ≠ l.z := f2.ne_mat lz
    have nwr : wn ∉ written r := notin_written M1 f2
    nw f2 k2
    dsimp only [HiddenLayer.set_weights]
    refine Verif.stepM (Hd.scalar_multiplynm_spec w2 ld (lr / N)) fun dn h3 w3 k3 f3 ud => ?_
    have K3 := K2.trans k3
    have M3 := LayersAre.keep k3 us M2 fun _ _ _ _ _ _ => id
    nw f3 k3
    refine Verif.stepV (rows_run w3 lb ud) fun bn h4 w4 k4 f4 ub => ?_
    have K4 := K3.trans k4
    have M4 := LayersAre.keep k4 us M3 fun _ _ _ _ _ _ => id
    have g4 := f4.mono K3
    adv k4
    refine Runs.of_eq rfl ⟨w4, K4, ⟨_, _, rfl, ⟨L1.units, L1.act, L1.init, L1.reg, L1.lambda, L1.alpha, uw, ?_, ⟨_, _, _, lz⟩⟩, M4⟩, ?_, ?_, ?_⟩
    · refine cast (congrArg _ ?_) ub
      funext j
      show H.1.2 j - ∑ i, deltaOf u us H X S i j * (lr / N) = H.1.2 j - (∑ i, deltaOf u us H X S i j) * (lr / N)
      rw [Finset.sum_mul]
    · show (l.z :: wn :: written r).Nodup
      have : l.z ∉ written r := fun hm => by
        rcases W1 _ hm with q | q
        · exact n5 q
        · obtain ⟨_, _, _, lz0⟩ := L1.z
          exact q.ne_mat lz0 rfl
      simp only [List.nodup_cons, List.mem_cons, not_or]
      exact ⟨⟨Ne.symm nz, this⟩, nwr, D1⟩
    · intro q hq
      have hq : q ∈ l.z :: wn :: written r := hq
      simp only [List.mem_cons] at hq
      rcases hq with rfl | rfl | hq
      · left; show l.z ∈ l.z :: l.weights :: written ls; simp
      · exact Or.inr g2
      · rcases W1 _ hq with q | q
        · left; show _ ∈ l.z :: l.weights :: written ls; simp [q]
        · exact Or.inr q
    · intro q hq
      rcases List.mem_cons.1 hq with rfl | hq
      · exact g4
      · exact C1 q hq

/-! ## The output layer -/

/-- The derivative of the loss at a sample. -/
noncomputable def lossDeriv : Cost.Kind → ℝ → ℝ → ℝ
  | .mse, p, y => p - y
  | .mbe, _, _ => 1
  | .logistic_loss, p, y => y / p * -1 + (y + -1) * -1 / ((p + -1) * -1)
  | .cross_entropy, p, y => y / p * -1
  | .hinge_loss, p, y => Cost.hingeDeriv p y
  | .wasserstein_loss, _, y => y * -1
  | .rmse, _, _ => 0
  | .mae, _, _ => 0

theorem lift2_has {f : ℝ → ℝ → ℝ} {op : Ref → Ref → M ℝ Ref} (l : Lifts2 Loc.v f op) {h : Heap ℝ} (w : h.WF) {a b : Ref} {u v : Fin n → ℝ}
    (ha : HasV h a u) (hb : HasV h b v) : ReturnsVec (op a b) h fun i => f (u i) (v i) := by
  obtain ⟨x, rfl, lx, hx⟩ := ha; obtain ⟨y, rfl, ly, hy⟩ := hb
  exact l.vec w hx hy lx ly

open LinAlg in
theorem mbe_run {h : Heap ℝ} (w : h.WF) {a : Nat} (b : Ref) {p : Fin n → ℝ} (ha : IsVec h a p) : ReturnsVec (Cost.mbe_derivv (some (.v a)) b) h fun _ : Fin n => (1 : ℝ) := by
  unfold Cost.mbe_derivv ReturnsVec
  refine Runs.step (show deref (Ref.asV (some (Loc.v a))) h = .ok (.v a, h) from rfl) (Runs.step (getSize_run _ _) ?_)
  rw [vec_count ha]
  refine Runs.mono (Ev.fullV (h0 := h) (d := List.replicate n ()) rfl (by simp) (1 : ℝ) h w (Keeps.refl _ _)) ?_
  rintro _ h' ⟨o, rfl, h1, h2, h3, h4, h5⟩
  refine ⟨o, rfl, h1 trivial, h2, h3, h4, h5.1, fun i => ?_⟩
  rw [h5.2]; simp

theorem lossDeriv_run {c : Cost.Kind} (hc : c ∉ [Cost.Kind.rmse, .mae]) {h : Heap ℝ} (w : h.WF) {a b : Ref} {p y : Fin n → ℝ}
    (ha : HasV h a p) (hb : HasV h b y) : ReturnsVec (Cost.run_cost_deriv_vector c a b) h fun i => lossDeriv c (p i) (y i) := by
  cases c with
  | mse => exact lift2_has LinAlg.subV_lifts w ha hb
  | rmse => simp at hc
  | mae => simp at hc
  | mbe =>
    obtain ⟨x, rfl, lx, hx⟩ := ha
    exact mbe_run w b hx
  | logistic_loss => exact lift2_has Cost.log_loss_derivv_lifts w ha hb
  | cross_entropy => exact lift2_has Cost.cross_entropy_derivv_lifts w ha hb
  | hinge_loss => exact lift2_has (Cost.derivV_lifts Cost.hingeDeriv) w ha hb
  | wasserstein_loss => exact Hd.lifts_vec (LinAlg.unV_lifts (· * (-1 : ℝ))) w hb

theorem costV_ok (c : Cost.Kind) {h : Heap ℝ} (w : h.WF) {a b : Ref} {p y : Fin n → ℝ} (ha : HasV h a p) (hb : HasV h b y) :
    ∃ x, Cost.run_cost_norm_vector c a b h = .ok (x, h) := by
  obtain ⟨x, rfl, lx, hx⟩ := ha; obtain ⟨y, rfl, ly, hy⟩ := hb
  cases c <;> exact ⟨_, Cost.lossOf_vec w hx hy⟩

theorem regTerms_ok {h : Heap ℝ} (w : h.WF) : ∀ (us : List Lay) {k : Nat} {H : Hiddens k us} {ls : List HiddenLayer} (t : ℝ), LayersAre h us H ls →
    ∃ x, regTerms ls t h = .ok (x, h)
  | [], _, _, _, t, L => by cases L; exact ⟨t, rfl⟩
  | u :: us, _, _, _, t, L => by
    obtain ⟨l, ls, rfl, L1, L2⟩ := L
    cases ls with
    | nil => exact ⟨t, rfl⟩
    | cons l' ls =>
      obtain ⟨x, e⟩ := Hd.reg_termm_ok w L1.weights l.lambda l.alpha l.reg
      obtain ⟨y, e'⟩ := regTerms_ok w us (t + x) L2
      refine ⟨y, ?_⟩
      show (do let r ← Reg.reg_termm l.weights l.lambda l.alpha l.reg; regTerms (l' :: ls) (t + r)) h = _
      rw [bind_ok e]; exact e'

theorem cost_ok {h : Heap ℝ} (w : h.WF) {s : Ann} {o : Top} {us : List Lay} {N : Net k us} {l : OutputLayer} (L : LayersAre h us N.1 s.network)
    (el : s.output_layer = some l) (O : OutputIs h l o N.2) {a b : Ref} {p y : Fin n → ℝ} (ha : HasV h a p) (hb : HasV h b y) :
    ∃ x, cost s a b h = .ok (x, h) := by
  obtain ⟨t, et⟩ := regTerms_ok w us 0 L
  obtain ⟨c, ec⟩ := costV_ok l.cost w ha hb
  obtain ⟨r, er⟩ := Hd.reg_termv_ok w O.weights l.lambda l.alpha l.reg
  have e : output s h = .ok (l, h) := by unfold output; rw [el]; rfl
  unfold cost
  rw [bind_ok et, bind_ok e, bind_ok ec, bind_ok er]
  exact ⟨_, rfl⟩

/-- The derivatives with respect to the values before the activation function of the output layer. -/
noncomputable def topDelta (o : Top) (us : List Lay) (X : Matrix (Fin n) (Fin k) ℝ) (y : Fin n → ℝ) (N : Net k us) (i : Fin n) : ℝ :=
  lossDeriv o.cost (netAt o us N (X i)) (y i) * Activation.ownDerivReal o.act (∑ j, through us N.1 (X i) j * N.2.1 j + N.2.2)

/-- All gradients. -/
noncomputable def grads (o : Top) (us : List Lay) (X : Matrix (Fin n) (Fin k) ℝ) (y : Fin n → ℝ) (N : Net k us) : Net k us :=
  (gradsH us N.1 X (fun i j => topDelta o us X y N i * N.2.1 j),
    (fun j => ∑ i, through us N.1 (X i) j * topDelta o us X y N i + Reg.derivTerm o.lambda o.alpha o.reg (N.2.1 j), ∑ i, topDelta o us X y N i))

/-- The parameters after a step of size `c` against `G`. -/
noncomputable def stepN (c : ℝ) (us : List Lay) (N G : Net k us) : Net k us :=
  (stepH c us N.1 G.1, (fun j => N.2.1 j - G.2.1 j * c, N.2.2 - G.2.2 * c))

theorem works_top {o : Top} (ho : o.Works) : Lifts Loc.v (Activation.ownDerivReal o.act) (Activation.derivVector o.act) := by
  have := ho.1
  simp only [List.mem_cons, List.not_mem_nil, or_false, not_or] at this
  refine C45_deriv_vector_partial o.act ?_ (by simp only [List.mem_cons, List.not_mem_nil, or_false, not_or]; tauto)
  unfold Elementwise
  split <;> tauto

theorem gradientOut_run {h : Heap ℝ} {ls : List HiddenLayer} {l : OutputLayer} {o : Top} {us : List Lay} {X : Matrix (Fin n) (Fin k) ℝ} {N : Net k us}
    (P : Passed h ls l o us X N) (ho : o.Works) {yh b : Ref} {y : Fin n → ℝ} {p : Fin n → ℝ} (hy : HasV h yh p)
    (hp : ∀ i, lossDeriv o.cost (p i) (y i) = lossDeriv o.cost (netAt o us N (X i)) (y i)) (hb : HasV h b y) :
    Runs (gradientOut l yh b) h fun r h' => h'.WF ∧ Keeps h h' (fun _ => False) ∧ r.1 = { l with delta := r.1.delta, initialized := false } ∧
      HasV h' r.1.delta (topDelta o us X y N) ∧ HasV h' r.2 (grads o us X y N).2.1 ∧ NotIn h r.2 ∧ r.1.delta ≠ r.2 ∧ NotIn h r.1.delta := by
  unfold gradientOut
  have w := P.wf
  have lw := P.out.weights
  have li := P.input
  have lz := P.z
  rw [P.out.cost, P.out.act]
  have ld := lossDeriv_run ho.2 w hy hb
  rw [funext hp] at ld
  refine stepV ld fun c h1 w1 k1 f1 uc => ?_
  have K1 := k1
  nw f1 k1
  refine stepV (Hd.lifts_vec (works_top ho) w1 lz) fun f h2 w2 k2 f2 uf => ?_
  have K2 := K1.trans k2
  nw f2 k2
  refine stepV (Hd.hadamard_productn_spec w2 uc uf) fun d h3 w3 k3 f3 ud => ?_
  have K3 := K2.trans k3
  have g3 := f3.mono K2
  nw f3 k3
  dsimp only [OutputLayer.set_delta]
  refine Verif.stepM (Hd.transposen_spec w3 li) fun t h4 w4 k4 f4 ut => ?_
  have K4 := K3.trans k4
  nw f4 k4
  refine stepV (Hd.mult_vec_spec w4 ut ud) fun g h5 w5 k5 f5 ug => ?_
  have K5 := K4.trans k5
  have g5 := f5.mono K4
  nw f5 k5
  refine stepV (reg_deriv_v w5 lw l.lambda l.alpha l.reg) fun r h6 w6 k6 f6 ur => ?_
  have K6 := K5.trans k6
  nw f6 k6
  have ne : d ≠ g := Ne.symm (by assumption)
  refine Runs.bind ((Hd.add_run w6 ug ur).mono fun _ h7 ⟨w7, k7, ug7⟩ => ?_)
  have K7 := K6.wr_new k7 g5
  wr k7
  refine Runs.of_eq rfl ⟨w7, K7, ?_, ud, ?_, g5, ne, g3⟩
  · rw [P.out.cost, P.out.act]
  · rw [P.out.lambda, P.out.alpha, P.out.reg] at ug7
    exact ug7

theorem scale_run {h : Heap ℝ} (w : h.WF) {a : Ref} {v : Fin n → ℝ} (ha : HasV h a v) (c : ℝ) :
    Runs (Hd.scalar_multiply a c) h fun _ h' => h'.WF ∧ Keeps h h' (some · = a) ∧ HasV h' a (fun i => v i * c) := by
  obtain ⟨x, rfl, l, i⟩ := ha
  have := (Vec.unIn_spec (· * c) w i)
  refine Runs.mono this fun _ h' q => ?_
  have k : Keeps h h' (some · = some (Loc.v x)) := q.2.1.mono fun _ _ e => congrArg some e
  exact ⟨q.1, k, x, rfl, q.2.1.live l, q.2.2⟩

theorem Backed.keepV {h h' : Heap ℝ} {c : Ref} {m : Nat} {x : Fin m → ℝ} (hc : HasV h c x) (K : Keeps h h' (some · = c)) : ∀ (us : List Lay) {k : Nat}
    {H : Hiddens k us} {ls : List HiddenLayer} {X : Matrix (Fin n) (Fin k) ℝ} {S : Matrix (Fin n) (Fin (width k us)) ℝ}, Backed h us H ls X S → Backed h' us H ls X S
  | [], _, _, _, _, _, _ => trivial
  | u :: us, _, H, _, X, S, L => by
    obtain ⟨l, ls, rfl, a, b⟩ := L
    exact ⟨l, ls, rfl, a.keep K (fun y e e' => hc.ne_mat a (e' ▸ e.symm)), Backed.keepV hc K us b⟩

theorem LayersAre.keepV {h h' : Heap ℝ} {c : Ref} {m : Nat} {x : Fin m → ℝ} (hc : HasV h c x) (K : Keeps h h' (some · = c)) (us : List Lay) {k : Nat}
    {H : Hiddens k us} {ls : List HiddenLayer} (L : LayersAre h us H ls) (nb : c ∉ ls.map (·.bias)) : LayersAre h' us H ls :=
  LayersAre.keep K us L fun l' hl q hq b e hb => by
    simp only [List.mem_cons, List.not_mem_nil, or_false] at hq
    rcases hq with rfl | rfl | rfl
    · obtain ⟨_, _, _, hz⟩ := written_mat us L l'.z (List.mem_flatMap.2 ⟨l', hl, by simp⟩)
      exact hc.ne_mat hz (by rw [e, ← hb])
    · obtain ⟨_, _, _, hz⟩ := written_mat us L l'.weights (List.mem_flatMap.2 ⟨l', hl, by simp⟩)
      exact hc.ne_mat hz (by rw [e, ← hb])
    · exact nb (List.mem_map.2 ⟨l', hl, by rw [e, ← hb]⟩)

theorem notin_bias {h : Heap ℝ} {us : List Lay} {k : Nat} {H : Hiddens k us} {ls : List HiddenLayer} (L : LayersAre h us H ls) {c : Ref} (f : NotIn h c) :
    c ∉ ls.map (·.bias) := fun hc => by
  obtain ⟨l, hl, e⟩ := List.mem_map.1 hc
  obtain ⟨p, v, b⟩ := bias_of us L l hl
  obtain ⟨y, ey, ly, -⟩ := b
  exact f _ (e ▸ ey) ly

theorem sameB_bias : ∀ {ls ls' : List HiddenLayer}, List.Forall₂ SameB ls ls' → ls'.map (·.bias) = ls.map (·.bias)
  | _, _, .nil => rfl
  | _, _, .cons (a := l) (b := l') e es => by
    simp only [List.map_cons, sameB_bias es]
    rw [e]

/-- The layers after a step. -/
structure Stepped (h h' : Heap ℝ) (s s' : Ann) (o : Top) (us : List Lay) (N' : Net k us) : Prop where
  wf : h'.WF
  keeps : Keeps h h' (fun _ => False)
  same : s' = { s with network := s'.network, output_layer := s'.output_layer }
  hidden : LayersAre h' us N'.1 s'.network
  out : ∃ l, s'.output_layer = some l ∧ OutputIs h' l o N'.2 ∧ NotIn h l.weights ∧ l.weights ∉ s'.network.map (·.bias)
  nodup : (written s'.network).Nodup
  olds : ∀ q ∈ written s'.network, q ∈ written s.network ∨ NotIn h q
  biases : ∀ l ∈ s'.network, NotIn h l.bias

theorem sameB_written : ∀ {ls ls' : List HiddenLayer}, List.Forall₂ SameB ls ls' → written ls' = written ls
  | _, _, .nil => rfl
  | _, _, .cons (a := l) (b := l') e es => by
    have a := sameB_written es
    show l'.z :: l'.weights :: written _ = l.z :: l.weights :: written _
    rw [a, e]

theorem Apart.mono {h h' : Heap ℝ} {ls : List HiddenLayer} {gs : List Ref} (A : Apart h' ls gs) {S : Loc → Prop} (K : Keeps h h' S) : Apart h ls gs :=
  ⟨A.nodup, fun q hq => (A.new q hq).mono K, fun l hl => ⟨(A.deltas l hl).1.mono K, (A.deltas l hl).2⟩⟩

/-- The state after the gradients have been computed. -/
structure Graded (h h' : Heap ℝ) (s s' : Ann) (gs : List Ref) (g : Ref) (o : Top) (us : List Lay) (X : Matrix (Fin n) (Fin k) ℝ) (y : Fin n → ℝ) (N : Net k us)
    (ls : List HiddenLayer) (l' : OutputLayer) : Prop where
  wf : h'.WF
  keeps : Keeps h h' (fun _ => False)
  new : NotIn h g
  same : s' = { s with network := ls, output_layer := some l' }
  sames : List.Forall₂ SameB s.network ls
  hidden : LayersAre h' us N.1 ls
  backed : Backed h' us N.1 ls X (fun i j => topDelta o us X y N i * N.2.1 j)
  grads : List.Forall₂ (HasS h') gs (gradList us (grads o us X y N).1).reverse
  out : OutputIs h' l' o N.2
  delta : HasV h' l'.delta (topDelta o us X y N)
  grad : HasV h' g (Ann.grads o us X y N).2.1
  ne1 : l'.delta ≠ g
  ne2 : l'.weights ≠ g
  weights : ∃ l, s.output_layer = some l ∧ l'.weights = l.weights
  apart : Apart h ls gs
  newDelta : NotIn h l'.delta

theorem compute_gradients_run (fuel : Nat) {h : Heap ℝ} {s : Ann} {l : OutputLayer} {o : Top} {us : List Lay} {X : Matrix (Fin n) (Fin k) ℝ} {N : Net k us}
    (P : Passed h s.network l o us X N) (el : s.output_layer = some l) (hu : ∀ u ∈ us, u.Works) (ho : o.Works)
    {yh b : Ref} {y p : Fin n → ℝ} (hy : HasV h yh p) (hp : ∀ i, lossDeriv o.cost (p i) (y i) = lossDeriv o.cost (netAt o us N (X i)) (y i)) (hb : HasV h b y) :
    Runs (compute_gradients fuel s yh b) h fun r h' => ∃ ls l', Graded h h' s r.1 r.2.1 r.2.2 o us X y N ls l' := by
  have eo : output s h = .ok (l, h) := by unfold output; rw [el]; rfl
  unfold compute_gradients
  refine Runs.step eo ?_
  refine Runs.bind ((gradientOut_run P ho hy hp hb).mono fun p h1 ⟨w1, K1, e1, d1, g1, n1, ne1, nd1⟩ => ?_)
  have L1 := LayersAre.keep K1 us P.hidden fun _ _ _ _ _ _ => id
  have F1 := Fed.keep K1 us P.fed
  have ow := P.out.weights.keep K1 fun _ _ => id
  have ew : p.1.weights = l.weights := by rw [e1]
  refine Runs.bind ((layersBack_run fuel us w1 L1 d1 (ew ▸ ow) F1 hu).mono fun r h2 ⟨w2, K2, S2, M2, B2, G2, A2⟩ => ?_)
  refine Runs.of_eq rfl ⟨r.1, p.1, w2, K1.trans K2, n1, rfl, S2, M2, B2, G2, ?_, d1.keep K2 fun _ _ => id, g1.keep K2 fun _ _ => id, ne1, ?_, ⟨l, el, ew⟩, A2.mono K1, nd1⟩
  swap
  · rw [ew]; intro e; obtain ⟨y, ey, ly, -⟩ := P.out.weights; exact n1 _ (e ▸ ey) ly
  have O := P.out
  refine ⟨?_, ?_, ?_, ?_, ?_, ?_, ?_, (ew ▸ ow).keep K2 fun _ _ => id, ?_⟩
  · rw [e1]; exact O.units
  · rw [e1]; exact O.act
  · rw [e1]; exact O.cost
  · rw [e1]; exact O.init
  · rw [e1]; exact O.reg
  · rw [e1]; exact O.lambda
  · rw [e1]; exact O.alpha
  · rw [e1]; exact O.bias

theorem update_run {h : Heap ℝ} {s : Ann} {l : OutputLayer} {o : Top} {us : List Lay} {X : Matrix (Fin n) (Fin k) ℝ} {N : Net k us} {y : Fin n → ℝ} {lr : ℝ}
    {gs : List Ref} {g : Ref} (w : h.WF) (el : s.output_layer = some l) (O : OutputIs h l o N.2) (L : LayersAre h us N.1 s.network)
    (B : Backed h us N.1 s.network X (fun i j => topDelta o us X y N i * N.2.1 j))
    (G : List.Forall₂ (HasS h) gs ((gradList us (grads o us X y N).1).reverse.map (scaled (lr / s.n))))
    (hd : HasV h l.delta (topDelta o us X y N)) (hg : HasV h g (fun j => (grads o us X y N).2.1 j * (lr / s.n))) (nd : (written s.network).Nodup) :
    Runs (update_parameters s gs g lr) h fun s' h' => Stepped h h' s s' o us (stepN (lr / s.n) us N (grads o us X y N)) := by
  unfold update_parameters
  have eo : output s h = .ok (l, h) := by unfold output; rw [el]; rfl
  refine Runs.step eo ?_
  refine Verif.stepV (Hd.subn_spec w O.weights hg) fun wn h4 w4 k4 f4 uw => ?_
  have M4 := LayersAre.keep k4 us L fun _ _ _ _ _ _ => id
  have B4 := Backed.keep k4 us B
  have G4 := hasS_keep k4 G
  rw [← List.append_nil (List.map _ _)] at G4
  have d4 := hd.keep k4 fun _ _ => id
  dsimp only [OutputLayer.set_weights, OutputLayer.set_bias]
  refine Runs.step (Hd.sum_elements_run w4 d4) ?_
  refine Runs.bind ((layersUpdate_run s.n lr us w4 M4 B4 G4 nd).mono fun ls' h5 ⟨w5, K5, M5, D5, W5, C5⟩ => ?_)
  refine Runs.of_eq rfl ⟨w5, k4.trans K5, rfl, M5, ⟨_, rfl, ⟨O.units, O.act, O.cost, O.init, O.reg, O.lambda, O.alpha,
    uw.keep K5 fun _ _ => id, ?_⟩, f4, ?_⟩, D5, ?_, fun l hl => (C5 l hl).mono k4⟩
  · dsimp only
    rw [O.bias]
    show _ = N.2.2 - (∑ i, topDelta o us X y N i) * (lr / s.n)
    ring
  · intro hm
    obtain ⟨q, hq, e⟩ := List.mem_map.1 hm
    obtain ⟨y, ey, ly, -⟩ := uw
    exact C5 q hq _ (e.trans ey) ly
  · intro q hq
    rcases W5 q hq with a | a
    · exact Or.inl a
    · exact Or.inr (a.mono k4)

theorem step_run (fuel : Nat) {h : Heap ℝ} {s : Ann} {l : OutputLayer} {o : Top} {us : List Lay} {X : Matrix (Fin n) (Fin k) ℝ} {N : Net k us}
    (P : Passed h s.network l o us X N) (el : s.output_layer = some l) (nd : (written s.network).Nodup) (hu : ∀ u ∈ us, u.Works) (ho : o.Works)
    {yh b : Ref} {y : Fin n → ℝ} (hy : HasV h yh (fun i => netAt o us N (X i))) (hb : HasV h b y) (lr : ℝ) :
    Runs (step fuel s yh b lr) h fun s' h' => Stepped h h' s s' o us (stepN (lr / s.n) us N (grads o us X y N)) := by
  unfold step
  obtain ⟨c, ec⟩ := cost_ok P.wf P.hidden el P.out hy hb
  refine Runs.step ec ?_
  refine Runs.bind ((compute_gradients_run fuel P el hu ho hy (fun _ => rfl) hb).mono fun r h1 ⟨ls, l', A⟩ => ?_)
  obtain ⟨w1, K1, n1, e1, S1, M1, B1, G1, O1, d1, g1, ne1, nw1, -, -, -⟩ := A
  have en : r.1.n = s.n := by rw [e1]
  dsimp only
  rw [en]
  refine Runs.bind ((mapL_scale (lr / s.n) w1 G1).mono fun gs h2 ⟨w2, K2, G2⟩ => ?_)
  have Kx := K1.trans K2
  refine Runs.bind ((scale_run w2 (g1.keep K2 fun _ _ => id) (lr / s.n)).mono fun _ h3 ⟨w3, k3, g3⟩ => ?_)
  -- the gradient of the output layer is a new vector
  have K3 : Keeps h h3 (fun _ => False) := Kx.wr_new k3 n1
  have g2 := g1.keep K2 fun _ _ => id
  have M2 := LayersAre.keep K2 us M1 fun _ _ _ _ _ _ => id
  have nb : r.2.2 ∉ ls.map (·.bias) := by rw [sameB_bias S1]; exact notin_bias P.hidden n1
  have M3 := LayersAre.keepV g2 k3 us M2 nb
  have B3 := Backed.keepV g2 k3 us (Backed.keep K2 us B1)
  have G3 : List.Forall₂ (HasS h3) gs ((gradList us (grads o us X y N).1).reverse.map (scaled (lr / s.n))) :=
    G2.imp fun q A a => HasM.keep a k3 fun _ e e' => g2.ne_mat a (e' ▸ e.symm)
  have d3 := (d1.keep K2 fun _ _ => id).keep k3 fun _ e e' => ne1 (e.trans e')
  have o3 := (O1.weights.keep K2 fun _ _ => id).keep k3 fun _ e e' => nw1 (e.trans e')
  have D : (written ls).Nodup := by rw [sameB_written S1]; exact nd
  have O3 : OutputIs h3 l' o N.2 := ⟨O1.units, O1.act, O1.cost, O1.init, O1.reg, O1.lambda, O1.alpha, o3, O1.bias⟩
  rw [e1]
  refine (update_run (s := { s with network := ls, output_layer := some l' }) w3 rfl O3 M3 B3 G3 d3 g3 D).mono fun s' h' R => ?_
  obtain ⟨l2, el2, O2, n2, nb2⟩ := R.out
  refine ⟨R.wf, K3.trans R.keeps, by rw [R.same], R.hidden, ⟨l2, el2, O2, n2.mono K3, nb2⟩, R.nodup, fun q hq => ?_, fun l hl => (R.biases l hl).mono K3⟩
  rcases R.olds q hq with a | a
  · left; rw [← sameB_written S1]; exact a
  · exact Or.inr (a.mono K3)

end Ann
end Verif
