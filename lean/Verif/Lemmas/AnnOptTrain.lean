import Verif.Lemmas.AnnOptStart

/-! # The loops of the adaptive training methods of networks -/

namespace Verif
open Spec Finset

theorem Runs.both {α : Type} {m : M ℝ α} {h : Heap ℝ} {P Q : α → Heap ℝ → Prop} (p : Runs m h P) (q : Runs m h Q) : Runs m h fun a h' => P a h' ∧ Q a h' := by
  unfold Runs at *
  cases e : m h with
  | ok x => rw [e] at p q; exact ⟨p, q⟩
  | crash => rw [e] at p; exact p
  | ub => rw [e] at p; exact p

namespace Ann
open Glm (epochs epochs_run walk roundStep walk_round batchAt)
variable {n m k : Nat} {τ σ : Type} {o : Top} {us : List Lay} {X : Matrix (Fin n) (Fin k) ℝ} {y : Fin n → ℝ} {N : Net k us}

/-! ## What the moments are, from heap to heap -/

/-- The moments are new, or hold what is remembered. -/
def MemIs (h : Heap ℝ) (us : List Lay) (ms : List Moment) (fs : List (τ → ℝ)) : Option (Wts τ k us) → Prop
  | none => Fresh h ms
  | some S => Holds h us ms fs S

theorem hasL_has {h : Heap ℝ} {f : τ → ℝ} {rs : List Ref} {L : List (HidS τ)} (a : HasL h f rs L) : ∀ q ∈ rs, ∃ (p r : Nat) (A : Matrix (Fin p) (Fin r) ℝ), HasM h q A := by
  induction a with
  | nil => simp
  | cons a as ih =>
    intro q hq
    rcases List.mem_cons.1 hq with rfl | hq
    · exact ⟨_, _, _, a⟩
    · exact ih q hq

theorem Holds.out {h : Heap ℝ} {ms : List Moment} {fs : List (τ → ℝ)} {S : Wts τ k us} (a : Holds h us ms fs S) : ∀ q ∈ outs ms, ∃ (p : Nat) (v : Fin p → ℝ), HasV h q v := by
  unfold Holds at a
  unfold outs
  induction a with
  | nil => simp
  | cons a as ih =>
    intro q hq
    rw [List.map_cons] at hq
    rcases List.mem_cons.1 hq with rfl | hq
    · exact ⟨_, _, a.2⟩
    · exact ih q hq

theorem Holds.hid {h : Heap ℝ} {ms : List Moment} {fs : List (τ → ℝ)} {S : Wts τ k us} (a : Holds h us ms fs S) :
    ∀ m ∈ ms, ∀ q ∈ m.hidden, ∃ (p r : Nat) (A : Matrix (Fin p) (Fin r) ℝ), HasM h q A := by
  unfold Holds at a
  induction a with
  | nil => simp
  | cons a as ih =>
    intro m hm q hq
    rcases List.mem_cons.1 hm with rfl | hm
    · exact hasL_has a.1 q hq
    · exact ih m hm q hq

theorem MemIs.out {h : Heap ℝ} {ms : List Moment} {fs : List (τ → ℝ)} {x : Option (Wts τ k us)} (a : MemIs h us ms fs x) :
    ∀ q ∈ outs ms, ∃ (p : Nat) (v : Fin p → ℝ), HasV h q v := by
  cases x with
  | none =>
    intro q hq
    obtain ⟨m, hm, rfl⟩ := List.mem_map.1 hq
    obtain ⟨-, v, hv⟩ := a m hm
    exact ⟨0, v, hv⟩
  | some S => exact Holds.out a

theorem Holds.keep {h h' : Heap ℝ} {ms : List Moment} {fs : List (τ → ℝ)} {S : Wts τ k us} (a : Holds h us ms fs S) {T : Loc → Prop} (K : Keeps h h' T)
    (ho : ∀ q ∈ outs ms, ∀ c, q = some c → ¬ T c) (hh : ∀ m ∈ ms, ∀ q ∈ m.hidden, ∀ c, q = some c → ¬ T c) : Holds h' us ms fs S := by
  have aux : ∀ (f : τ → ℝ) (rs : List Ref) (L : List (HidS τ)), HasL h f rs L → (∀ q ∈ rs, ∀ c, q = some c → ¬ T c) → HasL h' f rs L := by
    intro f rs L b
    unfold HasL at b ⊢
    induction b with
    | nil => intro _; exact .nil
    | cons b bs ih => intro hT; exact .cons (HasM.keep b K (hT _ (by simp))) (ih fun q hq => hT q (by simp [hq]))
  unfold Holds at a ⊢
  unfold outs at ho
  induction a with
  | nil => exact .nil
  | @cons m f ms fs b bs ih =>
    refine .cons ⟨aux f _ _ b.1 (hh m (by simp)), b.2.keep K (ho _ (by simp))⟩ (ih (fun q hq => ho q (by rw [List.map_cons]; exact List.mem_cons_of_mem _ hq))
      fun m' hm' => hh m' (by simp [hm']))

theorem MemIs.keep {h h' : Heap ℝ} {ms : List Moment} {fs : List (τ → ℝ)} {x : Option (Wts τ k us)} (a : MemIs h us ms fs x) {T : Loc → Prop} (K : Keeps h h' T)
    (ho : ∀ q ∈ outs ms, ∀ c, q = some c → ¬ T c) (hh : ∀ m ∈ ms, ∀ q ∈ m.hidden, ∀ c, q = some c → ¬ T c) : MemIs h' us ms fs x := by
  cases x with
  | none =>
    intro m hm
    obtain ⟨e, v, hv⟩ := a m hm
    exact ⟨e, v, hv.keep K (ho _ (List.mem_map.2 ⟨m, hm, rfl⟩))⟩
  | some S => exact Holds.keep a K ho hh

theorem MemIs.adv {h h' : Heap ℝ} {ms : List Moment} {fs : List (τ → ℝ)} {x : Option (Wts τ k us)} (a : MemIs h us ms fs x) (K : Keeps h h' (fun _ => False)) :
    MemIs h' us ms fs x := a.keep K (fun _ _ _ _ => id) (fun _ _ _ _ _ _ => id)

theorem start_mem {mem : σ → List Moment} {fs : List (τ → ℝ)} {start : Ann → List Ref → Ref → σ → M ℝ σ} (ok : StartOk mem fs start) {h : Heap ℝ} {s : Ann}
    {H : Hiddens k us} {st : σ} {gs : List Ref} {g : Ref} {G : Wts ℝ k us} (w : h.WF) (L : LayersAre h us H s.network) (nd : (outs (mem st)).Nodup)
    (hG : HasH h id us gs G.1) (hg : HasV h g G.2) (ng : g ∉ outs (mem st)) {x : Option (Wts τ k us)} (a : MemIs h us (mem st) fs x) :
    Runs (start s gs g st) h fun st' h' => ∃ S, (∀ S0, x = some S0 → S = S0) ∧ Started h h' us (mem st) (mem st') fs S := by
  obtain ⟨p, q⟩ := ok k us h s H st gs g G w L nd hG hg ng
  cases x with
  | none => exact (p a).mono fun _ _ ⟨S, h⟩ => ⟨S, nofun, h⟩
  | some S => exact (q S a).mono fun _ _ h => ⟨S, fun _ e => by cases e; rfl, h⟩

/-- The objects of the moments are none of those of the network, `s` and `l`, and of those of `h0` none. -/
structure Kept (h0 : Heap ℝ) (s : Ann) (l : OutputLayer) (ms : List Moment) : Prop where
  nodup : (outs ms).Nodup
  new : ∀ q ∈ outs ms, NotIn h0 q
  weights : ∀ q ∈ outs ms, q ≠ l.weights
  bias : ∀ q ∈ outs ms, q ∉ s.network.map (·.bias)
  hid : ∀ m ∈ ms, ∀ q ∈ m.hidden, q ∉ written s.network

/-- A pass leaves the moments alone. -/
theorem mem_pass {h0 h h' : Heap ℝ} {s : Ann} {l : OutputLayer} {ms : List Moment} {fs : List (τ → ℝ)} {x : Option (Wts τ k us)} {H : Hiddens k us}
    {p : Nat} {v : Fin p → ℝ} (a : MemIs h us ms fs x) (E : Kept h0 s l ms) (L : LayersAre h us H s.network) (hl : HasV h l.weights v)
    (K : Keeps h h' (fun c => some c ∈ l.weights :: written s.network)) : MemIs h' us ms fs x := by
  refine a.keep K (fun q hq c e hc => ?_) (fun m hm q hq c e hc => ?_)
  · rw [← e] at hc
    rcases List.mem_cons.1 hc with e' | hc
    · exact E.weights q hq e'
    · obtain ⟨p, v, hv⟩ := a.out q hq
      exact vec_written L hv hc
  · rw [← e] at hc
    rcases List.mem_cons.1 hc with e' | hc
    · cases x with
      | none => rw [(a m hm).1] at hq; simp at hq
      | some S =>
        obtain ⟨_, _, _, hA⟩ := Holds.hid a m hm q hq
        exact hl.ne_mat hA e'.symm
    · exact E.hid m hm q hq hc

/-- Vectors that are not of the network may be written. -/
theorem Mid.keepO {h h' : Heap ℝ} {s : Ann} {l : OutputLayer} {N M : Net k us} {L : List Ref} (I : Mid h s l o us X y N M) (w : h'.WF)
    (K : Keeps h h' (some · ∈ L)) (v : ∀ q ∈ L, ∃ (p : Nat) (v : Fin p → ℝ), HasV h q v) (n1 : l.weights ∉ L) (n2 : l.delta ∉ L)
    (n3 : ∀ q ∈ L, q ∉ s.network.map (·.bias)) : Mid h' s l o us X y N M := by
  have O := I.out
  have mat : ∀ {p r : Nat} {A : Matrix (Fin p) (Fin r) ℝ} {q : Ref}, HasM h q A → ∀ c, q = some c → ¬ some c ∈ L := fun {p r A q} a c e hc => by
    obtain ⟨_, _, hv⟩ := v _ hc
    exact hv.ne_mat a e.symm
  refine ⟨w, I.el, ⟨O.units, O.act, O.cost, O.init, O.reg, O.lambda, O.alpha, O.weights.keep K (fun c e hc => n1 (e ▸ hc)), O.bias⟩, ?_, ?_,
    I.delta.keep K (fun c e hc => n2 (e ▸ hc)), I.nodup, I.nb⟩
  · refine LayersAre.keep K us I.hidden fun l' hl q hq c e hc => ?_
    simp only [List.mem_cons, List.not_mem_nil, or_false] at hq
    rcases hq with rfl | rfl | rfl
    · obtain ⟨_, _, _, hz⟩ := written_mat us I.hidden l'.z (List.mem_flatMap.2 ⟨l', hl, by simp⟩)
      exact mat hz c e hc
    · obtain ⟨_, _, _, hz⟩ := written_mat us I.hidden l'.weights (List.mem_flatMap.2 ⟨l', hl, by simp⟩)
      exact mat hz c e hc
    · exact n3 _ hc (List.mem_map.2 ⟨l', hl, e⟩)
  · have : ∀ (us : List Lay) {k : Nat} {H : Hiddens k us} {ls : List HiddenLayer} {X : Matrix (Fin n) (Fin k) ℝ} {S : Matrix (Fin n) (Fin (width k us)) ℝ},
        Backed h us H ls X S → Backed h' us H ls X S := by
      intro us
      induction us with
      | nil => intros; trivial
      | cons u us ih =>
        rintro k H _ X S ⟨l, ls, rfl, a, b⟩
        exact ⟨l, ls, rfl, a.keep K (mat a), ih b⟩
    exact this us I.backed

/-! ## One step -/

/-- The gradients of the weights, without those of the biases. -/
noncomputable def wgrads (o : Top) (us : List Lay) (X : Matrix (Fin n) (Fin k) ℝ) (y : Fin n → ℝ) (N : Net k us) : Wts ℝ k us :=
  (weightsH us (grads o us X y N).1, (grads o us X y N).2.1)

/-- The code `look` subtracts `pre` of what is remembered from the weights. -/
def LookOk (mem : σ → List Moment) (fs : List (τ → ℝ)) (look : σ → Ann → M ℝ Ann) (pre : τ → ℝ) : Prop :=
  ∀ (n k : Nat) (o : Top) (us : List Lay) (X : Matrix (Fin n) (Fin k) ℝ) (y : Fin n → ℝ) (N : Net k us) (h : Heap ℝ) (st : σ) (s : Ann) (l : OutputLayer)
    (S : Wts τ k us), Mid h s l o us X y N N → Holds h us (mem st) fs S →
    Runs (look st s) h fun s' h' => ∃ l', Mid h' s' l' o us X y N (take 0 us N (moveW (fun s _ => (s, pre s)) (fun s _ => (s, pre s)) us S (wgrads o us X y N))
      (grads o us X y N)) ∧ Moves h h' s s' l l'

theorem takeH_zero : ∀ (us : List Lay) {k : Nat} (H : Hiddens k us) (A : Hid τ k us) (B : Hid ℝ k us) (G : Hiddens k us),
    takeH 0 us H (zipH (fun _ _ => (0 : ℝ)) us A B) G = H
  | [], _, _, _, _, _ => rfl
  | u :: us, _, H, A, B, G => by
    simp only [takeH, zipH, takeH_zero us, mul_zero, sub_zero]

theorem noLook_ok (mem : σ → List Moment) (fs : List (τ → ℝ)) : LookOk mem fs noLook (fun _ => 0) := by
  intro n k o us X y N h st s l S I _
  refine Runs.of_eq rfl ⟨l, ?_, ⟨Keeps.refl _ _, rfl, Or.inl rfl, rfl, fun _ => Or.inl, fun _ => Or.inl⟩⟩
  have : take 0 us N (moveW (fun s _ => (s, (0 : ℝ))) (fun s _ => (s, 0)) us S (wgrads o us X y N)) (grads o us X y N) = N := by
    unfold take moveW
    simp only [takeH_zero, mul_zero, sub_zero]
  rw [this]
  exact I

theorem nagLook_ok (b : Bool) : LookOk (fun v : Moment => [v]) [id] (nagLook b) (fun t => if b then t else 0) := by
  cases b with
  | false => exact noLook_ok _ _
  | true =>
    intro n k o us X y N h v s l S I H
    obtain ⟨H1, o1⟩ := holds_one.1 H
    have H1' := (hasH_fst us (wgrads o us X y N).1).1 H1
    refine (update_gen (lr := 0) I (U := moveW (fun s _ => (s, if true then s else (0 : ℝ))) (fun s _ => (s, if true then s else 0)) us S (wgrads o us X y N))
      (hasH_of H1' fun _ _ => rfl) o1).mono fun s' h' ⟨l', I', M'⟩ => ⟨l', ?_, M'⟩
    rw [zero_div] at I'
    exact I'

theorem takeH_take (c : ℝ) (f g : τ → ℝ → ℝ) : ∀ (us : List Lay) {k : Nat} (H : Hiddens k us) (A : Hid τ k us) (B : Hid ℝ k us) (G : Hiddens k us),
    takeH c us (takeH 0 us H (zipH f us A B) G) (zipH g us A B) G = takeH c us H (zipH (fun a b => f a b + g a b) us A B) G
  | [], _, _, _, _, _ => rfl
  | u :: us, _, H, A, B, G => by
    simp only [takeH, zipH, takeH_take c f g us, mul_zero, sub_zero, sub_sub]

/-- The rule of a method that changes the weights twice. -/
def withLook (pre : τ → ℝ) (r : Rule τ) : Rule τ := fun s g => ((r s g).1, pre s + (r s g).2)

/-- One round: the network and what is remembered. -/
noncomputable def optStep (o : Top) (us : List Lay) (g : Draws × Draws) (c : ℝ) (hid out : Rule τ) (X : Matrix (Fin n) (Fin k) ℝ) (y : Fin n → ℝ)
    (P : Net k us × Wts τ k us) : Net k us × Wts τ k us :=
  let N := redrawn g.1 o us P.1
  (redrawn g.2 o us (take c us N (moveW hid out us P.2 (wgrads o us X y N)) (grads o us X y N)), nextW hid out us P.2 (wgrads o us X y N))

theorem set_core' (g : Draws) {s0 s : Ann} {h0 h : Heap ℝ} {l : OutputLayer} (C : Core s0 h0 o us s h l N) {x : Ref} {X : Matrix (Fin m) (Fin k) ℝ}
    (hx : HasM h x X) (nx : x ∉ written s.network) (hu : ∀ u ∈ us, u.Works) (ho : o.Works) {ms : List Moment} {fs : List (τ → ℝ)} {z : Option (Wts τ k us)}
    (E : Kept h0 s l ms) (a : MemIs h us ms fs z) :
    Runs (model_set_test g s x) h fun r h' => ∃ l', Core s0 h0 o us r.1 h' l' (redrawn g o us N) ∧ Passed h' r.1.network l' o us X (redrawn g o us N) ∧ r.2 = l'.a ∧
      Kept h0 r.1 l' ms ∧ MemIs h' us ms fs z := by
  have pr := pass_run g C.wf C.hidden C.el C.out C.nb hx (List.nodup_cons.2 ⟨nx, C.nodup⟩) hu ho
    (f := fun ls l => (({ s with network := ls, output_layer := some l } : Ann), l.a))
  refine ((set_core g C hx nx hu ho).both (m := model_set_test g s x) pr).mono fun r h1 ⟨⟨l', C', P', e'⟩, ls, l2, e, K1, S1, ew, na, P⟩ => ?_
  subst e
  obtain ⟨sw, sb, -, -⟩ := same_written S1
  have el : l2 = l' := by
    have := C'.el
    injection this
  subst el
  refine ⟨l2, C', P', e', ⟨E.nodup, E.new, ?_, ?_, ?_⟩, mem_pass a E C.hidden C.out.weights K1⟩
  · rw [ew]; exact E.weights
  · dsimp only; rw [sb]; exact E.bias
  · dsimp only; rw [sw]; exact E.hid

theorem opt_body (fuel : Nat) {mem : σ → List Moment} {fs : List (τ → ℝ)} {start : Ann → List Ref → Ref → σ → M ℝ σ} {look : σ → Ann → M ℝ Ann}
    {rule : List Ref → Ref → σ → M ℝ (σ × List Ref × Ref)} {hid out : Rule τ} {pre : τ → ℝ} (hS : StartOk mem fs start) (hL : LookOk mem fs look pre)
    (hR : RuleOk mem fs rule hid out) (hu : ∀ u ∈ us, u.Works) (ho : o.Works) (lr : ℝ) (g : Draws × Draws) {s0 s : Ann} {h0 h : Heap ℝ} {l : OutputLayer}
    (C : Core s0 h0 o us s h l N) {st : σ} {z : Option (Wts τ k us)} (E : Kept h0 s l (mem st)) (a : MemIs h us (mem st) fs z) {xr yr : Ref}
    {X : Matrix (Fin m) (Fin k) ℝ} {y : Fin m → ℝ} (hx : HasM h0 xr X) (nx : xr ∉ owned s0) (hy : HasV h0 yr y) (ny : yr ∉ owned s0) :
    Runs (optBody fuel start look rule lr g.1 g.2 xr yr (s, st)) h fun r h' => ∃ S, (∀ S0, z = some S0 → S = S0) ∧ ∃ l',
      Core s0 h0 o us r.1 h' l' (optStep o us g (lr / s.n) (withLook pre hid) (withLook pre out) X y (N, S)).1 ∧ Kept h0 r.1 l' (mem r.2) ∧
      Holds h' us (mem r.2) fs (optStep o us g (lr / s.n) (withLook pre hid) (withLook pre out) X y (N, S)).2 := by
  unfold optBody
  dsimp only
  -- the first pass
  obtain ⟨x1, m1⟩ := C.frameM hx nx
  refine Runs.bind ((set_core' g.1 C x1 (fun hm => m1 (List.mem_cons_of_mem _ hm)) hu ho E a).mono fun t h1 ⟨l1, C1, P1, e1, E1, a1⟩ => ?_)
  have en1 : t.1.n = s.n := by rw [C1.same, C.same]
  obtain ⟨y1, -⟩ := C1.frameV hy ny
  set N1 := redrawn g.1 o us N with hN1
  obtain ⟨c, ec⟩ := cost_ok C1.wf C1.hidden C1.el C1.out (e1 ▸ P1.a) y1
  refine Runs.step ec ?_
  -- the gradients
  refine Runs.bind ((compute_gradients_run fuel P1 C1.el hu ho (e1 ▸ P1.a) (fun _ => rfl) y1).mono fun r h2 ⟨ls, l2, A⟩ => ?_)
  obtain ⟨w2, K2, n2, e2, S2, M2, B2, G2, O2, d2, g2, ne2, nw2, ⟨l1', el1, ew2⟩, -, nd2⟩ := A
  have el : l1' = l1 := by rw [C1.el] at el1; cases el1; rfl
  subst el
  have r_net : r.1.network = ls := by rw [e2]
  have I2 : Mid h2 r.1 l2 o us X y N1 N1 := by
    refine ⟨w2, by rw [e2], O2, by rw [r_net]; exact M2, by rw [r_net]; exact B2, d2, ?_, ?_⟩
    · rw [r_net, sameB_written S2]; exact C1.nodup
    · rw [r_net, sameB_bias S2, ew2]; exact C1.nb
  have en2 : r.1.n = s.n := by rw [e2]; exact en1
  have a2 := a1.adv K2
  have hG2 := hasH_grads G2
  have v1 := a1.out
  have ng2 : r.2.2 ∉ outs (mem st) := fun hm => by
    obtain ⟨_, _, hv⟩ := v1 _ hm
    exact n2.ne hv rfl
  have nd2' : l2.delta ∉ outs (mem st) := fun hm => by
    obtain ⟨_, _, hv⟩ := v1 _ hm
    exact nd2.ne hv rfl
  have nw2' : l2.weights ∉ outs (mem st) := fun hm => E1.weights _ hm ew2
  have nb2 : ∀ q ∈ outs (mem st), q ∉ r.1.network.map (·.bias) := by rw [r_net, sameB_bias S2]; exact E1.bias
  have nh2 : ∀ m ∈ mem st, ∀ q ∈ m.hidden, q ∉ written r.1.network := by rw [r_net, sameB_written S2]; exact E1.hid
  -- the moments
  refine Runs.bind ((start_mem hS (G := wgrads o us X y N1) w2 I2.hidden E1.nodup hG2 g2 ng2 a2).mono fun st3 h3 ⟨S, hSz, T3⟩ => ?_)
  obtain ⟨w3, K3, H3, eo3, hh3⟩ := T3
  have I3 := I2.keepO w3 K3 a2.out nw2' nd2' nb2
  have hG3 : HasH h3 id us r.2.1 (wgrads o us X y N1).1 := HasL.keep K3 hG2 fun q hq => a2.out _ hq
  have g3 := g2.keep K3 fun c e hc => ng2 (e ▸ hc)
  rw [← eo3] at ng2 nd2' nw2' nb2
  -- the first change
  refine Runs.bind ((hL _ _ _ _ _ _ _ _ _ _ _ _ I3 H3).mono fun s4 h4 ⟨l4, I4, V4⟩ => ?_)
  have en4 : s4.n = s.n := by rw [V4.same]; exact en2
  have H4 := Holds.keep H3 V4.keeps (fun _ _ _ _ => id) fun _ _ _ _ _ _ => id
  have hG4 : HasH h4 id us r.2.1 (wgrads o us X y N1).1 := HasL.adv V4.keeps hG3
  have g4 := g3.keep V4.keeps fun _ _ => id
  have v3 := Holds.out H3
  have nw4 : l4.weights ∉ outs (mem st3) := fun hm => by
    rcases V4.weights with e | e
    · exact nw2' (e ▸ hm)
    · obtain ⟨_, _, hv⟩ := v3 _ hm
      exact e.ne hv rfl
  have nd4 : l4.delta ∉ outs (mem st3) := by rw [V4.delta]; exact nd2'
  have nb4 : ∀ q ∈ outs (mem st3), q ∉ s4.network.map (·.bias) := fun q hq hb => by
    rcases V4.biases q hb with e | e
    · exact nb2 q hq e
    · obtain ⟨_, _, hv⟩ := v3 _ hq
      exact e.ne hv rfl
  -- the rule
  refine Runs.bind ((hR _ _ _ _ S _ _ (wgrads o us X y N1) I4.wf H4 (by rw [eo3]; exact E1.nodup) hG4 g4 ng2).mono
    fun u h5 ⟨w5, K5, H5, U5, u5, nd5, no5, nh5⟩ => ?_)
  have v4 := Holds.out H4
  have I5 := I4.keepO w5 K5 v4 nw4 nd4 nb4
  -- the second change
  refine Runs.bind ((update_gen (lr := lr) I5 (U := moveW hid out us S (wgrads o us X y N1)) U5 u5).mono fun s6 h6 ⟨l6, I6, V6⟩ => ?_)
  have H6 := Holds.keep H5 V6.keeps (fun _ _ _ _ => id) fun _ _ _ _ _ _ => id
  have v5 := Holds.out H5
  -- the whole
  have K12 : Keeps h0 h2 (fun c => some c ∈ owned s0) := C1.keeps.more K2
  have K13 : Keeps h0 h3 (fun c => some c ∈ owned s0) := K12.trans_new K3 fun c hc hl => (E1.new _ hc c rfl hl).elim
  have K14 := K13.more V4.keeps
  have K15 : Keeps h0 h5 (fun c => some c ∈ owned s0) := K14.trans_new K5 fun c hc hl => (E1.new _ (eo3 ▸ hc) c rfl hl).elim
  have K16 := K15.more V6.keeps
  have good : ∀ q ∈ l6.weights :: written s6.network, q ∈ owned s0 ∨ NotIn h0 q := by
    have g2 : ∀ q ∈ l2.weights :: written r.1.network, q ∈ owned s0 ∨ NotIn h0 q := by
      rw [r_net, sameB_written S2, ew2]; exact C1.olds
    have g4 : ∀ q ∈ l4.weights :: written s4.network, q ∈ owned s0 ∨ NotIn h0 q := by
      intro q hq
      rcases List.mem_cons.1 hq with rfl | hq
      · rcases V4.weights with e | e
        · exact g2 _ (by rw [e]; exact List.mem_cons_self)
        · exact Or.inr (e.mono K13)
      · rcases V4.olds q hq with e | e
        · exact g2 _ (List.mem_cons_of_mem _ e)
        · exact Or.inr (e.mono K13)
    intro q hq
    rcases List.mem_cons.1 hq with rfl | hq
    · rcases V6.weights with e | e
      · exact g4 _ (by rw [e]; exact List.mem_cons_self)
      · exact Or.inr (e.mono K15)
    · rcases V6.olds q hq with e | e
      · exact g4 _ (List.mem_cons_of_mem _ e)
      · exact Or.inr (e.mono K15)
  have C6 : Core s0 h0 o us s6 h6 l6 (take (lr / s.n) us N1 (moveW (withLook pre hid) (withLook pre out) us S (wgrads o us X y N1)) (grads o us X y N1)) := by
    refine ⟨I6.wf, ?_, I6.el, ?_, I6.nb, I6.nodup, ?_, K16, good⟩
    · have := I6.hidden
      rw [en4] at this
      refine cast (congrArg (fun H => LayersAre h6 us H s6.network) ?_) this
      exact takeH_take _ _ _ us _ _ _ _
    · have := I6.out
      rw [en4] at this
      refine cast (congrArg (fun H => OutputIs h6 l6 o H) ?_) this
      unfold take moveW withLook
      simp only [mul_zero, sub_zero, sub_sub]
    · rw [V6.same, V4.same, e2, C1.same]
  have E6 : Kept h0 s6 l6 (mem u.1) := by
    refine ⟨nd5, fun q hq => ?_, fun q hq e => ?_, fun q hq e => ?_, fun m hm q hq e => ?_⟩
    · rcases no5 q hq with e | e
      · exact E1.new q (eo3 ▸ e)
      · exact e.mono K14
    · subst e
      obtain ⟨_, _, hv⟩ := v5 _ hq
      rcases V6.weights with e | e
      · rcases no5 _ hq with b | b
        · exact nw4 (e ▸ b)
        · rw [e] at b; exact b.ne I4.out.weights rfl
      · exact e.ne hv rfl
    · rcases V6.biases q e with e | e
      · rcases no5 _ hq with b | b
        · exact nb4 q b e
        · obtain ⟨l', hl', rfl⟩ := List.mem_map.1 e
          obtain ⟨_, _, hv⟩ := bias_of us I4.hidden l' hl'
          exact b.ne hv rfl
      · obtain ⟨_, _, hv⟩ := v5 _ hq
        exact e.ne hv rfl
    · obtain ⟨_, _, _, hA⟩ := Holds.hid H5 m hm q hq
      rcases V6.olds q e with e | e
      · exact notin_written I4.hidden (nh5 m hm q hq) e
      · exact e.ne_mat hA rfl
  -- the last pass
  obtain ⟨x6, m6⟩ := C6.frameM hx nx
  refine Runs.bind ((set_core' g.2 C6 x6 (fun hm => m6 (List.mem_cons_of_mem _ hm)) hu ho (z := some _) E6 H6).mono fun t7 h7 ⟨l7, C7, P7, e7, E7, a7⟩ => ?_)
  exact Runs.of_eq rfl ⟨S, hSz, l7, C7, E7, a7⟩

/-! ## All steps -/

/-- The code `init` makes new moments. -/
def InitOk (mem : σ → List Moment) (init : M ℝ σ) : Prop :=
  ∀ h : Heap ℝ, h.WF → Runs init h fun st h' => h'.WF ∧ Keeps h h' (fun _ => False) ∧ Fresh h' (mem st) ∧ (outs (mem st)).Nodup ∧ ∀ q ∈ outs (mem st), NotIn h q

theorem newMoment_run {h : Heap ℝ} (w : h.WF) : Runs newMoment h fun v h' => h'.WF ∧ Keeps h h' (fun _ => False) ∧ v.hidden = [] ∧ NotIn h v.output ∧
    ∃ u : Fin 0 → ℝ, HasV h' v.output u := by
  unfold newMoment
  exact stepV0 w fun o h1 v w1 k1 f1 a1 => Runs.of_eq rfl ⟨w1, k1, rfl, f1, v, a1⟩

theorem init1_ok : InitOk (fun v : Moment => [v]) newMoment := fun h w =>
  (newMoment_run w).mono fun v h' ⟨w', k', e, f, u⟩ => ⟨w', k', fun m hm => by
    obtain rfl := List.mem_singleton.1 hm; exact ⟨e, u⟩, by simp [outs], by simpa [outs] using f⟩

theorem init2_ok : InitOk (fun p : Moment × Moment => [p.1, p.2]) newMoment2 := fun h w => by
  unfold newMoment2
  refine Runs.bind ((newMoment_run w).mono fun v1 h1 ⟨w1, k1, e1, f1, u1, a1⟩ => ?_)
  refine Runs.bind ((newMoment_run w1).mono fun v2 h2 ⟨w2, k2, e2, f2, u2, a2⟩ => ?_)
  have ne := f2.ne a1
  have g2 := f2.mono k1
  have a1 := a1.keep k2 fun _ _ => id
  refine Runs.of_eq rfl ⟨w2, k1.trans k2, ?_, by simpa [outs] using Ne.symm ne, ?_⟩
  · intro m hm
    simp only [List.mem_cons, List.not_mem_nil, or_false] at hm
    rcases hm with rfl | rfl
    · exact ⟨e1, u1, a1⟩
    · exact ⟨e2, u2, a2⟩
  · intro q hq
    simp only [outs, List.map_cons, List.map_nil, List.mem_cons, List.not_mem_nil, or_false] at hq
    rcases hq with rfl | rfl
    · exact f1
    · exact g2

theorem init3_ok : InitOk (fun p : Moment × Moment × Moment => [p.1, p.2.1, p.2.2]) newMoment3 := fun h w => by
  unfold newMoment3
  refine Runs.bind ((newMoment_run w).mono fun v1 h1 ⟨w1, k1, e1, f1, u1, a1⟩ => ?_)
  refine Runs.bind ((newMoment_run w1).mono fun v2 h2 ⟨w2, k2, e2, f2, u2, a2⟩ => ?_)
  have ne := f2.ne a1
  have g2 := f2.mono k1
  have K := k1.trans k2
  have a1 := a1.keep k2 fun _ _ => id
  refine Runs.bind ((newMoment_run w2).mono fun v3 h3 ⟨w3, k3, e3, f3, u3, a3⟩ => ?_)
  have ne1 := f3.ne a1
  have ne2 := f3.ne a2
  have g3 := f3.mono K
  have K := K.trans k3
  have a1 := a1.keep k3 fun _ _ => id
  have a2 := a2.keep k3 fun _ _ => id
  refine Runs.of_eq rfl ⟨w3, K, ?_, ?_, ?_⟩
  · intro m hm
    simp only [List.mem_cons, List.not_mem_nil, or_false] at hm
    rcases hm with rfl | rfl | rfl
    · exact ⟨e1, u1, a1⟩
    · exact ⟨e2, u2, a2⟩
    · exact ⟨e3, u3, a3⟩
  · simp only [outs, List.map_cons, List.map_nil, List.nodup_cons, List.mem_cons, List.not_mem_nil, or_false, not_or, not_false_eq_true, List.nodup_nil, and_true]
    exact ⟨⟨Ne.symm ne, Ne.symm ne1⟩, Ne.symm ne2⟩
  · intro q hq
    simp only [outs, List.map_cons, List.map_nil, List.mem_cons, List.not_mem_nil, or_false] at hq
    rcases hq with rfl | rfl | rfl
    · exact f1
    · exact g2
    · exact g3

theorem optimise_run [Inhabited τ] (fuel : Nat) {mem : σ → List Moment} {fs : List (τ → ℝ)} {init : M ℝ σ} {start : Ann → List Ref → Ref → σ → M ℝ σ}
    {look : σ → Ann → M ℝ Ann} {rule : Nat → ℝ → List Ref → Ref → σ → M ℝ (σ × List Ref × Ref)} {hid out : Nat → ℝ → Rule τ} {pre : τ → ℝ}
    (hI : InitOk mem init) (hS : StartOk mem fs start) (hL : LookOk mem fs look pre) (hR : ∀ e c, RuleOk mem fs (rule e c) (hid e c) (out e c))
    (g : Nat → Nat → Draws × Draws) (last : Draws) {s : Ann} {h : Heap ℝ} (R : AnnReady s h o us X y N) (hu : ∀ u ∈ us, u.Works)
    (ho : o.Works) (lr : ℝ) (e : Int) (hr : RateOk s (epochCount e)) {b K : Nat} (hb : 0 < b) (eK : n / b = K) (hK : 0 < K) :
    Runs (optimise fuel g last s lr e b init start look rule) h fun s' h' => ∃ S0 : Wts τ k us, AnnTrained s h s' h' o us X y (redrawn last o us
      (walk (roundStep hK fun ep i => optStep o us (g ep i) (rateAt s lr ep / n) (withLook pre (hid ep (rateAt s lr ep / n)))
        (withLook pre (out ep (rateAt s lr ep / n))) (batchX X K i) (firstY y K)) (N, S0) (epochCount e * K)).1) := by
  unfold optimise
  have hb' : (b : Int) ≠ 0 := by exact_mod_cast hb.ne'
  rw [if_neg hb', R.samples]
  have ek : (n : Int).tdiv (b : Int) = ((n / b : Nat) : Int) := by
    rw [Int.tdiv_eq_ediv_of_nonneg (Int.natCast_nonneg n)]; rfl
  dsimp only
  rw [ek, Int.toNat_natCast, eK]
  obtain ⟨ia, eia, lia, hia⟩ := R.input_set
  obtain ⟨oa, eoa, loa, hoa⟩ := R.output_set
  rw [eia, eoa]
  refine Runs.bind ((Utilities.create_mini_batchesmv_run R.wf lia loa hia hoa hK (Utilities.batch_row n K)).mono
    fun bs h1 ⟨w1, k1, ⟨lm, _, nm⟩, ⟨lv, _, nv⟩⟩ => ?_)
  have R1 := AnnReady.new R w1 k1
  refine Runs.bind ((hI h1 w1).mono fun st h2 ⟨w2, k2, F2, nd2, n2⟩ => ?_)
  have R2 := AnnReady.new R1 w2 k2
  obtain ⟨l, C', -, -⟩ := core_of R2
  have C : Core s h1 o us s h2 l N := ⟨C'.wf, C'.hidden, C'.el, C'.out, C'.nb, C'.nodup, C'.same, k2.mono fun _ _ => False.elim, fun q hq =>
    (C'.olds q hq).imp id fun a => a.mono k2⟩
  obtain ⟨l1, C1, -, -⟩ := core_of R1
  have el1 : l1 = l := by have a := C1.el; rw [C.el] at a; cases a; rfl
  subst el1
  have E : Kept h1 s l1 (mem st) := by
    refine ⟨nd2, n2, fun q hq e => (n2 q hq).ne C1.out.weights e, fun q hq e => ?_, fun m hm q hq => ?_⟩
    · exact notin_bias C1.hidden (n2 q hq) e
    · rw [(F2 m hm).1] at hq; simp at hq
  clear C1 C'
  set stp := fun (ep : Nat) (i : Fin K) => optStep o us (g ep i) (rateAt s lr ep / n) (withLook pre (hid ep (rateAt s lr ep / n)))
        (withLook pre (out ep (rateAt s lr ep / n))) (batchX X K i) (firstY y K) with hstp
  have B : ∀ i : Fin K, ∃ a b, bs.1[i.val]? = some a ∧ bs.2[i.val]? = some b ∧
      HasM h1 a (batchX X K i) ∧ HasV h1 b (firstY y K) ∧ a ∉ owned s ∧ b ∉ owned s := by
    intro i
    obtain ⟨a, ea, fa, la, ha⟩ := nm i
    obtain ⟨o, eo, fo, lo, ho⟩ := nv i
    have fa' : NotIn h (some (.m a)) := fun l e => by cases e; exact fa
    have fo' : NotIn h (some (.v o)) := fun l e => by cases e; exact fo
    exact ⟨_, _, ea, eo, ⟨a, rfl, la, ha⟩, ⟨o, rfl, lo, ho⟩, AnnReady.notin R fa', AnnReady.notin R fo'⟩
  set J := fun (t : Nat) (p : Ann × σ) (h' : Heap ℝ) => ∃ (S0 : Wts τ k us) (l' : OutputLayer), Core s h1 o us p.1 h' l' (walk (roundStep hK stp) (N, S0) t).1 ∧
    Kept h1 p.1 l' (mem p.2) ∧ (t = 0 ∧ Fresh h' (mem p.2) ∨ Holds h' us (mem p.2) fs (walk (roundStep hK stp) (N, S0) t).2) with hJ
  have J0 : J 0 (s, st) h2 := ⟨(zipH (fun _ _ => default) us (weightsH us N.1) (weightsH us N.1), fun _ => default), l1, C, E, Or.inl ⟨rfl, F2⟩⟩
  have main : Runs (epochs e (s, st) fun e p => do
      let lr ← apply_learning_rate_scheduler p.1 lr p.1.decay_constant e p.1.drop_rate
      foldN K p fun i p => do
        let X ← batchAt bs.1 i
        let y ← batchAt bs.2 i
        optBody fuel start look (rule e (lr / p.1.n)) lr (g e i).1 (g e i).2 X y p) h2 (J (epochCount e * K)) := by
    refine Runs.mono (Runs.foldN (epochCount e) (fun ep => J (ep * K)) _ (s, st) h2 (by rw [Nat.zero_mul]; exact J0) ?_) fun s' h' a => a
    intro ep p2 h2 hep I2
    have es : apply_learning_rate_scheduler p2.1 lr p2.1.decay_constant ((ep + 1 : Nat) : ℝ) p2.1.drop_rate h2 = .ok (rateAt s lr (ep + 1), h2) := by
      obtain ⟨S0, l2, C2, -⟩ := I2
      have := rate_run (E := epochCount e) (e := ep + 1) (s := p2.1) (by rw [C2.same]; exact hr) hep lr h2
      rw [this, rateAt_same C2.same]
    refine Runs.step es ?_
    rw [Nat.succ_mul]
    refine Runs.foldN K (fun i => J (ep * K + i)) _ p2 h2 I2 ?_
    intro i p3 h3 hi ⟨S0, l3, C3, E3, H3⟩
    obtain ⟨a, q, ea, eq, ha, hq, na, nq⟩ := B ⟨i, hi⟩
    have r1 : batchAt bs.1 i h3 = .ok (a, h3) := by unfold batchAt; rw [show bs.1[i]? = some a from ea]; rfl
    have r2 : batchAt bs.2 i h3 = .ok (q, h3) := by unfold batchAt; rw [show bs.2[i]? = some q from eq]; rfl
    refine Runs.step r1 (Runs.step r2 ?_)
    have en : p3.1.n = n := (C3.ready R1).samples
    rcases H3 with ⟨t0, F3⟩ | H3
    · refine (opt_body fuel hS hL (hR (ep + 1) _) hu ho (rateAt s lr (ep + 1)) (g (ep + 1) i) C3 (z := none) E3 F3 ha na hq nq).mono
        fun r h4 ⟨S, _, l4, C4, E4, H4⟩ => ⟨S, l4, ?_⟩
      rw [walk_round hK stp _ ep i hi]
      rw [t0] at C4 H4 ⊢
      rw [en] at C4 H4
      exact ⟨C4, E4, Or.inr H4⟩
    · refine (opt_body fuel hS hL (hR (ep + 1) _) hu ho (rateAt s lr (ep + 1)) (g (ep + 1) i) C3 (z := some _) E3 H3 ha na hq nq).mono
        fun r h4 ⟨S, e4, l4, C4, E4, H4⟩ => ⟨S0, l4, ?_⟩
      rw [walk_round hK stp _ ep i hi]
      rw [en, e4 _ rfl] at C4 H4
      exact ⟨C4, E4, Or.inr H4⟩
  refine Runs.bind (main.mono fun p2 h2 ⟨S0, l2, C2, _⟩ => (forward_core last C2 R1 hu ho).mono fun s3 h3 ⟨l3, C3, P3, y3⟩ => ⟨S0, ?_⟩)
  have T := C3.trained R1 P3 y3
  exact ⟨T.ready, T.shows, T.same, T.settled, (k1.mono fun _ _ => False.elim).trans T.keeps⟩

end Ann
end Verif
