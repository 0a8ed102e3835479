import Verif.Lemmas.GanBase
import Verif.Lemmas.AnnTrain

/-! # Passes through a generator and a critic -/

namespace Verif
open Spec hiding Same
open Finset

namespace Adversarial
open Ann
variable {n m k : Nat}

theorem pass_last {β : Type} (g : Draws) : ∀ (ls : List HiddenLayer) (i : Nat) (x : Ref) (f : List HiddenLayer × Ref → M ℝ β),
    (layersPass g i x ls >>= f) = (layersPass g i x ls >>= fun r => f (r.1, lastOut x r.1))
  | [], i, x, f => rfl
  | l :: ls, i, x, f => by
    unfold layersPass
    simp only [bind_assoc, pure_bind]
    refine bind_congr fun l' => ?_
    exact pass_last g ls (i + 1) l'.a fun r => f (l' :: r.1, r.2)

theorem pass_len {β : Type} (g : Draws) : ∀ (ls : List HiddenLayer) (i : Nat) (x : Ref) (f f' : List HiddenLayer × Ref → M ℝ β),
    (∀ r, r.1.length = ls.length → f r = f' r) → (layersPass g i x ls >>= f) = (layersPass g i x ls >>= f')
  | [], i, x, f, f', e => e _ rfl
  | l :: ls, i, x, f, f', e => by
    unfold layersPass
    simp only [bind_assoc, pure_bind]
    refine bind_congr fun l' => ?_
    exact pass_len g ls (i + 1) l'.a _ _ fun r hr => e _ (by simp [hr])

theorem pass_append (g : Draws) : ∀ (l1 l2 : List HiddenLayer) (i : Nat) (x : Ref), layersPass g i x (l1 ++ l2) = (do
    let r ← layersPass g i x l1
    let q ← layersPass g (i + l1.length) r.2 l2
    pure (r.1 ++ q.1, q.2))
  | [], l2, i, x => by
    show layersPass g i x l2 = (do let q ← layersPass g i x l2; pure (q.1, q.2))
    exact (bind_pure _).symm
  | l :: l1, l2, i, x => by
    have e : ∀ ls, layersPass g i x (l :: ls) = (do
        let l ← HiddenLayer.forward_pass (g i).1 (g i).2 (HiddenLayer.set_input l x)
        let r ← layersPass g (i + 1) l.a ls
        pure (l :: r.1, r.2)) := fun _ => rfl
    rw [List.cons_append, e, e]
    simp only [bind_assoc, pure_bind]
    refine bind_congr fun l' => ?_
    rw [pass_append g l1 l2 (i + 1) l'.a]
    simp only [bind_assoc, pure_bind, List.length_cons]
    rw [show i + 1 + l1.length = i + (l1.length + 1) by omega]
    rfl

theorem pass_shift (g : Draws) (m : Nat) : ∀ (ls : List HiddenLayer) (i : Nat) (x : Ref), layersPass g (m + i) x ls = layersPass (from_ g m) i x ls
  | [], _, _ => rfl
  | l :: ls, i, x => by
    unfold layersPass
    refine bind_congr fun l' => ?_
    rw [Nat.add_assoc, pass_shift g m ls (i + 1) l'.a]

theorem last_append : ∀ (l1 : List HiddenLayer) {l2 : List HiddenLayer} (_ : l2 ≠ []) (x y : Ref), lastOut x (l1 ++ l2) = lastOut y l2
  | [], l :: l2, _, x, y => rfl
  | l :: l1, l2, h, x, y => by rw [List.cons_append]; exact last_append l1 h l.a y

/-- An ordinary network with the layers of the critic. -/
def asAnn (ls : List HiddenLayer) (l : OutputLayer) (n : Nat) : Ann :=
  { input_set := none, output_set := none, y_hat := none, network := ls, output_layer := some l, n := n, k := 0, lr_scheduler := .none, decay_constant := 0,
    drop_rate := 0 }

theorem disc_eq (g : Draws) {l1 l2 : List HiddenLayer} (hl : l1.length = front (l1 ++ l2).length) (h2 : l2 ≠ []) (l : OutputLayer) (x : Ref) :
    discriminator g (l1 ++ l2) (some l) x = (do
      let r ← layersPass (from_ g l1.length) 0 x (asAnn l2 l 0).network
      let o ← Ann.output (asAnn l2 l 0)
      let o ← OutputLayer.forward_pass ((from_ g l1.length) (asAnn l2 l 0).network.length).1 ((from_ g l1.length) (asAnn l2 l 0).network.length).2 (OutputLayer.set_input o r.2)
      pure (l1 ++ r.1, o)) := by
  unfold discriminator
  rw [← hl, List.drop_left, List.take_left]
  have he : (l1 ++ l2).isEmpty = false := by cases l1 <;> cases l2 <;> simp_all
  rw [pass_last (from_ g l1.length) (asAnn l2 l 0).network]
  refine pass_len _ _ _ _ _ _ fun r hr => ?_
  have hr2 : r.1 ≠ [] := by
    intro e; rw [e] at hr
    exact h2 (List.length_eq_zero_iff.1 hr.symm)
  dsimp only
  rw [he, last_append l1 hr2 none x]
  show (OutputLayer.forward_pass (g (l1 ++ l2).length).1 (g (l1 ++ l2).length).2 (OutputLayer.set_input l (lastOut x r.1)) >>= _) = _
  rw [List.length_append]
  rfl

theorem forward_eq (z : Noise) (g : Draws) (n k : Nat) (l1 l2 : List HiddenLayer) (l : OutputLayer) :
    forward z g n k (l1 ++ l2) (some l) = (do
      let x ← create_gaussian_noise z n k
      let r1 ← layersPass g 0 x l1
      let q ← (do
        let r ← layersPass (from_ g l1.length) 0 r1.2 (asAnn l2 l 0).network
        let o ← Ann.output (asAnn l2 l 0)
        let o ← OutputLayer.forward_pass ((from_ g l1.length) (asAnn l2 l 0).network.length).1 ((from_ g l1.length) (asAnn l2 l 0).network.length).2 (OutputLayer.set_input o r.2)
        pure (r.1, o))
      pure (r1.1 ++ q.1, q.2)) := by
  unfold forward
  refine bind_congr fun x => ?_
  rw [pass_append, Nat.zero_add]
  simp only [bind_assoc, pure_bind]
  refine bind_congr fun r1 => ?_
  rw [show layersPass g l1.length r1.2 l2 = layersPass (from_ g l1.length) 0 r1.2 l2 from pass_shift g l1.length l2 0 r1.2, List.length_append]
  rfl

/-! ## What is kept -/

theorem fed_keep {h h' : Heap ℝ} {S : Loc → Prop} (K : Keeps h h' S) : ∀ (us : List Lay) {k : Nat} {H : Hiddens k us}
    {ls : List HiddenLayer} {X : Matrix (Fin n) (Fin k) ℝ}, Fed h us H ls X → (∀ l ∈ ls, ∀ q ∈ [l.input, l.z], ∀ c, q = some c → ¬ S c) → Fed h' us H ls X
  | [], _, _, _, _, _, _ => trivial
  | u :: us, _, H, _, X, L, hS => by
    obtain ⟨l, ls, rfl, a, b, c⟩ := L
    exact ⟨l, ls, rfl, a.keep K (hS l (by simp) _ (by simp)), b.keep K (hS l (by simp) _ (by simp)), fed_keep K us c fun l' hl => hS l' (by simp [hl])⟩

theorem backed_keep {h h' : Heap ℝ} {S : Loc → Prop} (K : Keeps h h' S) : ∀ (us : List Lay) {k : Nat} {H : Hiddens k us}
    {ls : List HiddenLayer} {X : Matrix (Fin n) (Fin k) ℝ} {T : Matrix (Fin n) (Fin (width k us)) ℝ}, Backed h us H ls X T →
    (∀ l ∈ ls, ∀ c, l.delta = some c → ¬ S c) → Backed h' us H ls X T
  | [], _, _, _, _, _, _, _ => trivial
  | u :: us, _, H, _, X, T, L, hS => by
    obtain ⟨l, ls, rfl, a, c⟩ := L
    exact ⟨l, ls, rfl, a.keep K (hS l (by simp)), backed_keep K us c fun l' hl => hS l' (by simp [hl])⟩

theorem written_append (l1 l2 : List HiddenLayer) : written (l1 ++ l2) = written l1 ++ written l2 := by simp [written]

theorem nonempty_of_half {gs ds : List Lay} (hh : gs.length = (gs.length + ds.length) / 2 + 1) : gs ≠ [] := by
  intro e; rw [e] at hh; simp at hh

theorem z_written {l : HiddenLayer} {ls : List HiddenLayer} (hl : l ∈ ls) : l.z ∈ written ls ∧ l.weights ∈ written ls :=
  ⟨List.mem_flatMap.2 ⟨l, hl, by simp⟩, List.mem_flatMap.2 ⟨l, hl, by simp⟩⟩

/-- Layers stay if only matrices and vectors are written that they do not own. -/
theorem layers_off {h h' : Heap ℝ} {S : Loc → Prop} (K : Keeps h h' S) (us : List Lay) {k : Nat} {H : Hiddens k us} {ls : List HiddenLayer}
    (L : LayersAre h us H ls) (h1 : ∀ q ∈ written ls, ∀ c, q = some c → ¬ S c) (h2 : ∀ q ∈ ls.map (·.bias), ∀ c, q = some c → ¬ S c) :
    LayersAre h' us H ls :=
  LayersAre.keep K us L fun l hl q hq => by
    simp only [List.mem_cons, List.not_mem_nil, or_false] at hq
    rcases hq with rfl | rfl | rfl
    · exact h1 _ (z_written hl).1
    · exact h1 _ (z_written hl).2
    · exact h2 _ (List.mem_map.2 ⟨l, hl, rfl⟩)

/-- A bias is none of the matrices that passes write. -/
theorem bias_written {h : Heap ℝ} {us vs : List Lay} {k k' : Nat} {H : Hiddens k us} {H' : Hiddens k' vs} {ls ls' : List HiddenLayer} (L : LayersAre h us H ls)
    (L' : LayersAre h vs H' ls') {q : Ref} (hq : q ∈ ls.map (·.bias)) : q ∉ written ls' := by
  obtain ⟨l, hl, rfl⟩ := List.mem_map.1 hq
  obtain ⟨p, v, b⟩ := bias_of us L l hl
  exact vec_written L' b

/-! ## Passes -/

variable {o : Top} {gs ds : List Lay} {G : Hiddens k gs} {D : Net (width k gs) ds}

/-- The state after a pass through the generator. -/
structure Generated (h h' : Heap ℝ) (l1 l1' : List HiddenLayer) (gs : List Lay) (X : Matrix (Fin n) (Fin k) ℝ) (G : Hiddens k gs) (x y : Ref) : Prop where
  wf : h'.WF
  keeps : Keeps h h' (fun c => some c ∈ written l1)
  sames : List.Forall₂ Same l1 l1'
  hidden : LayersAre h' gs G l1'
  fed : Fed h' gs G l1' X
  out : HasM h' y (made gs G X)
  new : y = x ∨ NotIn h y
  inputs : ∀ l ∈ l1', l.input = x ∨ NotIn h l.input

theorem gen_run (g : Draws) {l1 l2 : List HiddenLayer} {h : Heap ℝ} (w : h.WF) (L1 : LayersAre h gs G l1) (hl : l1.length = front (l1 ++ l2).length)
    {x : Ref} {X : Matrix (Fin n) (Fin k) ℝ} (hx : HasM h x X) (nx : x ∉ written l1) (nd : (written l1).Nodup) (hu : ∀ u ∈ gs, u.Works) :
    Runs (generator g (l1 ++ l2) x) h fun r h' => ∃ l1', r.1 = l1' ++ l2 ∧ Generated h h' l1 l1' gs X (redrawnH g gs 0 G) x r.2 := by
  have e : generator g (l1 ++ l2) x = (do
      let r ← layersPass g 0 x l1
      pure (r.1 ++ l2, r.2)) := by
    unfold generator
    split
    · rename_i e
      rw [e] at hl
      obtain ⟨e1, -⟩ := List.append_eq_nil_iff.1 e
      rw [e1] at hl; simp [front] at hl
    · rw [← hl, List.take_left, List.drop_left]
  rw [e]
  refine Runs.bind ((layersPass_run g gs 0 w L1 hx (List.nodup_cons.2 ⟨nx, nd⟩) hu).mono fun r h1 ⟨w1, K1, S1, M1, F1, a1, o1, i1⟩ => ?_)
  exact Runs.of_eq rfl ⟨r.1, rfl, w1, K1, S1, M1, F1, a1, o1, i1⟩

theorem disc_run (g : Draws) {l1 l2 : List HiddenLayer} {l : OutputLayer} {h : Heap ℝ} (w : h.WF) (L2 : LayersAre h ds D.1 l2)
    (hl : l1.length = front (l1 ++ l2).length) (h2 : l2 ≠ []) (O : OutputIs h l o D.2) (nb : l.weights ∉ l2.map (·.bias))
    {x : Ref} {X : Matrix (Fin n) (Fin (width k gs)) ℝ} (hx : HasM h x X) (nx : x ∉ written l2) (nd : (written l2).Nodup) (hu : ∀ u ∈ ds, u.Works) (ho : o.Works) :
    Runs (discriminator g (l1 ++ l2) (some l) x) h fun r h' => ∃ l2' l', r = (l1 ++ l2', l') ∧ Keeps h h' (fun c => some c ∈ l.weights :: written l2) ∧
      List.Forall₂ Same l2 l2' ∧ l'.weights = l.weights ∧ NotIn h l'.a ∧ Passed h' l2' l' o ds X (redrawn (from_ g l1.length) o ds D) := by
  rw [disc_eq g hl h2]
  refine (pass_run (from_ g l1.length) (s := asAnn l2 l 0) w L2 rfl O nb hx (List.nodup_cons.2 ⟨nx, nd⟩) hu ho (f := fun ls l => (l1 ++ ls, l))).mono
    fun r h1 ⟨ls, l', e, K, S, ew, na, P⟩ => ⟨ls, l', e, K, S, ew, na, P⟩

theorem fed_input {h : Heap ℝ} : ∀ (us : List Lay) {k : Nat} {H : Hiddens k us} {ls : List HiddenLayer} {X : Matrix (Fin n) (Fin k) ℝ}, LayersAre h us H ls →
    Fed h us H ls X → ∀ l ∈ ls, ∃ (p q : Nat) (B : Matrix (Fin p) (Fin q) ℝ), HasM h l.input B
  | [], _, _, _, _, L, _, l, hl => by cases L; cases hl
  | u :: us, _, _, _, _, L, F, l, hl => by
    obtain ⟨l0, ls, rfl, -, L2⟩ := L
    obtain ⟨l', ls', e, b, -, F2⟩ := F
    cases e
    rcases List.mem_cons.1 hl with rfl | hl
    · exact ⟨_, _, _, b⟩
    · exact fed_input us L2 F2 l hl

/-- The layers of the generator stay while only the weights of the output layer and the matrices `E` are written. -/
theorem gen_keep {l1 l1' : List HiddenLayer} {h h1 h2 : Heap ℝ} {X : Matrix (Fin n) (Fin k) ℝ} {x y v : Ref} {G0 : Hiddens k gs}
    (A : Generated h h1 l1 l1' gs X G x y) (L1 : LayersAre h gs G0 l1) {p : Nat} {c : Fin p → ℝ} (hv : HasV h v c) (nb : v ∉ l1.map (·.bias)) {E : List Ref}
    (hE : ∀ q ∈ E, (∃ (a b : Nat) (B : Matrix (Fin a) (Fin b) ℝ), HasM h q B) ∧ q ∉ written l1 ∧ q ≠ x)
    (K : Keeps h1 h2 (fun c => some c ∈ v :: E)) : LayersAre h2 gs G l1' ∧ Fed h2 gs G l1' X := by
  obtain ⟨sw, sb, -, -⟩ := same_written A.sames
  have ow : HasV h1 v c := hv.keep A.keeps fun c e hc => vec_written L1 hv (e ▸ hc)
  have old : ∀ {q : Ref}, q ∈ written l1' → ∀ c, q = some c → ¬ some c ∈ v :: E := fun {q} hq c e a => by
    obtain ⟨_, _, _, hz⟩ := written_mat gs A.hidden q hq
    rcases List.mem_cons.1 a with a | a
    · exact ow.ne_mat hz (by rw [e, ← a])
    · rw [sw] at hq
      exact (hE _ a).2.1 (e ▸ hq)
  refine ⟨layers_off K gs A.hidden (fun q hq => old hq) fun q hq c e a => ?_, fed_keep K gs A.fed fun l' hl q hq c e a => ?_⟩
  · rw [sb] at hq
    rcases List.mem_cons.1 a with a | a
    · exact nb (a ▸ e ▸ hq)
    · obtain ⟨l', hl', e'⟩ := List.mem_map.1 hq
      obtain ⟨p, v, b⟩ := bias_of gs L1 l' hl'
      obtain ⟨⟨_, _, _, hz⟩, -⟩ := hE _ a
      exact b.ne_mat hz (by rw [← e, ← e'])
  · simp only [List.mem_cons, List.not_mem_nil, or_false] at hq
    rcases hq with rfl | rfl
    swap
    · exact old (z_written hl).1 c e a
    obtain ⟨_, _, _, hi⟩ := fed_input gs A.hidden A.fed l' hl
    rcases List.mem_cons.1 a with a | a
    · exact ow.ne_mat hi (by rw [e, ← a])
    · obtain ⟨⟨_, _, _, hz⟩, -, nx⟩ := hE _ a
      rcases A.inputs l' hl with q | q
      · exact nx (by rw [← q, e])
      · exact q.ne_mat hz e

/-- What a pass or a step does to the layers: only their objects have been written, and only new objects are theirs that were not before. -/
structure Advance (h h' : Heap ℝ) (ls ls' : List HiddenLayer) (l l' : OutputLayer) (E : List Ref) : Prop where
  keeps : Keeps h h' (fun c => some c ∈ E ++ l.weights :: written ls)
  olds : ∀ q ∈ l'.weights :: written ls', q ∈ l.weights :: written ls ∨ NotIn h q
  biases : ∀ q ∈ ls'.map (·.bias), q ∈ ls.map (·.bias) ∨ NotIn h q

theorem _root_.Verif.Spec.DuoIs.raw {P : Duo k gs ds} {ls : List HiddenLayer} {l : OutputLayer} {h : Heap ℝ} (I : DuoIs h ls l o gs ds P) :
    DuoRaw h ls l o gs ds P := ⟨I.wf, I.split, I.half, I.out.raw, I.apart, I.nodup⟩

theorem forward_raw (z : Noise) (g : Draws) {P : Duo k gs ds} {ls : List HiddenLayer} {l : OutputLayer} {h : Heap ℝ} (I : DuoRaw h ls l o gs ds P)
    (hg : ∀ u ∈ gs, u.Works) (hd : ∀ u ∈ ds, u.Works) (ho : o.Works) :
    Runs (forward z g n k ls (some l)) h fun r h' => Advance h h' ls r.1 l r.2 [] ∧ DuoIs h' r.1 r.2 o gs ds (redrawnAll g o gs ds P) ∧
      HasV h' r.2.a (fun i => netAt o ds (redrawnAll g o gs ds P).2 (made gs (redrawnAll g o gs ds P).1 (noise z n k) i)) ∧ NotIn h r.2.a ∧
      (∀ l ∈ r.1, l.initialized = true) ∧ r.2.initialized = true := by
  obtain ⟨w, ⟨l1, l2, rfl, L1, L2⟩, hh, O, nb, nd⟩ := I
  rw [forward_eq]
  have len1 := layers_length gs L1
  rw [List.map_append, List.mem_append, not_or] at nb
  rw [written_append, List.nodup_append] at nd
  refine Verif.stepM (noise_run z n k w) fun x h1 w1 k1 f1 ux => ?_
  have L1' := LayersAre.keep k1 gs L1 fun _ _ _ _ _ _ => id
  have L2' := LayersAre.keep k1 ds L2 fun _ _ _ _ _ _ => id
  obtain ⟨pw, vw, kw⟩ := O.weights
  have O' := kw.keep k1 fun _ _ => id
  refine Runs.bind ((layersPass_run g gs 0 w1 L1' ux (List.nodup_cons.2 ⟨notin_written L1 f1, nd.1⟩) hg).mono
    fun r h2 ⟨w2, k2, S2, M2, F2, a2, n2, i2⟩ => ?_)
  have A : Generated h1 h2 l1 r.1 gs (noise z n k) (redrawnH g gs 0 P.1) x r.2 := ⟨w2, k2, S2, M2, F2, a2, n2, i2⟩
  have L2'' : LayersAre h2 ds P.2.1 l2 := layers_off k2 ds L2' (fun q hq c e hc => nd.2.2 _ hc _ hq e.symm) fun q hq c e hc => bias_written L2' L1' hq (e ▸ hc)
  have O'' := O'.keep k2 fun c e hc => vec_written L1' O' (e ▸ hc)
  have r2 : NotIn h r.2 := by
    rcases n2 with n2 | n2
    · exact n2 ▸ f1
    · exact n2.mono k1
  refine Runs.bind ((pass_raw (N := P.2) (from_ g l1.length) (s := asAnn l2 l 0) w2 L2'' rfl ⟨O.units, O.act, O.cost, O.init, O.reg, O.lambda, O.alpha, _, _, O''⟩ nb.2 a2
    (List.nodup_cons.2 ⟨notin_written L2 r2, nd.2.1⟩) hd ho (f := fun ls l => (ls, l))).mono fun q h3 ⟨ls', l', e, K, S, ew, na, Q⟩ => ?_)
  subst e
  have M3 := (gen_keep A L1' O' nb.1 (E := written l2) (fun q hq => ⟨written_mat ds L2' q hq, fun hq' => nd.2.2 _ hq' _ hq rfl, fun e =>
    notin_written L2 f1 (e ▸ hq)⟩) K).1
  obtain ⟨sw, sb, sl, si⟩ := same_written S2
  obtain ⟨tw, tb, tl, ti⟩ := same_written S
  rw [len1] at Q
  have kk : Keeps h h3 (fun c => some c ∈ [] ++ l.weights :: written (l1 ++ l2)) := by
    rw [written_append]
    refine (k1.mono fun _ _ => False.elim).trans ((k2.mono fun c _ hc => ?_).trans (K.mono fun c _ hc => ?_))
    · simp [hc]
    · have hc : some c ∈ l.weights :: written l2 := hc
      rcases List.mem_cons.1 hc with hc | hc <;> simp [hc]
  refine Runs.of_eq rfl ⟨⟨kk, ?_, ?_⟩, ⟨Q.wf, ⟨r.1, ls', rfl, M3, Q.hidden⟩, hh, Q.out, ?_, ?_⟩, Q.a, ?_, ?_, Q.init.2⟩
  · dsimp only
    rw [ew, written_append, sw, tw, ← written_append]
    exact fun q hq => Or.inl hq
  · dsimp only
    rw [List.map_append, sb, tb, ← List.map_append]
    exact fun q hq => Or.inl hq
  · dsimp only
    rw [List.map_append, sb, tb, ew, List.mem_append, not_or]
    exact nb
  · dsimp only
    rw [written_append, sw, tw, List.nodup_append]
    exact nd
  · exact (na.mono k2).mono k1
  · intro l'' hl
    rcases List.mem_append.1 hl with hl | hl
    · exact si _ hl
    · exact ti _ hl

theorem forward_run (z : Noise) (g : Draws) {P : Duo k gs ds} {ls : List HiddenLayer} {l : OutputLayer} {h : Heap ℝ} (I : DuoIs h ls l o gs ds P)
    (hg : ∀ u ∈ gs, u.Works) (hd : ∀ u ∈ ds, u.Works) (ho : o.Works) :
    Runs (forward z g n k ls (some l)) h fun r h' => Advance h h' ls r.1 l r.2 [] ∧ DuoIs h' r.1 r.2 o gs ds (redrawnAll g o gs ds P) ∧
      HasV h' r.2.a (fun i => netAt o ds (redrawnAll g o gs ds P).2 (made gs (redrawnAll g o gs ds P).1 (noise z n k) i)) ∧ NotIn h r.2.a ∧
      (∀ l ∈ r.1, l.initialized = true) ∧ r.2.initialized = true :=
  forward_raw z g I.raw hg hd ho

end Adversarial
end Verif
