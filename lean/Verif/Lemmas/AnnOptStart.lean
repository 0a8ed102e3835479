import Verif.Lemmas.AnnOptRules

/-! # The first step of the adaptive training methods of networks -/

namespace Verif
open Spec Finset

namespace Ann
variable {n k : Nat} {τ σ : Type} {us : List Lay}

/-- Moments that have just been made. -/
def Fresh (h : Heap ℝ) (ms : List Moment) : Prop := ∀ m ∈ ms, m.hidden = [] ∧ ∃ v : Fin 0 → ℝ, HasV h m.output v

/-- The moments `ms'`, made out of `ms`, hold `S`. -/
structure Started (h h' : Heap ℝ) (us : List Lay) (ms ms' : List Moment) (fs : List (τ → ℝ)) (S : Wts τ k us) : Prop where
  wf : h'.WF
  keeps : Keeps h h' (some · ∈ outs ms)
  holds : Holds h' us ms' fs S
  same : outs ms' = outs ms
  hidden : ∀ m ∈ ms', ∀ q ∈ m.hidden, (∃ m ∈ ms, q ∈ m.hidden) ∨ NotIn h q

/-- The code `start` initialises the moments once. -/
def StartOk (mem : σ → List Moment) (fs : List (τ → ℝ)) (start : Ann → List Ref → Ref → σ → M ℝ σ) : Prop :=
  ∀ (k : Nat) (us : List Lay) (h : Heap ℝ) (s : Ann) (H : Hiddens k us) (st : σ) (gs : List Ref) (g : Ref) (G : Wts ℝ k us), h.WF → LayersAre h us H s.network →
    (outs (mem st)).Nodup → HasH h id us gs G.1 → HasV h g G.2 → g ∉ outs (mem st) →
    (Fresh h (mem st) → Runs (start s gs g st) h fun st' h' => ∃ S : Wts τ k us, Started h h' us (mem st) (mem st') fs S) ∧
    ∀ S : Wts τ k us, Holds h us (mem st) fs S → Runs (start s gs g st) h fun st' h' => Started h h' us (mem st) (mem st') fs S

theorem startHidden_run {h : Heap ℝ} {ls : List HiddenLayer} {H : Hiddens k us} {gs : List Ref} {G : Hid ℝ k us} (w : h.WF) (L : LayersAre h us H ls)
    (hG : HasH h id us gs G) : Runs (startHidden (!ls.isEmpty) gs []) h fun qs h' => h'.WF ∧ Keeps h h' (fun _ => False) ∧ (∀ q ∈ qs, NotIn h q) ∧
      ∃ A : Hid ℝ k us, HasH h' id us qs A := by
  unfold startHidden
  cases us with
  | nil =>
    cases L
    exact Runs.of_eq rfl ⟨w, Keeps.refl _ _, by simp, (), .nil⟩
  | cons u us =>
    obtain ⟨l, ls, rfl, -, -⟩ := L
    exact resizevt_run w hG

theorem startHidden_same {h : Heap ℝ} {ls : List HiddenLayer} {H : Hiddens k us} (L : LayersAre h us H ls) {f : τ → ℝ} {hid : List Ref} {A : Hid τ k us}
    (a : HasH h f us hid A) : (!ls.isEmpty && hid.isEmpty) = false := by
  cases us with
  | nil => cases L; rfl
  | cons u us =>
    obtain ⟨l, ls, rfl, -, -⟩ := L
    unfold HasH HasL at a
    cases hid with
    | nil =>
      have := a.length_eq
      simp [hidList] at this
    | cons => rfl

theorem startOutput_run {h : Heap ℝ} {m p : Nat} {v : Fin m → ℝ} {t : Fin p → ℝ} {c : Bool} {g a : Ref} (w : h.WF) (hg : HasV h g t) (ha : HasV h a v)
    (e : c = false → m = p) : Runs (startOutput c g a) h fun _ h' => h'.WF ∧ Keeps h h' (some · = a) ∧ ∃ u : Fin p → ℝ, HasV h' a u := by
  unfold startOutput
  cases c with
  | false =>
    obtain rfl := e rfl
    exact Runs.of_eq rfl ⟨w, Keeps.refl _ _, v, ha⟩
  | true =>
    rw [if_pos rfl]
    exact Runs.step (Hd.size_run hg) (Hd.resizev_run w ha p)

theorem startOutput_same {h : Heap ℝ} {p : Nat} {v t : Fin p → ℝ} {c : Bool} {g a : Ref} (w : h.WF) (hg : HasV h g t) (ha : HasV h a v)
    (e : c = true → p = 0) : Runs (startOutput c g a) h fun _ h' => h'.WF ∧ Keeps h h' (some · = a) ∧ HasV h' a v := by
  cases c with
  | false => exact Runs.of_eq rfl ⟨w, Keeps.refl _ _, ha⟩
  | true =>
    obtain rfl := e rfl
    refine (startOutput_run w hg ha (by simp)).mono fun _ h' ⟨w', k', u, hu⟩ => ⟨w', k', ?_⟩
    rwa [Subsingleton.elim v u]

theorem start1_ok : StartOk (fun v : Moment => [v]) [id] start1 := by
  intro k us h s H v gs g G w L nd hG hg ng
  have ng1 : g ≠ v.output := by simpa [outs] using ng
  constructor
  · intro F
    obtain ⟨e1, v0, o1⟩ := F v (by simp)
    unfold start1
    rw [e1]
    simp only [List.isEmpty_nil, Bool.and_true]
    refine Runs.bind ((startHidden_run w L hG).mono fun qs h1 ⟨w1, k1, n1, A, a1⟩ => ?_)
    adv k1
    refine Runs.step (Hd.size_run o1) ?_
    refine Runs.bind ((startOutput_run w1 hg o1 (by simp)).mono fun _ h2 ⟨w2, k2, u, o2⟩ => ?_)
    have a2 := HasL.off o1 k2 a1
    refine Runs.of_eq rfl ⟨(A, u), w2, ?_, holds_one.2 ⟨a2, o2⟩, rfl, fun m hm q hq => ?_⟩
    · have K : Keeps h h1 (some · ∈ outs [v]) := k1.mono fun _ _ => False.elim
      exact K.into k2 (by simp [outs])
    · simp only [List.mem_singleton] at hm
      subst hm; exact Or.inr (n1 q hq)
  · intro S HS
    obtain ⟨H1, o1⟩ := holds_one.1 HS
    unfold start1
    rw [startHidden_same L H1]
    refine Runs.step (show startHidden false gs v.hidden h = .ok (v.hidden, h) from rfl) ?_
    refine Runs.step (Hd.size_run o1) ?_
    refine Runs.bind ((startOutput_same w hg o1 (by simp)).mono fun _ h2 ⟨w2, k2, o2⟩ => ?_)
    refine Runs.of_eq rfl ⟨w2, (Keeps.refl _ _).into k2 (by simp [outs]), holds_one.2 ⟨HasL.off o1 k2 H1, o2⟩, rfl, fun m hm q hq => ?_⟩
    simp only [List.mem_singleton] at hm
    subst hm; exact Or.inl ⟨v, by simp, hq⟩

theorem start2_ok : StartOk (fun p : Moment × Moment => [p.1, p.2]) [Prod.fst, Prod.snd] (start2 fun i j => i == 0 && j == 0) := by
  intro k us h s H p gs g G w L nd hG hg ng
  simp only [outs, List.map_cons, List.map_nil, List.mem_cons, List.not_mem_nil, or_false, not_or, List.nodup_cons] at ng nd
  have ng1 := ng.1
  have ng2 := ng.2
  have ne12 := nd.1
  constructor
  · intro F
    obtain ⟨e1, v1, o1⟩ := F p.1 (by simp)
    obtain ⟨e2, v2, o2⟩ := F p.2 (by simp)
    unfold start2
    rw [e1, e2]
    simp only [List.isEmpty_nil, Bool.and_true]
    refine Runs.bind ((startHidden_run w L hG).mono fun qs1 h1 ⟨w1, k1, n1, A, a1⟩ => ?_)
    have K : Keeps h h1 (some · ∈ outs [p.1, p.2]) := k1.mono fun _ _ => False.elim
    have L1 := LayersAre.keep k1 us L fun _ _ _ _ _ _ => id
    have hG : HasH h1 id us gs G.1 := HasL.adv k1 hG
    adv k1
    refine Runs.bind ((startHidden_run w1 L1 hG).mono fun qs2 h2 ⟨w2, k2, n2, B, a2⟩ => ?_)
    have n2 := fun q hq => (n2 q hq).mono K
    have K := K.more k2
    have a1 : HasH h2 id us qs1 A := HasL.adv k2 a1
    adv k2
    refine Runs.step (Hd.size_run o1) (Runs.step (Hd.size_run o2) ?_)
    refine Runs.bind ((startOutput_run w2 hg o1 (by simp)).mono fun _ h3 ⟨w3, k3, u, o1'⟩ => ?_)
    have K := K.into k3 (by simp [outs])
    have a1 : HasH h3 id us qs1 A := HasL.off o1 k3 a1
    have a2 : HasH h3 id us qs2 B := HasL.off o1 k3 a2
    wr k3
    refine Runs.bind ((startOutput_run w3 hg o2 (by simp)).mono fun _ h4 ⟨w4, k4, v, o2'⟩ => ?_)
    have K := K.into k4 (by simp [outs])
    have a1 : HasH h4 id us qs1 A := HasL.off o2 k4 a1
    have a2 : HasH h4 id us qs2 B := HasL.off o2 k4 a2
    wr k4
    refine Runs.of_eq rfl ⟨(zipH Prod.mk us A B, fun j => (u j, v j)), w4, K,
      holds_two.2 ⟨⟨(hasH_fst us B).1 a1, o1'⟩, (hasH_snd us A).1 a2, o2'⟩, rfl, fun m hm q hq => ?_⟩
    simp only [List.mem_cons, List.not_mem_nil, or_false] at hm
    rcases hm with rfl | rfl
    · exact Or.inr (n1 q hq)
    · exact Or.inr (n2 q hq)
  · intro S HS
    obtain ⟨⟨H1, o1⟩, H2, o2⟩ := holds_two.1 HS
    unfold start2
    rw [startHidden_same L H1, Bool.false_and]
    refine Runs.step (show startHidden false gs p.1.hidden h = .ok (p.1.hidden, h) from rfl) ?_
    refine Runs.step (show startHidden false gs p.2.hidden h = .ok (p.2.hidden, h) from rfl) ?_
    refine Runs.step (Hd.size_run o1) (Runs.step (Hd.size_run o2) ?_)
    have K : Keeps h h (some · ∈ outs [p.1, p.2]) := Keeps.refl _ _
    refine Runs.bind ((startOutput_same w hg o1 (by simp)).mono fun _ h3 ⟨w3, k3, o1'⟩ => ?_)
    have K := K.into k3 (by simp [outs])
    have a1 : HasH h3 Prod.fst us p.1.hidden S.1 := HasL.off o1 k3 H1
    have a2 : HasH h3 Prod.snd us p.2.hidden S.1 := HasL.off o1 k3 H2
    wr k3
    refine Runs.bind ((startOutput_same w3 hg o2 (by simp)).mono fun _ h4 ⟨w4, k4, o2'⟩ => ?_)
    have K := K.into k4 (by simp [outs])
    have a1 : HasH h4 Prod.fst us p.1.hidden S.1 := HasL.off o2 k4 a1
    have a2 : HasH h4 Prod.snd us p.2.hidden S.1 := HasL.off o2 k4 a2
    wr k4
    refine Runs.of_eq rfl ⟨w4, K, holds_two.2 ⟨⟨a1, o1'⟩, a2, o2'⟩, rfl, fun m hm q hq => ?_⟩
    simp only [List.mem_cons, List.not_mem_nil, or_false] at hm
    rcases hm with rfl | rfl
    · exact Or.inl ⟨p.1, by simp, hq⟩
    · exact Or.inl ⟨p.2, by simp, hq⟩

theorem start3_ok : StartOk (fun p : Moment × Moment × Moment => [p.1, p.2.1, p.2.2]) three start3 := by
  intro k us h s H p gs g G w L nd hG hg ng
  simp only [outs, List.map_cons, List.map_nil, List.mem_cons, List.not_mem_nil, or_false, not_or, List.nodup_cons] at ng nd
  have ng1 := ng.1
  have ng2 := ng.2.1
  have ng3 := ng.2.2
  have ne12 := nd.1.1
  have ne13 := nd.1.2
  have ne23 := nd.2.1
  constructor
  · intro F
    obtain ⟨e1, v1, o1⟩ := F p.1 (by simp)
    obtain ⟨e2, v2, o2⟩ := F p.2.1 (by simp)
    obtain ⟨e3, v3, o3⟩ := F p.2.2 (by simp)
    unfold start3
    rw [e1, e2, e3]
    simp only [List.isEmpty_nil, Bool.and_true]
    refine Runs.bind ((startHidden_run w L hG).mono fun qs1 h1 ⟨w1, k1, n1, A, a1⟩ => ?_)
    have K : Keeps h h1 (some · ∈ outs [p.1, p.2.1, p.2.2]) := k1.mono fun _ _ => False.elim
    have L1 := LayersAre.keep k1 us L fun _ _ _ _ _ _ => id
    have hG : HasH h1 id us gs G.1 := HasL.adv k1 hG
    adv k1
    refine Runs.bind ((startHidden_run w1 L1 hG).mono fun qs2 h2 ⟨w2, k2, n2, B, a2⟩ => ?_)
    have n2 := fun q hq => (n2 q hq).mono K
    have K := K.more k2
    have L2 := LayersAre.keep k2 us L1 fun _ _ _ _ _ _ => id
    have hG : HasH h2 id us gs G.1 := HasL.adv k2 hG
    have a1 : HasH h2 id us qs1 A := HasL.adv k2 a1
    adv k2
    refine Runs.bind ((startHidden_run w2 L2 hG).mono fun qs3 h2' ⟨w2', k2', n3, C, a3⟩ => ?_)
    have n3 := fun q hq => (n3 q hq).mono K
    have K := K.more k2'
    have a1 : HasH h2' id us qs1 A := HasL.adv k2' a1
    have a2 : HasH h2' id us qs2 B := HasL.adv k2' a2
    adv k2'
    refine Runs.step (Hd.size_run o1) (Runs.step (Hd.size_run o2) ?_)
    refine Runs.bind ((startOutput_run w2' hg o1 (by simp)).mono fun _ h3 ⟨w3, k3, u, o1'⟩ => ?_)
    have K := K.into k3 (by simp [outs])
    have a1 : HasH h3 id us qs1 A := HasL.off o1 k3 a1
    have a2 : HasH h3 id us qs2 B := HasL.off o1 k3 a2
    have a3 : HasH h3 id us qs3 C := HasL.off o1 k3 a3
    wr k3
    refine Runs.bind ((startOutput_run w3 hg o2 (by simp)).mono fun _ h4 ⟨w4, k4, v, o2'⟩ => ?_)
    have K := K.into k4 (by simp [outs])
    have a1 : HasH h4 id us qs1 A := HasL.off o2 k4 a1
    have a2 : HasH h4 id us qs2 B := HasL.off o2 k4 a2
    have a3 : HasH h4 id us qs3 C := HasL.off o2 k4 a3
    wr k4
    refine Runs.bind ((startOutput_run w4 hg o3 (by simp)).mono fun _ h5 ⟨w5, k5, x, o3'⟩ => ?_)
    have K := K.into k5 (by simp [outs])
    have a1 : HasH h5 id us qs1 A := HasL.off o3 k5 a1
    have a2 : HasH h5 id us qs2 B := HasL.off o3 k5 a2
    have a3 : HasH h5 id us qs3 C := HasL.off o3 k5 a3
    wr k5
    refine Runs.of_eq rfl ⟨(zipH Prod.mk us A (zipH Prod.mk us B C), fun j => (u j, v j, x j)), w5, K,
      holds_three.2 ⟨⟨(hasH_fst us _).1 a1, o1'⟩, ⟨(hasH_snd us A).1 ((hasH_fst us C).1 a2), o2'⟩, (hasH_snd us A).1 ((hasH_snd us B).1 a3), o3'⟩, rfl, fun m hm q hq => ?_⟩
    simp only [List.mem_cons, List.not_mem_nil, or_false] at hm
    rcases hm with rfl | rfl | rfl
    · exact Or.inr (n1 q hq)
    · exact Or.inr (n2 q hq)
    · exact Or.inr (n3 q hq)
  · intro S HS
    obtain ⟨⟨H1, o1⟩, ⟨H2, o2⟩, H3, o3⟩ := holds_three.1 HS
    unfold start3
    rw [startHidden_same L H1, Bool.false_and]
    refine Runs.step (show startHidden false gs p.1.hidden h = .ok (p.1.hidden, h) from rfl) ?_
    refine Runs.step (show startHidden false gs p.2.1.hidden h = .ok (p.2.1.hidden, h) from rfl) ?_
    refine Runs.step (show startHidden false gs p.2.2.hidden h = .ok (p.2.2.hidden, h) from rfl) ?_
    refine Runs.step (Hd.size_run o1) (Runs.step (Hd.size_run o2) ?_)
    have K : Keeps h h (some · ∈ outs [p.1, p.2.1, p.2.2]) := Keeps.refl _ _
    refine Runs.bind ((startOutput_same w hg o1 (by simp)).mono fun _ h3 ⟨w3, k3, o1'⟩ => ?_)
    have K := K.into k3 (by simp [outs])
    have a1 : HasH h3 (fun t => t.1) us p.1.hidden S.1 := HasL.off o1 k3 H1
    have a2 : HasH h3 (fun t => t.2.1) us p.2.1.hidden S.1 := HasL.off o1 k3 H2
    have a3 : HasH h3 (fun t => t.2.2) us p.2.2.hidden S.1 := HasL.off o1 k3 H3
    wr k3
    refine Runs.bind ((startOutput_same w3 hg o2 (by simp)).mono fun _ h4 ⟨w4, k4, o2'⟩ => ?_)
    have K := K.into k4 (by simp [outs])
    have a1 : HasH h4 (fun t => t.1) us p.1.hidden S.1 := HasL.off o2 k4 a1
    have a2 : HasH h4 (fun t => t.2.1) us p.2.1.hidden S.1 := HasL.off o2 k4 a2
    have a3 : HasH h4 (fun t => t.2.2) us p.2.2.hidden S.1 := HasL.off o2 k4 a3
    wr k4
    refine Runs.bind ((startOutput_same w4 hg o3 (by simp)).mono fun _ h5 ⟨w5, k5, o3'⟩ => ?_)
    have K := K.into k5 (by simp [outs])
    have a1 : HasH h5 (fun t => t.1) us p.1.hidden S.1 := HasL.off o3 k5 a1
    have a2 : HasH h5 (fun t => t.2.1) us p.2.1.hidden S.1 := HasL.off o3 k5 a2
    have a3 : HasH h5 (fun t => t.2.2) us p.2.2.hidden S.1 := HasL.off o3 k5 a3
    wr k5
    refine Runs.of_eq rfl ⟨w5, K, holds_three.2 ⟨⟨a1, o1'⟩, ⟨a2, o2'⟩, a3, o3'⟩, rfl, fun m hm q hq => ?_⟩
    simp only [List.mem_cons, List.not_mem_nil, or_false] at hm
    rcases hm with rfl | rfl | rfl
    · exact Or.inl ⟨p.1, by simp, hq⟩
    · exact Or.inl ⟨p.2.1, by simp, hq⟩
    · exact Or.inl ⟨p.2.2, by simp, hq⟩

end Ann
end Verif
