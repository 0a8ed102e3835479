import Verif.Lemmas.Activation

/-! # The activation functions that hand an object of the wrong class to `MLPPLinAlg` -/

namespace Verif.Activation
open Spec LinAlg

/-- Evaluated in any heap that keeps the objects of `h0`, `e` returns a handle with property `P` and changes no object. -/
def Gv (P : Ref → Prop) (h0 : Heap ℝ) (e : M ℝ Ref) : Prop :=
  ∀ h, h.WF → Keeps h0 h (fun _ => False) → Runs e h fun r h' => P r ∧ h'.WF ∧ Keeps h h' (fun _ => False)

/-- A handle to a matrix. -/
def IsM (r : Ref) : Prop := ∃ o, r = some (.m o)
/-- A handle to a vector. -/
def IsV (r : Ref) : Prop := ∃ o, r = some (.v o)
/-- The null handle. -/
def IsNull (r : Ref) : Prop := r = none

variable {h0 : Heap ℝ} {P Q : Ref → Prop} {e e1 e2 : M ℝ Ref} {op : Ref → M ℝ Ref} {op2 : Ref → Ref → M ℝ Ref}

theorem Gv.pure {r : Ref} (p : P r) : Gv P h0 (Pure.pure r) := fun _ w _ => ⟨p, w, Keeps.refl _ _⟩

theorem Ev.gvM {fr : Prop} {s : Size} {d : List ℝ} {g : ℝ → ℝ} (a : Ev Loc.m fr h0 s d e g) : Gv IsM h0 e := by
  intro h w k
  refine (a h w k).mono ?_
  rintro _ h' ⟨o, rfl, _, _, w', k', _⟩
  exact ⟨⟨o, rfl⟩, w', k'⟩

theorem Ev.gvV {fr : Prop} {s : Size} {d : List ℝ} {g : ℝ → ℝ} (a : Ev Loc.v fr h0 s d e g) : Gv IsV h0 e := by
  intro h w k
  refine (a h w k).mono ?_
  rintro _ h' ⟨o, rfl, _, _, w', k', _⟩
  exact ⟨⟨o, rfl⟩, w', k'⟩

theorem Gv.app1 (a : Gv P h0 e) (ho : ∀ r, P r → ∀ h, op r h = .ok (none, h)) : Gv IsNull h0 (Verif.app1 op e) := by
  intro h w k
  refine Runs.bind ((a h w k).mono ?_)
  intro r h' ⟨p, w', k'⟩
  exact Runs.of_eq (ho r p h') ⟨rfl, w', k'⟩

theorem Gv.app2 (a : Gv P h0 e1) (b : Gv Q h0 e2) (ho : ∀ r q, P r → Q q → ∀ h, op2 r q h = .ok (none, h)) :
    Gv IsNull h0 (Verif.app2 op2 e1 e2) := by
  intro h w k
  refine Runs.bind ((a h w k).mono ?_)
  intro r h' ⟨p, w', k'⟩
  refine Runs.bind ((b h' w' (k.trans k')).mono ?_)
  intro q h'' ⟨pq, w'', k''⟩
  exact Runs.of_eq (ho r q p pq h'') ⟨rfl, w'', k'.trans k''⟩

theorem Gv.step {α : Type} {c : M ℝ α} {a : α} {k : α → M ℝ Ref} (hc : ∀ h, h.WF → Keeps h0 h (fun _ => False) → c h = .ok (a, h))
    (b : Gv P h0 (k a)) : Gv P h0 (c >>= k) := fun h w k0 => Runs.step (hc h w k0) (b h w k0)

theorem Gv.ub1 (a : Gv P h0 e) (ho : ∀ r, P r → ∀ h, op r h = .ub) {h : Heap ℝ} (w : h.WF) (k : Keeps h0 h (fun _ => False)) :
    Verif.app1 op e h = .ub := by
  obtain ⟨r, h', e, p, _⟩ := runs_iff.mp (a h w k)
  exact (bind_ok e).trans (ho r p h')

/-- A call that returns null and changes no object. -/
abbrev ReturnsNull (c : M ℝ Ref) (h : Heap ℝ) : Prop := ReturnsVal c h none

theorem Gv.returnsNull (a : ∀ h : Heap ℝ, h.WF → Gv IsNull h e) {h : Heap ℝ} (w : h.WF) : ReturnsNull e h :=
  (a h w h w (Keeps.refl _ _)).mono fun _ _ ⟨p, q, r⟩ => ⟨p, q, r⟩

theorem msize_keep {h0 : Heap ℝ} {z : Nat} (lz : h0.live (.m z)) : ∀ h : Heap ℝ, h.WF → Keeps h0 h (fun _ => False) →
    msize (some (.m z)) h = .ok (h0.size (.m z), h) := by
  intro h _ k
  unfold msize
  rw [bind_ok (show deref (Ref.asM (some (.m z))) h = .ok (.m z, h) from rfl), getSize_run, (k.2 _ lz id).2]

theorem vsize_keep {h0 : Heap ℝ} {z : Nat} (lz : h0.live (.v z)) : ∀ h : Heap ℝ, h.WF → Keeps h0 h (fun _ => False) →
    vsize (some (.v z)) h = .ok ((h0.size (.v z)).x, h) := by
  intro h _ k
  unfold vsize
  rw [bind_ok (show deref (Ref.asV (some (.v z))) h = .ok (.v z, h) from rfl), bind_ok (getSize_run _ _), (k.2 _ lz id).2]
  rfl

theorem onematnm_gv (n m : Nat) : Gv IsM h0 (onematnm (R := ℝ) n m) := by
  intro h w k
  have := Ev.fullM (h0 := h0) (s := ⟨m, n, 1⟩) (d := List.replicate (m * n) (0:ℝ)) rfl (by simp) (1 : ℝ)
  exact Ev.gvM this h w k

theorem fullnv_gv (n : Nat) (k : ℝ) : Gv IsV h0 (fullV (R := ℝ) n k) := by
  intro h w k'
  have := Ev.fullV (h0 := h0) (s := ⟨n, 1, 1⟩) (d := List.replicate n (0:ℝ)) rfl (by simp) k
  exact Ev.gvV this h w k'

theorem unV_wrong (f : ℝ → ℝ) {r : Ref} (p : IsM r ∨ IsNull r) (h : Heap ℝ) : unR f r.asV h = .ok (none, h) := by
  rcases p with ⟨o, rfl⟩ | rfl <;> rfl

theorem binV_wrong (f : ℝ → ℝ → ℝ) {r q : Ref} (p : (IsM r ∨ IsNull r) ∨ (IsM q ∨ IsNull q)) (h : Heap ℝ) :
    binR f r.asV q.asV h = .ok (none, h) := by
  rcases p with (⟨o, rfl⟩ | rfl) | (⟨o, rfl⟩ | rfl)
  · rfl
  · rfl
  · cases r.asV <;> rfl
  · cases r.asV <;> rfl

theorem subV_wrong {r q : Ref} (p : (IsM r ∨ IsNull r) ∨ (IsM q ∨ IsNull q)) (h : Heap ℝ) :
    subtractionnv r q h = .ok (none, h) := by
  unfold subtractionnv
  rcases p with (⟨o, rfl⟩ | rfl) | (⟨o, rfl⟩ | rfl)
  · rfl
  · rfl
  · cases r.asV <;> rfl
  · cases r.asV <;> rfl

theorem gridM_wrong (f : ℝ → ℝ → ℝ) {r q : Ref} (p : (IsV r ∨ IsNull r) ∨ (IsV q ∨ IsNull q)) (h : Heap ℝ) :
    gridR f r.asM q.asM h = .ok (none, h) := by
  rcases p with (⟨o, rfl⟩ | rfl) | (⟨o, rfl⟩ | rfl)
  · rfl
  · rfl
  · cases r.asM <;> rfl
  · cases r.asM <;> rfl

section
variable {z : Nat} (lz : h0.live (.m z))
include lz

theorem softplus_normm_gv : Gv IsNull h0 (softplus_normm (some (.m z))) := by
  refine Gv.step (msize_keep lz) ?_
  refine Gv.app1 (Gv.app1 (Gv.app2 (onematnm_gv _ _) (Gv.app1 (Gv.pure (P := IsM) ⟨z, rfl⟩) ?_) ?_) ?_) ?_
  · exact fun r p h => unV_wrong _ (.inl p) h
  · exact fun r q p _ h => binV_wrong _ (.inl (.inl p)) h
  · exact fun r p h => unV_wrong _ (.inr p) h
  · rintro r rfl h; rfl

theorem softsign_normm_gv : Gv IsNull h0 (softsign_normm (some (.m z))) := by
  refine Gv.step (msize_keep lz) ?_
  refine Gv.app2 (Gv.pure (P := IsM) ⟨z, rfl⟩) (Gv.app2 (onematnm_gv _ _)
    (Ev.gvM (Ev.app1 absnm_lifts (Ev.self lz))) ?_) ?_
  · exact fun r q p _ h => binV_wrong _ (.inl (.inl p)) h
  · exact fun r q _ p h => gridM_wrong _ (.inr (.inr p)) h

theorem softsign_derivm_gv (w : h0.WF) : Gv IsNull h0 (softsign_derivm (some (.m z))) := by
  refine Gv.step (msize_keep lz) ?_
  have hs : h0.size (.m z) = ⟨(h0.size (.m z)).x, (h0.size (.m z)).y, 1⟩ := by
    have := w.mat z
    rcases e : h0.size (.m z) with ⟨x, y, q⟩
    rw [e] at this; subst this; rfl
  have hd : (h0.buf (.m z)).length = (h0.size (.m z)).x * (h0.size (.m z)).y := by
    rw [w.len, hs, count_mat]
  refine Gv.app2 (onematnm_gv _ _) (Gv.app1 (Ev.gvM (Ev.app2 additionnm_lifts (Ev.fullM hs hd 1)
    (Ev.app1 absnm_lifts (Ev.self lz)))) ?_) ?_
  · exact fun r p h => unV_wrong _ (.inl p) h
  · exact fun r q _ p h => gridM_wrong _ (.inr (.inr p)) h

theorem swish_normm_gv : Gv IsNull h0 (swish_normm (some (.m z))) := by
  refine Gv.app1 (Gv.app2 (Gv.pure (P := IsM) ⟨z, rfl⟩) (Ev.gvM (Ev.app1 sigmoid_normm_lifts (Ev.self lz))) ?_) ?_
  · exact fun r q p _ h => binV_wrong _ (.inl (.inl p)) h
  · rintro r rfl h; rfl

theorem swish_derivm_gv : Gv IsNull h0 (swish_derivm (some (.m z))) := by
  have hs : Gv IsM h0 (app1 sigmoid_normm (pure (some (.m z)))) := Ev.gvM (Ev.app1 sigmoid_normm_lifts (Ev.self lz))
  have hn : Gv IsNull h0 (app1 swish_normm (pure (some (.m z)))) := fun h w k => by
    show Runs (swish_normm (some (.m z))) h _
    exact swish_normm_gv lz h w k
  refine Gv.app1 (Gv.app2 hn (Gv.app2 hs (Gv.app2 hs hn ?_) ?_) ?_) ?_
  · exact fun r q _ p h => gridM_wrong _ (.inr (.inr p)) h
  · exact fun r q p _ h => subV_wrong (.inl (.inl p)) h
  · exact fun r q p _ h => binV_wrong _ (.inl (.inr p)) h
  · rintro r rfl h; rfl

theorem artanh_derivm_gv : Gv IsNull h0 (artanh_derivm (some (.m z))) := by
  refine Gv.step (msize_keep lz) ?_
  refine Gv.app2 (onematnm_gv _ _) (Gv.app2 (onematnm_gv _ _)
    (Ev.gvM (Ev.app2 hadamard_productnm_lifts (Ev.self lz) (Ev.self lz))) ?_) ?_
  · exact fun r q p _ h => subV_wrong (.inl (.inl p)) h
  · exact fun r q _ p h => gridM_wrong _ (.inr (.inr p)) h

theorem mish_normm_ub {h : Heap ℝ} (w : h.WF) (k : Keeps h0 h (fun _ => False)) : mish_normm (some (.m z)) h = .ub := by
  refine (bind_ok (a := some (Loc.m z)) (h' := h) rfl).trans (bind_ub ?_)
  refine Gv.ub1 (h0 := h0) (P := IsNull) (fun h w k => ?_) ?_ w k
  · show Runs (softplus_normm (some (.m z))) h _
    exact softplus_normm_gv lz h w k
  · rintro r rfl h; rfl

theorem mish_derivm_ub {h : Heap ℝ} (w : h.WF) (k : Keeps h0 h (fun _ => False)) : mish_derivm (some (.m z)) h = .ub := by
  refine bind_ub (bind_ub (bind_ub (bind_ub (bind_ub ?_))))
  refine Gv.ub1 (h0 := h0) (P := IsNull) (fun h w k => ?_) ?_ w k
  · show Runs (softplus_normm (some (.m z))) h _
    exact softplus_normm_gv lz h w k
  · rintro r rfl h; rfl
end

theorem arcsch_derivv_gv {z : Nat} (lz : h0.live (.v z)) (w : h0.WF) : Gv IsNull h0 (arcsch_derivv (some (.v z))) := by
  refine Gv.step (vsize_keep lz) ?_
  have hv := w.vec z
  have hs : h0.size (.v z) = ⟨(h0.size (.v z)).x, 1, 1⟩ := by
    rcases e : h0.size (.v z) with ⟨x, y, q⟩
    rw [e] at hv; obtain ⟨rfl, rfl⟩ := hv; rfl
  have hd : (h0.buf (.v z)).length = (h0.size (.v z)).x := by rw [w.len, hs, count_vec]
  have one := Ev.fullV (h0 := h0) hs hd (1 : ℝ)
  have zz := Ev.app2 hadamard_productnv_lifts (Ev.self lz) (Ev.self lz)
  refine Gv.app2 (fullnv_gv _ _) (Gv.app2 (Ev.gvV zz) (Ev.gvV (Ev.app1 sqrtnv_lifts (Ev.app2 additionnv_lifts one
    (Ev.app2 division_element_wisenv_lifts one zz)))) ?_) ?_
  · exact fun r q p _ h => gridM_wrong _ (.inl (.inl p)) h
  · exact fun r q _ p h => binV_wrong _ (.inr (.inr p)) h

end Verif.Activation
