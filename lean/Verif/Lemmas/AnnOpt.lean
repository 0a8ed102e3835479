import Verif.Lemmas.AnnTrain
import Verif.Spec.AnnOpt
import Verif.Props.LinAlgElementwise

/-! # The adaptive training methods of networks -/

namespace Verif
open Spec Finset

namespace Ann
open LinAlg (mapL zipL)
variable {n k : Nat} {τ : Type}

/-! ## Lists of matrices

All matrices of a calculation are functions of the same matrices `T` of what is known at the start. -/

theorem HasL.keep {h h' : Heap ℝ} {S : Loc → Prop} (K : Keeps h h' S) {f : τ → ℝ} {rs : List Ref} {L : List (HidS τ)} (F : HasL h f rs L)
    (hS : ∀ l, S l → ∃ (m : Nat) (v : Fin m → ℝ), HasV h (some l) v) : HasL h' f rs L :=
  List.Forall₂.imp (fun _ _ a => HasM.keep a K fun l e hl => by
    obtain ⟨m, v, hv⟩ := hS l hl
    exact hv.ne_mat a e.symm) F

theorem HasL.adv {h h' : Heap ℝ} (K : Keeps h h' (fun _ => False)) {f : τ → ℝ} {rs : List Ref} {L : List (HidS τ)} (F : HasL h f rs L) : HasL h' f rs L :=
  F.keep K fun _ => False.elim

theorem HasL.off {h h' : Heap ℝ} {c : Ref} {m : Nat} {v : Fin m → ℝ} (F' : HasV h c v) (K : Keeps h h' (some · = c)) {f : τ → ℝ} {rs : List Ref}
    {L : List (HidS τ)} (F : HasL h f rs L) : HasL h' f rs L :=
  F.keep K fun l e => ⟨m, v, e ▸ F'⟩

/-- The call makes new matrices, `f` of those of the list. -/
def ReturnsL (c : M ℝ (List Ref)) (h : Heap ℝ) (f : τ → ℝ) (L : List (HidS τ)) : Prop :=
  Runs c h fun qs h' => h'.WF ∧ Keeps h h' (fun _ => False) ∧ HasL h' f qs L ∧ ∀ q ∈ qs, NotIn h q

theorem stepL {β : Type} {c : M ℝ (List Ref)} {h : Heap ℝ} {f : τ → ℝ} {L : List (HidS τ)} {k : List Ref → M ℝ β} {Q : β → Heap ℝ → Prop}
    (r : ReturnsL c h f L) (next : ∀ qs h1, h1.WF → Keeps h h1 (fun _ => False) → (∀ q ∈ qs, NotIn h q) → HasL h1 f qs L → Runs (k qs) h1 Q) :
    Runs (c >>= k) h Q :=
  Runs.bind (r.mono fun qs h1 ⟨w, K, F, N⟩ => next qs h1 w K N F)

theorem ReturnsL.congr {c : M ℝ (List Ref)} {h : Heap ℝ} {f f' : τ → ℝ} {L : List (HidS τ)} (r : ReturnsL c h f L) (e : ∀ t, f t = f' t) :
    ReturnsL c h f' L := by rw [← funext e]; exact r

theorem mapL_run {φ : ℝ → ℝ} {op : Ref → M ℝ Ref} (l : Lifts Loc.m φ op) {f : τ → ℝ} : ∀ {rs : List Ref} {L : List (HidS τ)} {h : Heap ℝ}, h.WF → HasL h f rs L →
    ReturnsL (mapL op rs) h (fun t => φ (f t)) L
  | _, _, h, w, .nil => Runs.of_eq rfl ⟨w, Keeps.refl _ _, .nil, by simp⟩
  | _, _, h, w, .cons (a := r) (b := A) a as => by
    unfold ReturnsL mapL
    refine Verif.stepM (Hd.lifts_mat l w (show HasM h r fun i j => f (A.2.2 i j) from a)) fun q h1 w1 k1 f1 uq => ?_
    refine Runs.bind ((mapL_run l w1 (HasL.adv k1 as)).mono fun qs h2 ⟨w2, k2, F2, N2⟩ => ?_)
    refine Runs.of_eq rfl ⟨w2, k1.trans k2, .cons (uq.keep k2 fun _ _ => id) F2, fun q hq => ?_⟩
    rcases List.mem_cons.1 hq with rfl | hq
    · exact f1
    · exact (N2 q hq).mono k1

theorem lifts2_mat {φ : ℝ → ℝ → ℝ} {op : Ref → Ref → M ℝ Ref} (l : Lifts2 Loc.m φ op) {h : Heap ℝ} (w : h.WF) {p q : Nat} {a b : Ref}
    {A B : Matrix (Fin p) (Fin q) ℝ} (ha : HasM h a A) (hb : HasM h b B) : ReturnsMat (op a b) h fun i j => φ (A i j) (B i j) := by
  obtain ⟨x, rfl, lx, hx⟩ := ha; obtain ⟨y, rfl, ly, hy⟩ := hb
  exact l.mat w hx hy lx ly

theorem zipL_run {φ : ℝ → ℝ → ℝ} {op : Ref → Ref → M ℝ Ref} (l : Lifts2 Loc.m φ op) {f f' : τ → ℝ} : ∀ {rs rs' : List Ref} {L : List (HidS τ)} {h : Heap ℝ}, h.WF →
    HasL h f rs L → HasL h f' rs' L → ReturnsL (zipL op rs rs') h (fun t => φ (f t) (f' t)) L
  | _, _, _, h, w, .nil, .nil => Runs.of_eq rfl ⟨w, Keeps.refl _ _, .nil, by simp⟩
  | _, _, _, h, w, .cons (a := r) (b := A) a as, .cons (a := r') b bs => by
    unfold ReturnsL zipL
    refine Verif.stepM (lifts2_mat l w (show HasM h r fun i j => f (A.2.2 i j) from a) (show HasM h r' fun i j => f' (A.2.2 i j) from b)) fun q h1 w1 k1 f1 uq => ?_
    refine Runs.bind ((zipL_run l w1 (HasL.adv k1 as) (HasL.adv k1 bs)).mono fun qs h2 ⟨w2, k2, F2, N2⟩ => ?_)
    refine Runs.of_eq rfl ⟨w2, k1.trans k2, .cons (uq.keep k2 fun _ _ => id) F2, fun q hq => ?_⟩
    rcases List.mem_cons.1 hq with rfl | hq
    · exact f1
    · exact (N2 q hq).mono k1

section ops
variable {h : Heap ℝ} {f f' : τ → ℝ} {rs rs' : List Ref} {L : List (HidS τ)}

theorem scale_L (w : h.WF) (c : ℝ) (a : HasL h f rs L) : ReturnsL (LinAlg.scalar_multiplynvt c rs) h (fun t => c * f t) L :=
  (mapL_run (Activation.scalar_multiplynm_lifts c) w a).congr fun _ => mul_comm _ _
theorem shift_L (w : h.WF) (c : ℝ) (a : HasL h f rs L) : ReturnsL (LinAlg.scalar_addnvt c rs) h (fun t => f t + c) L :=
  mapL_run (Activation.scalar_addnm_lifts c) w a
theorem sqrt_L (w : h.WF) (a : HasL h f rs L) : ReturnsL (LinAlg.sqrtnvt rs) h (fun t => Real.sqrt (f t)) L := mapL_run Activation.sqrtnm_lifts w a
theorem square_L (w : h.WF) (a : HasL h f rs L) : ReturnsL (LinAlg.exponentiatenvt rs 2) h (fun t => f t ^ 2) L :=
  (mapL_run (LinAlg.unM_lifts fun x : ℝ => MathFns.pow x 2) w a).congr fun _ => Real.rpow_two _
theorem add_L (w : h.WF) (a : HasL h f rs L) (b : HasL h f' rs' L) : ReturnsL (LinAlg.additionnvt rs rs') h (fun t => f t + f' t) L :=
  zipL_run Activation.additionnm_lifts w a b
theorem div_L (w : h.WF) (a : HasL h f rs L) (b : HasL h f' rs' L) : ReturnsL (LinAlg.division_element_wisenvnvt rs rs') h (fun t => f t / f' t) L :=
  zipL_run Activation.division_element_wisenvnm_lifts w a b
theorem max_L (w : h.WF) (a : HasL h f rs L) (b : HasL h f' rs' L) : ReturnsL (LinAlg.maxnvt rs rs') h (fun t => max (f t) (f' t)) L :=
  (zipL_run C50_maxnm_partial w a b).congr fun _ => maxC_eq _ _

theorem ratio_L {c e : ℝ} (w : h.WF) (a : HasL h f rs L) (b : HasL h f' rs' L) :
    ReturnsL (ratioHidden c e rs rs') h (fun t => c * (f t / (Real.sqrt (f' t) + e))) L := by
  unfold ratioHidden ReturnsL
  refine stepL (sqrt_L w b) fun q1 h1 w1 k1 n1 u1 => ?_
  refine stepL (shift_L w1 e u1) fun q2 h2 w2 k2 n2 u2 => ?_
  refine stepL (div_L w2 ((a.adv k1).adv k2) u2) fun q3 h3 w3 k3 n3 u3 => ?_
  refine (scale_L w3 c u3).mono fun qs h4 ⟨w4, k4, F4, N4⟩ => ?_
  have K := (k1.trans k2).trans k3
  exact ⟨w4, K.trans k4, F4, fun q hq => (N4 q hq).mono K⟩

theorem first_L {b1 : ℝ} (w : h.WF) (a : HasL h f rs L) (b : HasL h f' rs' L) :
    ReturnsL (firstHidden b1 rs rs') h (fun t => b1 * f t + (1 - b1) * f' t) L := by
  unfold firstHidden ReturnsL
  refine stepL (scale_L w b1 a) fun q1 h1 w1 k1 n1 u1 => ?_
  refine stepL (scale_L w1 (1 - b1) (b.adv k1)) fun q2 h2 w2 k2 n2 u2 => ?_
  refine (add_L w2 (u1.adv k2) u2).mono fun qs h4 ⟨w4, k4, F4, N4⟩ => ?_
  exact ⟨w4, (k1.trans k2).trans k4, F4, fun q hq => (N4 q hq).mono (k1.trans k2)⟩

theorem second_L {b2 : ℝ} (w : h.WF) (a : HasL h f rs L) (b : HasL h f' rs' L) :
    ReturnsL (secondHidden b2 rs rs') h (fun t => b2 * f t + (1 - b2) * f' t ^ 2) L := by
  unfold secondHidden ReturnsL
  refine stepL (scale_L w b2 a) fun q1 h1 w1 k1 n1 u1 => ?_
  refine stepL (square_L w1 (b.adv k1)) fun q2 h2 w2 k2 n2 u2 => ?_
  refine stepL (scale_L w2 (1 - b2) u2) fun q3 h3 w3 k3 n3 u3 => ?_
  refine (add_L w3 ((u1.adv k2).adv k3) u3).mono fun qs h4 ⟨w4, k4, F4, N4⟩ => ?_
  have K := (k1.trans k2).trans k3
  exact ⟨w4, K.trans k4, F4, fun q hq => (N4 q hq).mono K⟩

end ops

open Lean Elab Tactic Meta in
/-- Moves the facts about lists of matrices to the new heap; `k : Keeps h h' (fun _ => False)`. -/
elab "advL " k:ident : tactic => do
  let g ← getMainGoal
  g.withContext do
    let kE ← elabTerm k none
    let kT ← instantiateMVars (← inferType kE)
    unless kT.isAppOf ``Spec.Keeps do throwError "not Keeps"
    let h := kT.getAppArgs[1]!
    let ctx ← getLCtx
    let mut g := g
    let mut olds : Array FVarId := #[]
    for d in ctx do
      if d.isImplementationDetail then continue
      let t := (← instantiateMVars d.type).consumeMData
      if t.isAppOf ``Ann.HasL && t.getAppArgs[1]! == h then
        let p ← mkAppM ``Ann.HasL.adv #[kE, d.toExpr]
        let g' ← g.assert d.userName (← inferType p) p
        let (_, g'') ← g'.intro1P
        g := g''
        olds := olds.push d.fvarId
    for f in olds.reverse do
      g ← try g.clear f catch _ => pure g
    replaceMainGoal [g]

open Lean Elab Tactic Meta in
/-- Moves the facts about lists of matrices to the new heap; `v : HasV h c x` and `k : Keeps h h' (some · = c)`. -/
elab "wrL " v:ident k:ident : tactic => do
  let g ← getMainGoal
  g.withContext do
    let kE ← elabTerm k none
    let vE ← elabTerm v none
    let kT ← instantiateMVars (← inferType kE)
    unless kT.isAppOf ``Spec.Keeps do throwError "not Keeps"
    let h := kT.getAppArgs[1]!
    let ctx ← getLCtx
    let mut g := g
    let mut olds : Array FVarId := #[]
    for d in ctx do
      if d.isImplementationDetail then continue
      let t := (← instantiateMVars d.type).consumeMData
      if t.isAppOf ``Ann.HasL && t.getAppArgs[1]! == h then
        let p ← mkAppM ``Ann.HasL.off #[vE, kE, d.toExpr]
        let g' ← g.assert d.userName (← inferType p) p
        let (_, g'') ← g'.intro1P
        g := g''
        olds := olds.push d.fvarId
    for f in olds.reverse do
      g ← try g.clear f catch _ => pure g
    replaceMainGoal [g]

/-! ## The layers of a network as a list -/

theorem hidList_length : ∀ (us : List Lay) {k : Nat} (A : Hid τ k us), (hidList us A).length = us.length
  | [], _, _ => rfl
  | _ :: us, _, A => by simp [hidList, hidList_length us A.2]

/-- The same matrices, described by other data. -/
theorem forall2_zip {α β γ : Type} {f : γ → ℝ} {g : α → β → γ} {h : Heap ℝ} : ∀ (us : List Lay) {k : Nat} (A : Hid α k us) (B : Hid β k us) (rs : List Ref),
    List.Forall₂ (HasE h f) rs (hidList us (zipH g us A B)) ↔ List.Forall₂ (HasE h fun p : α × β => f (g p.1 p.2)) rs (hidList us (zipH Prod.mk us A B))
  | [], _, _, _, rs => by simp [hidList]
  | u :: us, k, A, B, rs => by
    cases rs with
    | nil => simp [hidList]
    | cons r rs =>
      simp only [hidList, zipH, List.forall₂_cons]
      exact and_congr Iff.rfl (forall2_zip us A.2 B.2 rs)

theorem hasH_zip {α β γ : Type} {f : γ → ℝ} {g : α → β → γ} {h : Heap ℝ} (us : List Lay) {A : Hid α k us} {B : Hid β k us} {rs : List Ref} :
    HasH h f us rs (zipH g us A B) ↔ HasH h (fun p : α × β => f (g p.1 p.2)) us rs (zipH Prod.mk us A B) := by
  unfold HasH HasL
  rw [← List.forall₂_reverse_iff, List.reverse_reverse, ← List.forall₂_reverse_iff (l₂ := (hidList us (zipH Prod.mk us A B)).reverse), List.reverse_reverse]
  exact forall2_zip us A B _

theorem forall2_fst {α β : Type} {f : α → ℝ} {h : Heap ℝ} : ∀ (us : List Lay) {k : Nat} (A : Hid α k us) (B : Hid β k us) (rs : List Ref),
    List.Forall₂ (HasE h f) rs (hidList us A) ↔ List.Forall₂ (HasE h fun p : α × β => f p.1) rs (hidList us (zipH Prod.mk us A B))
  | [], _, _, _, rs => by simp [hidList]
  | u :: us, k, A, B, rs => by
    cases rs with
    | nil => simp [hidList]
    | cons r rs =>
      simp only [hidList, zipH, List.forall₂_cons]
      exact and_congr Iff.rfl (forall2_fst us A.2 B.2 rs)

theorem forall2_snd {α β : Type} {f : β → ℝ} {h : Heap ℝ} : ∀ (us : List Lay) {k : Nat} (A : Hid α k us) (B : Hid β k us) (rs : List Ref),
    List.Forall₂ (HasE h f) rs (hidList us B) ↔ List.Forall₂ (HasE h fun p : α × β => f p.2) rs (hidList us (zipH Prod.mk us A B))
  | [], _, _, _, rs => by simp [hidList]
  | u :: us, k, A, B, rs => by
    cases rs with
    | nil => simp [hidList]
    | cons r rs =>
      simp only [hidList, zipH, List.forall₂_cons]
      exact and_congr Iff.rfl (forall2_snd us A.2 B.2 rs)

theorem hasH_fst {α β : Type} {f : α → ℝ} {h : Heap ℝ} (us : List Lay) {A : Hid α k us} (B : Hid β k us) {rs : List Ref} :
    HasH h f us rs A ↔ HasH h (fun p : α × β => f p.1) us rs (zipH Prod.mk us A B) := by
  unfold HasH HasL
  rw [← List.forall₂_reverse_iff, List.reverse_reverse, ← List.forall₂_reverse_iff (l₂ := (hidList us (zipH Prod.mk us A B)).reverse), List.reverse_reverse]
  exact forall2_fst us A B _

theorem hasH_snd {α β : Type} {f : β → ℝ} {h : Heap ℝ} (us : List Lay) (A : Hid α k us) {B : Hid β k us} {rs : List Ref} :
    HasH h f us rs B ↔ HasH h (fun p : α × β => f p.2) us rs (zipH Prod.mk us A B) := by
  unfold HasH HasL
  rw [← List.forall₂_reverse_iff, List.reverse_reverse, ← List.forall₂_reverse_iff (l₂ := (hidList us (zipH Prod.mk us A B)).reverse), List.reverse_reverse]
  exact forall2_snd us A B _

theorem hidList_grads : ∀ (us : List Lay) {k : Nat} (G : Hiddens k us), hidList us (weightsH us G) = gradList us G
  | [], _, _ => rfl
  | _ :: us, _, G => by
    show _ :: hidList us (weightsH us G.2) = _ :: gradList us G.2
    rw [hidList_grads us]
    rfl

theorem hasH_grads {h : Heap ℝ} {us : List Lay} {G : Hiddens k us} {gs : List Ref} (F : List.Forall₂ (HasS h) gs (gradList us G).reverse) :
    HasH h id us gs (weightsH us G) := by
  unfold HasH HasL
  rw [hidList_grads]
  exact F

/-! ## Moments that are not initialised -/

theorem sameSize_run {h : Heap ℝ} (w : h.WF) {r : Ref} {p q : Nat} {A : Matrix (Fin p) (Fin q) ℝ} (ha : HasM h r A) :
    Runs (LinAlg.sameSize r) h fun r' h' => h'.WF ∧ Keeps h h' (fun _ => False) ∧ NotIn h r' ∧ ∃ B : Matrix (Fin p) (Fin q) ℝ, HasM h' r' B := by
  obtain ⟨a, rfl, la, ia⟩ := ha
  unfold LinAlg.sameSize
  refine stepM0 w fun o h1 B w1 k1 f1 u1 => ?_
  have a1 : HasM h1 (some (.m a)) A := HasM.keep ⟨a, rfl, la, ia⟩ k1 fun _ _ => id
  refine Runs.step (show derefM (some (Loc.m a)) h1 = .ok (a, h1) from rfl) ?_
  have e : Mat.size a h1 = .ok (⟨q, p, 1⟩, h1) := Hd.sizem_run a1
  refine Runs.step e ?_
  refine Runs.congr ?_ (Runs.bind (k := fun _ => pure (some (Loc.m o))) ((Hd.resizem_run w1 u1 p q).mono fun _ h2 ⟨w2, k2, C, c2⟩ =>
    Runs.of_eq rfl ⟨w2, k1.wr_new k2 f1, f1, C, c2⟩))
  rfl

/-- Matrices of the same sizes. -/
def SameShape {σ τ : Type} : List (HidS σ) → List (HidS τ) → Prop := List.Forall₂ fun A B => A.1 = B.1 ∧ A.2.1 = B.2.1

theorem resizevt_list {f : τ → ℝ} : ∀ {rs : List Ref} {L : List (HidS τ)} {h : Heap ℝ}, h.WF → HasL h f rs L →
    Runs (LinAlg.resizevt rs) h fun qs h' => h'.WF ∧ Keeps h h' (fun _ => False) ∧ (∀ q ∈ qs, NotIn h q) ∧ ∃ L' : List (HidS ℝ), SameShape L L' ∧ HasL h' id qs L'
  | _, _, h, w, .nil => Runs.of_eq rfl ⟨w, Keeps.refl _ _, by simp, [], .nil, .nil⟩
  | _, _, h, w, .cons (a := r) (b := A) a as => by
    unfold LinAlg.resizevt LinAlg.mapL
    refine Runs.bind ((sameSize_run w (show HasM h r fun i j => f (A.2.2 i j) from a)).mono fun q h1 ⟨w1, k1, f1, B, uq⟩ => ?_)
    refine Runs.bind ((resizevt_list w1 (HasL.adv k1 as)).mono fun qs h2 ⟨w2, k2, N2, L', S2, F2⟩ => ?_)
    refine Runs.of_eq rfl ⟨w2, k1.trans k2, fun q' hq => ?_, ⟨_, _, B⟩ :: L', .cons ⟨rfl, rfl⟩ S2, .cons (uq.keep k2 fun _ _ => id) F2⟩
    rcases List.mem_cons.1 hq with rfl | hq
    · exact f1
    · exact (N2 q' hq).mono k1

theorem shape_hid : ∀ (us : List Lay) {k : Nat} {T : Hid τ k us} {L : List (HidS ℝ)}, SameShape (hidList us T) L → ∃ A : Hid ℝ k us, hidList us A = L
  | [], _, _, _, .nil => ⟨(), rfl⟩
  | u :: us, k, T, _, .cons (b := B) e es => by
    obtain ⟨A, hA⟩ := shape_hid us es
    obtain ⟨p, q, B⟩ := B
    obtain ⟨rfl, rfl⟩ := e
    exact ⟨(B, A), by rw [← hA]; rfl⟩

theorem resizevt_run {f : τ → ℝ} {us : List Lay} {T : Hid τ k us} {rs : List Ref} {h : Heap ℝ} (w : h.WF) (F : HasH h f us rs T) :
    Runs (LinAlg.resizevt rs) h fun qs h' => h'.WF ∧ Keeps h h' (fun _ => False) ∧ (∀ q ∈ qs, NotIn h q) ∧ ∃ A : Hid ℝ k us, HasH h' id us qs A :=
  (resizevt_list w F).mono fun qs h' ⟨a, b, c, L, S, H⟩ => by
    obtain ⟨A, hA⟩ := shape_hid us (T := T) (L := L.reverse) (by
      have := List.rel_reverse S
      rwa [List.reverse_reverse] at this)
    refine ⟨a, b, c, A, ?_⟩
    unfold HasH
    rw [hA, List.reverse_reverse]
    exact H

end Ann
end Verif
