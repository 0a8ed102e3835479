import Verif.Spec.Handle
import Verif.Model.Handle
import Verif.Lemmas.VecSpec
import Verif.Lemmas.Advance
import Verif.Lemmas.RowCells
import Verif.Props.CostReg
import Verif.Props.StatMoments

/-! # Method calls through handles -/

namespace Verif
open Spec
variable {R : Type} {m n p : Nat} {h h' : Heap R}

theorem Spec.HasV.keep {r : Ref} {v : Fin n → R} (a : HasV h r v) {S : Loc → Prop} (k : Keeps h h' S) (hS : ∀ l, r = some l → ¬ S l) :
    HasV h' r v := by
  obtain ⟨o, rfl, l, i⟩ := a
  exact ⟨o, rfl, k.live l, i.keep k l (hS _ rfl)⟩

theorem Spec.HasM.keep {r : Ref} {A : Matrix (Fin m) (Fin n) R} (a : HasM h r A) {S : Loc → Prop} (k : Keeps h h' S)
    (hS : ∀ l, r = some l → ¬ S l) : HasM h' r A := by
  obtain ⟨o, rfl, l, i⟩ := a
  exact ⟨o, rfl, k.live l, i.keep k l (hS _ rfl)⟩

theorem adv_hasv {r : Ref} {v : Fin n → R} (k : Keeps h h' (fun _ => False)) (a : HasV h r v) : HasV h' r v := a.keep k fun _ _ => nofun
theorem adv_hasm {r : Ref} {A : Matrix (Fin m) (Fin n) R} (k : Keeps h h' (fun _ => False)) (a : HasM h r A) : HasM h' r A :=
  a.keep k fun _ _ => nofun

open Lean Elab Tactic Meta in
/-- The same as `advance`, for facts about handles. -/
elab "advance_h " k:ident : tactic => do
  let g ← getMainGoal
  g.withContext do
    let kE ← elabTerm k none
    let kT ← instantiateMVars (← inferType kE)
    unless kT.isAppOf ``Spec.Keeps do throwError "not Keeps"
    let h := kT.getAppArgs[1]!
    let ctx ← getLCtx
    let mut todo : Array (LocalDecl × Name) := #[]
    for d in ctx do
      if d.isImplementationDetail then continue
      let t := (← instantiateMVars d.type).consumeMData
      let args := t.getAppArgs
      if t.isAppOf ``Spec.HasV then
        if args[2]! == h then todo := todo.push (d, ``adv_hasv)
      else if t.isAppOf ``Spec.HasM then
        if args[3]! == h then todo := todo.push (d, ``adv_hasm)
    let mut g := g
    let mut olds : Array FVarId := #[]
    for (d, nm) in todo do
      let p ← mkAppM nm #[kE, d.toExpr]
      let g' ← g.assert d.userName (← inferType p) p
      let (_, g'') ← g'.intro1P
      g := g''
      olds := olds.push d.fvarId
    for f in olds.reverse do
      g ← try g.clear f catch _ => pure g
    replaceMainGoal [g]

/-- Moves every fact about the old heap to the new one. -/
macro "adv " k:ident : tactic => `(tactic| (advance $k; advance_h $k))

theorem Spec.NotIn.ne {r q : Ref} (a : NotIn h r) {v : Fin n → R} (b : HasV h q v) : r ≠ q := by
  obtain ⟨o, rfl, l, -⟩ := b
  intro e
  exact a _ e l

theorem Spec.NotIn.mono {r : Ref} {S : Loc → Prop} (k : Keeps h h' S) (a : NotIn h' r) : NotIn h r := fun l e hl => a l e (k.live hl)

theorem stepV {β : Type} {c : M R Ref} {v : Fin n → R} {f : Ref → M R β} {Q : β → Heap R → Prop} (r : ReturnsVec c h v)
    (next : ∀ r h', h'.WF → Keeps h h' (fun _ => False) → NotIn h r → HasV h' r v → Runs (f r) h' Q) : Runs (c >>= f) h Q :=
  r.bind fun o h1 w1 k1 f1 l1 a1 => next _ h1 w1 k1 (fun l e => by cases e; exact f1) ⟨o, rfl, l1, a1⟩

theorem stepM {β : Type} {c : M R Ref} {A : Matrix (Fin m) (Fin n) R} {f : Ref → M R β} {Q : β → Heap R → Prop} (r : ReturnsMat c h A)
    (next : ∀ r h', h'.WF → Keeps h h' (fun _ => False) → NotIn h r → HasM h' r A → Runs (f r) h' Q) : Runs (c >>= f) h Q :=
  r.bind fun o h1 w1 k1 f1 l1 a1 => next _ h1 w1 k1 (fun l e => by cases e; exact f1) ⟨o, rfl, l1, a1⟩

/-- A call that returns a vector, in terms of the handle. -/
theorem Spec.ReturnsVec.has {c : M R Ref} {v : Fin n → R} (r : ReturnsVec c h v) :
    Runs c h fun r h' => h'.WF ∧ Keeps h h' (fun _ => False) ∧ NotIn h r ∧ HasV h' r v :=
  r.mono fun _ _ ⟨o, e, f, l, w, k, a⟩ => ⟨w, k, fun l' e' => by rw [e] at e'; cases e'; exact f, o, e, l, a⟩

theorem Spec.ReturnsVec.of_has {c : M R Ref} {v : Fin n → R}
    (r : Runs c h fun r h' => h'.WF ∧ Keeps h h' (fun _ => False) ∧ NotIn h r ∧ HasV h' r v) : ReturnsVec c h v :=
  r.mono fun _ _ ⟨w, k, f, o, e, l, a⟩ => ⟨o, e, f _ e, l, w, k, a⟩

theorem Spec.ReturnsMat.of_has {c : M R Ref} {A : Matrix (Fin m) (Fin n) R}
    (r : Runs c h fun r h' => h'.WF ∧ Keeps h h' (fun _ => False) ∧ NotIn h r ∧ HasM h' r A) : ReturnsMat c h A :=
  r.mono fun _ _ ⟨w, k, f, o, e, l, a⟩ => ⟨o, e, f _ e, l, w, k, a⟩

theorem Spec.ReturnsMat.has {c : M R Ref} {A : Matrix (Fin m) (Fin n) R} (r : ReturnsMat c h A) :
    Runs c h fun r h' => h'.WF ∧ Keeps h h' (fun _ => False) ∧ NotIn h r ∧ HasM h' r A :=
  r.mono fun _ _ ⟨o, e, f, l, w, k, a⟩ => ⟨w, k, fun l' e' => by rw [e] at e'; cases e'; exact f, o, e, l, a⟩

theorem Spec.HasV.off {h h' : Heap ℝ} {n : Nat} {r q : Ref} {v : Fin n → ℝ} (a : HasV h r v) (k : Keeps h h' (some · = q)) (ne : r ≠ q) :
    HasV h' r v := a.keep k fun _ e e' => ne (e.trans e')

theorem Spec.HasM.off {h h' : Heap ℝ} {m n p : Nat} {r q : Ref} {A : Matrix (Fin m) (Fin n) ℝ} (a : HasM h r A) (k : Keeps h h' (some · = q))
    {v : Fin p → ℝ} {h1 : Heap ℝ} (hq : HasV h1 q v) : HasM h' r A := by
  refine a.keep k fun l e e' => ?_
  obtain ⟨x, rfl, -, -⟩ := a
  obtain ⟨y, rfl, -, -⟩ := hq
  cases e; cases e'

namespace Hd
variable {h : Heap ℝ} {a b : Ref} {u v : Fin n → ℝ}

theorem addn_spec (w : h.WF) (ha : HasV h a u) (hb : HasV h b v) : ReturnsVec (addn a b) h (fun i => u i + v i) := by
  obtain ⟨x, rfl, l, i⟩ := ha; obtain ⟨y, rfl, l', i'⟩ := hb
  exact Vec.bin_spec (· + ·) w i i' l l'
theorem subn_spec (w : h.WF) (ha : HasV h a u) (hb : HasV h b v) : ReturnsVec (subn a b) h (fun i => u i - v i) := by
  obtain ⟨x, rfl, l, i⟩ := ha; obtain ⟨y, rfl, l', i'⟩ := hb
  exact Vec.bin_spec (· - ·) w i i' l l'
theorem hadamard_productn_spec (w : h.WF) (ha : HasV h a u) (hb : HasV h b v) :
    ReturnsVec (hadamard_productn a b) h (fun i => u i * v i) := by
  obtain ⟨x, rfl, l, i⟩ := ha; obtain ⟨y, rfl, l', i'⟩ := hb
  exact Vec.bin_spec (· * ·) w i i' l l'
theorem division_element_wisen_spec (w : h.WF) (ha : HasV h a u) (hb : HasV h b v) :
    ReturnsVec (division_element_wisen a b) h (fun i => u i / v i) := by
  obtain ⟨x, rfl, l, i⟩ := ha; obtain ⟨y, rfl, l', i'⟩ := hb
  exact Vec.bin_spec (· / ·) w i i' l l'
theorem maxn_spec (w : h.WF) (ha : HasV h a u) (hb : HasV h b v) : ReturnsVec (maxn a b) h (fun i => max (u i) (v i)) := by
  obtain ⟨x, rfl, l, i⟩ := ha; obtain ⟨y, rfl, l', i'⟩ := hb
  have := Vec.bin_spec maxC w i i' l l'
  simp only [maxC_eq] at this
  exact this
theorem scalar_multiplyn_spec (w : h.WF) (ha : HasV h a u) (k : ℝ) : ReturnsVec (scalar_multiplyn a k) h (fun i => u i * k) := by
  obtain ⟨x, rfl, l, i⟩ := ha
  exact Vec.un_spec (· * k) w i l
theorem scalar_addn_spec (w : h.WF) (ha : HasV h a u) (k : ℝ) : ReturnsVec (scalar_addn a k) h (fun i => u i + k) := by
  obtain ⟨x, rfl, l, i⟩ := ha
  exact Vec.un_spec (· + k) w i l
theorem sqrtn_spec (w : h.WF) (ha : HasV h a u) : ReturnsVec (sqrtn a) h (fun i => Real.sqrt (u i)) := by
  obtain ⟨x, rfl, l, i⟩ := ha
  exact Vec.un_spec MathFns.sqrt w i l
theorem absn_spec (w : h.WF) (ha : HasV h a u) : ReturnsVec (absn a) h (fun i => |u i|) := by
  obtain ⟨x, rfl, l, i⟩ := ha
  have := Vec.un_spec absC w i l
  simp only [absC_eq] at this
  exact this
theorem exponentiaten_spec (w : h.WF) (ha : HasV h a u) (k : ℝ) : ReturnsVec (exponentiaten a k) h (fun i => u i ^ k) := by
  obtain ⟨x, rfl, l, i⟩ := ha
  exact Vec.un_spec (MathFns.pow · k) w i l

theorem sub_run (w : h.WF) (ha : HasV h a u) (hb : HasV h b v) :
    Runs (sub a b) h fun _ h' => h'.WF ∧ Keeps h h' (some · = a) ∧ HasV h' a (fun i => u i - v i) := by
  obtain ⟨x, rfl, l, i⟩ := ha; obtain ⟨y, rfl, l', i'⟩ := hb
  refine (Vec.binIn_spec (· - ·) w i i').mono fun _ h' q => ?_
  have k : Keeps h h' (some · = some (Loc.v x)) := q.2.1.mono fun _ _ e => congrArg some e
  exact ⟨q.1, k, x, rfl, k.live l, q.2.2⟩
theorem add_run (w : h.WF) (ha : HasV h a u) (hb : HasV h b v) :
    Runs (add a b) h fun _ h' => h'.WF ∧ Keeps h h' (some · = a) ∧ HasV h' a (fun i => u i + v i) := by
  obtain ⟨x, rfl, l, i⟩ := ha; obtain ⟨y, rfl, l', i'⟩ := hb
  refine (Vec.binIn_spec (· + ·) w i i').mono fun _ h' q => ?_
  have k : Keeps h h' (some · = some (Loc.v x)) := q.2.1.mono fun _ _ e => congrArg some e
  exact ⟨q.1, k, x, rfl, k.live l, q.2.2⟩

theorem sum_elements_run (w : h.WF) (ha : HasV h a u) : sum_elements a h = .ok (∑ i, u i, h) := by
  obtain ⟨x, rfl, l, i⟩ := ha
  have e : sum_elements (some (.v x)) h = _ := Vec.sum_elements_run w x
  obtain ⟨F, eF, c⟩ := i.cells w
  rw [e, c.2, SortArray.tab, List.foldl_map, foldl_range_sum, Finset.sum_range]
  simp only [eF]
theorem dot_run (w : h.WF) (ha : HasV h a u) (hb : HasV h b v) : dot a b h = .ok (∑ i, u i * v i, h) := by
  obtain ⟨x, rfl, l, i⟩ := ha; obtain ⟨y, rfl, l', i'⟩ := hb
  obtain ⟨F, eF, c⟩ := i.cells w
  obtain ⟨G, eG, c'⟩ := i'.cells w
  have e : dot (some (.v x)) (some (.v y)) h = _ := Vec.dot_sum w c c'
  rw [e, Finset.sum_range]
  simp only [eF, eG]
theorem size_run (ha : HasV h a u) : size a h = .ok (n, h) := by
  obtain ⟨x, rfl, l, i⟩ := ha
  show Vec.size x h = _
  unfold Vec.size
  rw [bind_ok (getSize_run _ _), i.1]
  rfl

variable {A : Matrix (Fin m) (Fin n) ℝ}

theorem transposen_spec (w : h.WF) (ha : HasM h a A) : ReturnsMat (transposen a) h A.transpose := by
  obtain ⟨x, rfl, l, i⟩ := ha
  exact Mat.transposen_spec w i l
theorem multn_spec (w : h.WF) (ha : HasM h a A) {B : Matrix (Fin n) (Fin p) ℝ} (hb : HasM h b B) : ReturnsMat (multn a b) h (A * B) := by
  obtain ⟨x, rfl, l, i⟩ := ha; obtain ⟨y, rfl, l', i'⟩ := hb
  exact Mat.multn_spec w i i' l l'
theorem mult_vec_spec (w : h.WF) (ha : HasM h a A) (hb : HasV h b v) : ReturnsVec (mult_vec a b) h (A.mulVec v) := by
  obtain ⟨x, rfl, l, i⟩ := ha; obtain ⟨y, rfl, l', i'⟩ := hb
  exact Mat.mult_vec_spec w i i' l l'
theorem inverse_spec (w : h.WF) (hn : 2 ≤ n) {A : Matrix (Fin n) (Fin n) ℝ} (ha : HasM h a A) : ReturnsMat (inverse a) h A⁻¹ := by
  obtain ⟨x, rfl, l, i⟩ := ha
  exact Mat.inverse_spec powNegOne_real w hn i l
theorem scalar_multiplynm_spec (w : h.WF) (ha : HasM h a A) (k : ℝ) : ReturnsMat (scalar_multiplynm a k) h (A.map (· * k)) := by
  obtain ⟨x, rfl, l, i⟩ := ha
  exact Mat.scalar_multiplyn_spec w i l k
theorem sizem_run (ha : HasM h a A) : sizem a h = .ok (⟨n, m, 1⟩, h) := by
  obtain ⟨x, rfl, l, i⟩ := ha
  show Mat.size x h = _
  rw [Mat.size_run, i.1]

theorem _root_.Verif.Mat.bin_spec {R : Type} {h : Heap R} (f : R → R → R) (w : h.WF) {a b : Nat} {A B : Matrix (Fin m) (Fin n) R}
    (hu : IsMat h a A) (hv : IsMat h b B) (la : h.live (.m a)) (lb : h.live (.m b)) :
    ReturnsMat (binN f (.m a) (some (.m b))) h (Matrix.of fun i j => f (A i j) (B i j)) := by
  obtain ⟨F, eF, cu⟩ := hu.cells w
  obtain ⟨G, eG, cv⟩ := hv.cells w
  obtain ⟨h', e, c⟩ := binN_run f (.m a) (.m b) h (w.len _) (w.len _) (by rw [cu.1, cv.1]) la lb
  rw [cu.1, cu.2, cv.2, show List.zipWith f (SortArray.tab (n * m) (flat n F)) (SortArray.tab (n * m) (flat n G)) =
    SortArray.tab (n * m) (flat n fun i j => f (F i j) (G i j)) by apply List.ext_getElem <;> simp [SortArray.tab, flat]] at c
  exact created_returnsMat w e c (fun i j => by rw [Matrix.of_apply, eF, eG])

theorem addnm_spec (w : h.WF) {A B : Matrix (Fin m) (Fin n) ℝ} (ha : HasM h a A) (hb : HasM h b B) : ReturnsMat (addnm a b) h (A + B) := by
  obtain ⟨x, rfl, l, i⟩ := ha; obtain ⟨y, rfl, l', i'⟩ := hb
  exact Mat.bin_spec (· + ·) w i i' l l'

theorem element_get_run (w : h.WF) (ha : HasV h a u) (i : Fin n) : element_get a (i : Nat) h = .ok (u i, h) := by
  obtain ⟨x, rfl, l, q⟩ := ha
  obtain ⟨f, ef, c⟩ := q.cells w
  show Vec.element_get x (i : Nat) h = _
  rw [Vec.get_cells w c i.isLt, ef]

theorem element_set_run (w : h.WF) (ha : HasV h a u) (i : Fin n) (x : ℝ) :
    Runs (element_set a (i : Nat) x) h fun _ h' => h'.WF ∧ Keeps h h' (some · = a) ∧ HasV h' a (Function.update u i x) := by
  obtain ⟨y, rfl, l, q⟩ := ha
  obtain ⟨f, ef, c⟩ := q.cells w
  refine (Vec.set_cells w c i.isLt x).mono fun _ h' ⟨w', k, _, c'⟩ => ?_
  refine ⟨w', k.mono fun _ _ q => congrArg some q, y, rfl, k.live l, c'.isVec fun j => ?_⟩
  simp [SortArray.upd, Function.update_apply, Fin.ext_iff, ef]

theorem row_get_into_run (w : h.WF) {A : Matrix (Fin m) (Fin n) ℝ} {p : Nat} {v : Fin p → ℝ} (ha : HasM h a A) (hb : HasV h b v) (i : Fin m) :
    Runs (row_get_into a (i : Nat) b) h fun _ h' => h'.WF ∧ Keeps h h' (some · = b) ∧ HasV h' b (A i) := by
  obtain ⟨x, rfl, l, q⟩ := ha; obtain ⟨y, rfl, l', q'⟩ := hb
  obtain ⟨F, ef, c⟩ := q.cells w
  obtain ⟨h', e, u⟩ := Mat.rowGet_run (v := y) w c i.isLt
  exact Runs.of_eq e ⟨u.wf w, u.keeps.mono fun _ _ q => congrArg some q, y, rfl, u.keeps.live l', u.cells.isVec fun j => ef i j⟩

end Hd
end Verif
