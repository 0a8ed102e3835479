import Verif.Lemmas.MatrixInv

/-!
# Moving facts to the next heap

`advance k`, for `k : Keeps h h' (fun _ => False)`, replaces every local hypothesis about `h` (contents of an object, liveness,
`Keeps h0 h`) by the same one about `h'`.
-/

namespace Verif
open Spec
variable {R : Type} {m n : Nat} {h h' h'' : Heap R}

theorem adv_mat {o : Nat} {A : Matrix (Fin m) (Fin n) R} (k : Keeps h h' (fun _ => False)) (l : h.live (.m o))
    (a : IsMat h o A) : IsMat h' o A := a.keep k l nofun
theorem adv_vec {o : Nat} {v : Fin n → R} (k : Keeps h h' (fun _ => False)) (l : h.live (.v o)) (a : IsVec h o v) :
    IsVec h' o v := a.keep k l nofun
theorem adv_cells {o : Loc} {c r : Nat} {F : Nat → Nat → R} (k : Keeps h h' (fun _ => False)) (l : h.live o)
    (a : Cells h o c r F) : Cells h' o c r F := a.keep k l nofun
theorem adv_vcells {o : Loc} {c : Nat} {F : Nat → R} (k : Keeps h h' (fun _ => False)) (l : h.live o)
    (a : VCells h o c F) : VCells h' o c F := a.keep k l nofun
theorem adv_keeps (k : Keeps h h' (fun _ => False)) (a : Keeps h'' h (fun _ => False)) : Keeps h'' h' (fun _ => False) := a.trans k
theorem adv_live {l : Loc} (k : Keeps h h' (fun _ => False)) (a : h.live l) : h'.live l := k.live a

open Lean Elab Tactic Meta in
/-- See the module comment. -/
elab "advance " k:ident : tactic => do
  let g ← getMainGoal
  g.withContext do
    let kE ← elabTerm k none
    let kT ← instantiateMVars (← inferType kE)
    unless kT.isAppOf ``Spec.Keeps do throwError "not Keeps"
    let h := kT.getAppArgs[1]!
    let ctx ← getLCtx
    let mut lives : Array Expr := #[]
    let mut todo : Array (LocalDecl × Name) := #[]
    for d in ctx do
      if d.isImplementationDetail then continue
      let t ← instantiateMVars d.type
      let t := t.consumeMData
      let args := t.getAppArgs
      let chk (i : Nat) (nm : Name) (acc : Array (LocalDecl × Name)) : Array (LocalDecl × Name) :=
        if args[i]! == h then acc.push (d, nm) else acc
      if t.isAppOf ``Heap.live then
        if args[1]! == h then lives := lives.push d.toExpr
        todo := chk 1 ``adv_live todo
      else if t.isAppOf ``Spec.IsMat then todo := chk 3 ``adv_mat todo
      else if t.isAppOf ``Spec.IsVec then todo := chk 2 ``adv_vec todo
      else if t.isAppOf ``Cells then todo := chk 1 ``adv_cells todo
      else if t.isAppOf ``VCells then todo := chk 1 ``adv_vcells todo
      else if t.isAppOf ``Spec.Keeps then
        if args[2]! == h then todo := todo.push (d, ``adv_keeps)
    let mut g := g
    let mut olds : Array FVarId := #[]
    for (d, nm) in todo do
      let mk : MetaM (Option Expr) := do
        if nm == ``adv_live || nm == ``adv_keeps then
          try return some (← mkAppM nm #[kE, d.toExpr]) catch _ => return none
        else
          for l in lives do
            try return some (← mkAppM nm #[kE, l, d.toExpr]) catch _ => pure ()
          return none
      if let some p ← mk then
        let g' ← g.assert d.userName (← inferType p) p
        let (_, g'') ← g'.intro1P
        g := g''
        olds := olds.push d.fvarId
    for f in olds.reverse do
      g ← try g.clear f catch _ => pure g
    replaceMainGoal [g]

/-- The end of a composed computation. -/
theorem Spec.ReturnsMat.from {c : M R Ref} {h0 : Heap R} {A : Matrix (Fin m) (Fin n) R} (r : ReturnsMat c h A)
    (k : Keeps h0 h (fun _ => False)) : Runs c h fun r h' => ∃ o, r = some (.m o) ∧ ¬ h0.live (.m o) ∧ h'.live (.m o) ∧ h'.WF ∧
    Keeps h0 h' (fun _ => False) ∧ IsMat h' o A :=
  k.returnsMat r fun o' _ f3 l3 w3 k3 hA3 => ⟨o', rfl, f3, l3, w3, k3, hA3⟩
theorem Spec.ReturnsVec.from {c : M R Ref} {h0 : Heap R} {A : Fin n → R} (r : ReturnsVec c h A)
    (k : Keeps h0 h (fun _ => False)) : Runs c h fun r h' => ∃ o, r = some (.v o) ∧ ¬ h0.live (.v o) ∧ h'.live (.v o) ∧ h'.WF ∧
    Keeps h0 h' (fun _ => False) ∧ IsVec h' o A :=
  k.returnsVec r fun o' _ f3 l3 w3 k3 hA3 => ⟨o', rfl, f3, l3, w3, k3, hA3⟩
theorem Spec.ReturnsVal.from {α : Type} {c : M R α} {h0 : Heap R} {x : α} (r : ReturnsVal c h x)
    (k : Keeps h0 h (fun _ => False)) : Runs c h fun r h' => r = x ∧ h'.WF ∧ Keeps h0 h' (fun _ => False) :=
  Runs.mono r fun _ _ ⟨e, w, k'⟩ => ⟨e, w, k.trans k'⟩

example {o : Nat} {A : Matrix (Fin m) (Fin n) R} (k : Keeps h h' (fun _ => False)) (l : h.live (.m o))
    (a : IsMat h o A) : IsMat h' o A ∧ h'.live (.m o) := by
  advance k
  exact ⟨a, l⟩
end Verif
