import Verif.Lemmas.SoftmaxReg

/-! # Tactics that carry facts about objects from heap to heap -/

namespace Verif
open Spec

open Lean Elab Tactic Meta in
/-- `fresh f` with `f : NotIn h r`: the new object `r` is none of the objects of the context. -/
elab "fresh " k:ident : tactic => do
  let g ← getMainGoal
  g.withContext do
    let kE ← elabTerm k none
    let kT ← instantiateMVars (← inferType kE)
    unless kT.isAppOf ``Spec.NotIn do throwError "not NotIn"
    let h := kT.getAppArgs[1]!
    let ctx ← getLCtx
    let mut seen : Array Expr := #[]
    let mut g := g
    for d in ctx do
      if d.isImplementationDetail then continue
      let t := (← instantiateMVars d.type).consumeMData
      let args := t.getAppArgs
      let (nm, q) ← (if t.isAppOf ``Spec.HasV && args[2]! == h then pure (``Spec.NotIn.ne, some args[3]!)
        else if t.isAppOf ``Spec.HasM && args[3]! == h then pure (``Spec.NotIn.ne_mat, some args[4]!) else pure (``Spec.NotIn.ne, none))
      if let some q := q then
        unless seen.contains q do
          seen := seen.push q
          let p ← mkAppM nm #[kE, d.toExpr]
          let g' ← g.assert `ne (← inferType p) p
          let (_, g'') ← g'.intro1
          g := g''
    replaceMainGoal [g]

theorem Spec.HasV.off2 {h h' : Heap ℝ} {n : Nat} {r p q : Ref} {v : Fin n → ℝ} (a : HasV h r v)
    (k : Keeps h h' fun l => some l = p ∨ some l = q) (n1 : r ≠ p) (n2 : r ≠ q) : HasV h' r v :=
  a.keep k fun _ e e' => e'.elim (fun x => n1 (e.trans x)) fun x => n2 (e.trans x)

theorem Spec.HasM.off2 {h h' : Heap ℝ} {m n : Nat} {r p q : Ref} {A : Matrix (Fin m) (Fin n) ℝ} (a : HasM h r A)
    (k : Keeps h h' fun l => some l = p ∨ some l = q) (n1 : r ≠ p) (n2 : r ≠ q) : HasM h' r A :=
  a.keep k fun _ e e' => e'.elim (fun x => n1 (e.trans x)) fun x => n2 (e.trans x)

open Lean Elab Tactic Meta in
/-- `wr k` with `k : Keeps h h' (some · = q)` or `k : Keeps h h' (fun l => some l = p ∨ some l = q)`: moves the facts about the other objects to
the new heap. -/
elab "wr " k:ident : tactic => do
  let g ← getMainGoal
  g.withContext do
    let kE ← elabTerm k none
    let kT ← instantiateMVars (← inferType kE)
    unless kT.isAppOf ``Spec.Keeps do throwError "not Keeps"
    let h := kT.getAppArgs[1]!
    let S := kT.getAppArgs[3]!
    let qs ← lambdaTelescope S fun _ b => do
      match b.eq? with
      | some (_, _, q) => pure [q]
      | none => match b.app2? ``Or with
        | some (x, y) => match x.eq?, y.eq? with
          | some (_, _, p), some (_, _, q) => pure [p, q]
          | _, _ => throwError "not of the form some · = q"
        | none => throwError "not of the form some · = q"
    let ctx ← getLCtx
    let has (t : Expr) : Option (Bool × Expr × Expr) :=
      let args := t.getAppArgs
      if t.isAppOf ``Spec.HasV then some (true, args[2]!, args[3]!)
      else if t.isAppOf ``Spec.HasM then some (false, args[3]!, args[4]!) else none
    -- the reasons why `r`, of which `d` speaks, is not `q`
    let findNe (isV : Bool) (fact r q : Expr) : MetaM (Option Expr) := do
      for d in ctx do
        if d.isImplementationDetail then continue
        let t := (← instantiateMVars d.type).consumeMData
        let ne := match t.ne? with
          | some (_, a, b) => some (a, b)
          | none => match t.not? with
            | some e => e.eq?.map fun (_, a, b) => (a, b)
            | none => none
        if let some (a, b) := ne then
          if a == r && b == q then return some d.toExpr
          if a == q && b == r then return some (← mkAppM ``Ne.symm #[d.toExpr])
        if let some (isV', _, q') := has t then
          if q' == q then
            if isV && !isV' then return some (← mkAppM ``Spec.HasV.ne_mat #[fact, d.toExpr])
            if !isV && isV' then return some (← mkAppM ``Ne.symm #[← mkAppM ``Spec.HasV.ne_mat #[d.toExpr, fact]])
      return none
    let mut todo : Array (LocalDecl × Expr) := #[]
    let mut dead : Array FVarId := #[]
    for d in ctx do
      if d.isImplementationDetail then continue
      let t := (← instantiateMVars d.type).consumeMData
      if let some (isV, h0, r) := has t then
        if h0 == h then
          if qs.contains r then dead := dead.push d.fvarId
          else
            let nes ← qs.mapM fun q => findNe isV d.toExpr r q
            match nes with
            | [some e] =>
              todo := todo.push (d, ← mkAppM (if isV then ``Spec.HasV.off else ``Spec.HasM.offm) #[d.toExpr, kE, e])
            | [some e, some f] =>
              todo := todo.push (d, ← mkAppM (if isV then ``Spec.HasV.off2 else ``Spec.HasM.off2) #[d.toExpr, kE, e, f])
            | _ => logInfo m!"lost: {d.toExpr} : {t}"
    let mut g := g
    let mut olds : Array FVarId := dead
    for (d, p) in todo do
      let g' ← g.assert d.userName (← inferType p) p
      let (_, g'') ← g'.intro1P
      g := g''
      olds := olds.push d.fvarId
    for f in olds.reverse do
      g ← try g.clear f catch _ => pure g
    replaceMainGoal [g]

/-- `nw f k`: a new object has been made. -/
macro "nw " f:ident k:ident : tactic => `(tactic| (fresh $f; adv $k))

theorem stepM0 {β : Type} {h : Heap ℝ} (w : h.WF) {c : Loc → M ℝ β} {Q : β → Heap ℝ → Prop}
    (next : ∀ (o : Nat) (h1 : Heap ℝ) (A : Matrix (Fin 0) (Fin 0) ℝ), h1.WF → Keeps h h1 (fun _ => False) → NotIn h (some (.m o)) →
      HasM h1 (some (.m o)) A → Runs (c (.m o)) h1 Q) : Runs (newMat >>= c) h Q := by
  refine Runs.newM w fun h1 w1 k1 f1 l1 s1 => ?_
  obtain ⟨f, hf⟩ := exists_Cells w1 s1
  exact next h.next h1 (fun i j => f i j) w1 k1 (fun l e => by cases e; exact f1) ⟨_, rfl, l1, hf.isMat fun _ _ => rfl⟩

theorem stepV0 {β : Type} {h : Heap ℝ} (w : h.WF) {c : Loc → M ℝ β} {Q : β → Heap ℝ → Prop}
    (next : ∀ (o : Nat) (h1 : Heap ℝ) (v : Fin 0 → ℝ), h1.WF → Keeps h h1 (fun _ => False) → NotIn h (some (.v o)) →
      HasV h1 (some (.v o)) v → Runs (c (.v o)) h1 Q) : Runs (newVec >>= c) h Q := by
  refine Runs.newV w fun h1 w1 k1 f1 l1 s1 => ?_
  obtain ⟨f, hf⟩ := exists_VCells w1 s1
  exact next h.next h1 (fun i => f i) w1 k1 (fun l e => by cases e; exact f1) ⟨_, rfl, l1, hf.isVec fun _ => rfl⟩

/-- An object made after `h` may be written. -/
theorem Spec.Keeps.wr_new {h h' h'' : Heap ℝ} {q : Ref} (k : Keeps h h' (fun _ => False)) (k' : Keeps h' h'' (some · = q)) (f : NotIn h q) :
    Keeps h h'' (fun _ => False) := k.trans_new k' fun l e hl => f l e.symm hl

end Verif
