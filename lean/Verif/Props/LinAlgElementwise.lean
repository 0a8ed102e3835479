import Verif.Lemmas.LiftSpec
import Verif.Lemmas.Lift
import Verif.Lemmas.Example
import Mathlib.Data.Real.Basic

/-!
# C50: the element-wise functions of `MLPPLinAlg`

For an element type with arbitrary operations, without laws.
-/

namespace Verif
open Spec LinAlg
variable {R : Type}

/-! ## Wrong operands -/

theorem binM_rejects (f : R → R → R) : Rejects2 (R := R) Loc.m fun a b => binR f a.asM b.asM := by
  rintro h a b (q | ⟨i, j, rfl, rfl, q⟩)
  · match a, b with
    | some (.m i), some (.m j) => exact absurd ⟨i, j, rfl, rfl⟩ q
    | none, _ | some (.v _), _ | some (.t _), _ => rfl
    | some (.m _), none | some (.m _), some (.v _) | some (.m _), some (.t _) => rfl
  · show binN f (.m i) (some (.m j)) h = _
    unfold binN
    dsimp only
    rw [bind_ok (getSize_run _ _), bind_ok (getSize_run _ _), if_neg q]; rfl

theorem binV_rejects (f : R → R → R) : Rejects2 (R := R) Loc.v fun a b => binR f a.asV b.asV := by
  rintro h a b (q | ⟨i, j, rfl, rfl, q⟩)
  · match a, b with
    | some (.v i), some (.v j) => exact absurd ⟨i, j, rfl, rfl⟩ q
    | none, _ | some (.m _), _ | some (.t _), _ => rfl
    | some (.v _), none | some (.v _), some (.m _) | some (.v _), some (.t _) => rfl
  · show binN f (.v i) (some (.v j)) h = _
    unfold binN
    dsimp only
    rw [bind_ok (getSize_run _ _), bind_ok (getSize_run _ _), if_neg q]; rfl

theorem gridM_rejects (f : R → R → R) : Rejects2 (R := R) Loc.m fun a b => gridR f a.asM b.asM := by
  rintro h a b (q | ⟨i, j, rfl, rfl, q⟩)
  · match a, b with
    | some (.m i), some (.m j) => exact absurd ⟨i, j, rfl, rfl⟩ q
    | none, _ | some (.v _), _ | some (.t _), _ => rfl
    | some (.m _), none | some (.m _), some (.v _) | some (.m _), some (.t _) => rfl
  · show gridR f (some (.m i)) (some (.m j)) h = _
    unfold gridR
    dsimp only
    rw [bind_ok (getSize_run _ _), bind_ok (getSize_run _ _), if_neg q]; rfl

theorem subV_rejects [Sub R] : Rejects2 (R := R) Loc.v subtractionnv := by
  rintro h a b (q | ⟨i, j, rfl, rfl, q⟩)
  · match a, b with
    | some (.v i), some (.v j) => exact absurd ⟨i, j, rfl, rfl⟩ q
    | none, _ | some (.m _), _ | some (.t _), _ => rfl
    | some (.v _), none | some (.v _), some (.m _) | some (.v _), some (.t _) => rfl
  · show (do
        let s ← getSize (.v i)
        let sb ← getSize (.v j)
        if s = sb then do
          let out ← newVec
          if s.count = 0 then pure (some out) else do
            resizeTo out s
            binLoop (· - ·) (.v i) (.v j) out s.count
            pure (some out)
        else pure none : M R Ref) h = _
    rw [bind_ok (getSize_run _ _), bind_ok (getSize_run _ _), if_neg q]; rfl

theorem unM_rejects (f : R → R) : Rejects1 (R := R) Loc.m fun a => unR f a.asM := by
  intro h a q
  match a with
  | some (.m i) => exact absurd ⟨i, rfl⟩ q
  | none | some (.v _) | some (.t _) => rfl

theorem unV_rejects (f : R → R) : Rejects1 (R := R) Loc.v fun a => unR f a.asV := by
  intro h a q
  match a with
  | some (.v i) => exact absurd ⟨i, rfl⟩ q
  | none | some (.m _) | some (.t _) => rfl

/-! ## The functions -/

/-- **C50.** Two-operand functions on matrices: sum, difference, product, quotient of each pair of cells, in a new matrix;
null for a null operand or operands of different shape. -/
theorem C50_matrix2 [Add R] [Sub R] [Mul R] [Div R] :
    (Lifts2 Loc.m (fun x y : R => x + y) additionnm ∧ Rejects2 (R := R) Loc.m additionnm) ∧
    (Lifts2 Loc.m (fun x y : R => x - y) subtractionnm ∧ Rejects2 (R := R) Loc.m subtractionnm) ∧
    (Lifts2 Loc.m (fun x y : R => x * y) hadamard_productnm ∧ Rejects2 (R := R) Loc.m hadamard_productnm) ∧
    (Lifts2 Loc.m (fun x y : R => x / y) division_element_wisenvnm ∧ Rejects2 (R := R) Loc.m division_element_wisenvnm) :=
  ⟨⟨binM_lifts _, binM_rejects _⟩, ⟨binM_lifts _, binM_rejects _⟩, ⟨gridM_lifts _, gridM_rejects _⟩, ⟨gridM_lifts _, gridM_rejects _⟩⟩

/-- **C50.** The same on vectors. -/
theorem C50_vector2 [Add R] [Sub R] [Mul R] [Div R] :
    (Lifts2 Loc.v (fun x y : R => x + y) additionnv ∧ Rejects2 (R := R) Loc.v additionnv) ∧
    (Lifts2 Loc.v (fun x y : R => x - y) subtractionnv ∧ Rejects2 (R := R) Loc.v subtractionnv) ∧
    (Lifts2 Loc.v (fun x y : R => x * y) hadamard_productnv ∧ Rejects2 (R := R) Loc.v hadamard_productnv) ∧
    (Lifts2 Loc.v (fun x y : R => x / y) division_element_wisenv ∧ Rejects2 (R := R) Loc.v division_element_wisenv) :=
  ⟨⟨binV_lifts _, binV_rejects _⟩, ⟨subV_lifts, subV_rejects⟩, ⟨binV_lifts _, binV_rejects _⟩, ⟨binV_lifts _, binV_rejects _⟩⟩

/-- **C50.** One-operand functions on matrices; null for null. -/
theorem C50_matrix1 [MathFns R] [LT R] [DecidableLT R] [Neg R] [Zero R] (p : R) :
    (Lifts Loc.m MathFns.log (lognm (R := R)) ∧ Rejects1 (R := R) Loc.m lognm) ∧
    (Lifts Loc.m MathFns.log10 (log10nm (R := R)) ∧ Rejects1 (R := R) Loc.m log10nm) ∧
    (Lifts Loc.m MathFns.exp (expnm (R := R)) ∧ Rejects1 (R := R) Loc.m expnm) ∧
    (Lifts Loc.m MathFns.erf (erfnm (R := R)) ∧ Rejects1 (R := R) Loc.m erfnm) ∧
    (Lifts Loc.m MathFns.sqrt (sqrtnm (R := R)) ∧ Rejects1 (R := R) Loc.m sqrtnm) ∧
    (Lifts Loc.m MathFns.sin (sinnm (R := R)) ∧ Rejects1 (R := R) Loc.m sinnm) ∧
    (Lifts Loc.m MathFns.cos (cosnm (R := R)) ∧ Rejects1 (R := R) Loc.m cosnm) ∧
    (Lifts Loc.m absC (absnm (R := R)) ∧ Rejects1 (R := R) Loc.m absnm) ∧
    (Lifts Loc.m (fun x => MathFns.pow x p) (exponentiatenm p) ∧ Rejects1 Loc.m (exponentiatenm p)) := by
  refine ⟨⟨?_, ?_⟩, ⟨?_, ?_⟩, ⟨?_, ?_⟩, ⟨?_, ?_⟩, ⟨?_, ?_⟩, ⟨?_, ?_⟩, ⟨?_, ?_⟩, ⟨?_, ?_⟩, ⟨?_, ?_⟩⟩ <;>
    first | exact unM_lifts _ | exact unM_rejects _

/-- **C50.** One-operand functions on vectors; null for null. -/
theorem C50_vector1 [MathFns R] [LT R] [DecidableLT R] [Neg R] [Zero R] [Add R] [Mul R] (p : R) :
    (Lifts Loc.v MathFns.log (lognv (R := R)) ∧ Rejects1 (R := R) Loc.v lognv) ∧
    (Lifts Loc.v MathFns.log10 (log10nv (R := R)) ∧ Rejects1 (R := R) Loc.v log10nv) ∧
    (Lifts Loc.v MathFns.exp (expnv (R := R)) ∧ Rejects1 (R := R) Loc.v expnv) ∧
    (Lifts Loc.v MathFns.erf (erfnv (R := R)) ∧ Rejects1 (R := R) Loc.v erfnv) ∧
    (Lifts Loc.v MathFns.sqrt (sqrtnv (R := R)) ∧ Rejects1 (R := R) Loc.v sqrtnv) ∧
    (Lifts Loc.v MathFns.sin (sinnv (R := R)) ∧ Rejects1 (R := R) Loc.v sinnv) ∧
    (Lifts Loc.v MathFns.cos (cosnv (R := R)) ∧ Rejects1 (R := R) Loc.v cosnv) ∧
    (Lifts Loc.v absC (absv (R := R)) ∧ Rejects1 (R := R) Loc.v absv) ∧
    (Lifts Loc.v (fun x => MathFns.pow x p) (exponentiatenv p) ∧ Rejects1 Loc.v (exponentiatenv p)) ∧
    (Lifts Loc.v (fun x => x * p) (scalar_multiplynv p) ∧ Rejects1 Loc.v (scalar_multiplynv p)) ∧
    (Lifts Loc.v (fun x => x + p) (scalar_addnv p) ∧ Rejects1 Loc.v (scalar_addnv p)) := by
  refine ⟨⟨?_, ?_⟩, ⟨?_, ?_⟩, ⟨?_, ?_⟩, ⟨?_, ?_⟩, ⟨?_, ?_⟩, ⟨?_, ?_⟩, ⟨?_, ?_⟩, ⟨?_, ?_⟩, ⟨?_, ?_⟩, ⟨?_, ?_⟩, ⟨?_, ?_⟩⟩ <;>
    first | exact unV_lifts _ | exact unV_rejects _

/-- **C50** (part). `scalar_multiplynm`, `scalar_addnm` on matrices. Missing: rejection of null, below. -/
theorem C50_scalar_matrix_partial [Add R] [Mul R] (k : R) :
    Lifts Loc.m (fun x => x * k) (scalar_multiplynm k) ∧ Lifts Loc.m (fun x => x + k) (scalar_addnm k) :=
  ⟨dupM_lifts _, dupM_lifts _⟩

/-- `scalar_multiplynm` and `scalar_addnm` dereference a null operand. -/
theorem C50_scalar_matrix_null_fails [Add R] [Mul R] (k : R) (h : Heap R) :
    scalar_multiplynm k none h = .ub ∧ scalar_addnm k none h = .ub := ⟨rfl, rfl⟩

/-- **C50.** `maxnvv` takes the larger of each pair; bad operands give a new empty vector. -/
theorem C50_maxnvv [LT R] [DecidableLT R] : Lifts2 (R := R) Loc.v maxC maxnvv := by
  intro h w a b l1 l2 hs
  have := binN_lifts kindV maxC h w a b l1 l2 hs
  unfold ReturnsNew at this ⊢
  refine Runs.congr ?_ this
  show (do
    let ret ← newVec
    let s ← getSize (.v a)
    let sb ← getSize (.v b)
    if s = sb then do
      resizeTo ret s
      binLoop maxC (.v a) (.v b) ret s.count
      pure (some ret)
    else pure (some ret) : M R Ref) h = _
  unfold binN
  dsimp only
  rw [bind_ok (getSize_run _ _), bind_ok (getSize_run _ _), if_pos hs]
  have e := newVec_size (h := h) l1 fun o s => (do
    let sb ← getSize (.v b)
    if s = sb then do
      resizeTo o s
      binLoop maxC (.v a) (.v b) o s.count
      pure (some o)
    else pure (some o) : M R Ref)
  rw [e, bind_ok (show newVec h = .ok (_, _) from rfl), bind_ok (getSize_run _ _), if_pos]
  · rfl
  · rw [hs]; simp [setSize_size, live_ne_fresh l2 (show (Loc.v h.next).id = h.next from rfl)]

/-- **C50** (part). `maxnm` takes the larger of each pair of cells of matrices of equal shape. Missing: other shapes. -/
theorem C50_maxnm_partial [LT R] [DecidableLT R] : Lifts2 (R := R) Loc.m maxC maxnm := by
  intro h w a b l1 l2 hs
  have := binN_lifts kindM maxC h w a b l1 l2 hs
  unfold ReturnsNew at this ⊢
  refine Runs.congr ?_ this
  show (do
    let out ← newMat
    let s ← getSize (.m a)
    resizeTo out s
    let b ← deref (some (.m b))
    binLoop maxC (.m a) b out s.count
    pure (some out) : M R Ref) h = _
  rw [newMat_size (h := h) l1 fun o s => (do
    resizeTo o s
    let b ← deref (some (.m b))
    binLoop maxC (.m a) b o s.count
    pure (some o) : M R Ref)]
  unfold binN
  dsimp only
  rw [bind_ok (getSize_run _ _), bind_ok (getSize_run _ _), if_pos hs]
  rfl

/-- `maxnm` checks no shapes: with a one-cell left operand and an empty right operand it reads out of bounds. -/
theorem C50_maxnm_fails : (maxnm (some (.m 0)) (some (.m 1)) (Heap.ofLists (0 : Int) [] [(1, 1, [5]), (0, 0, [])])).isUb = true := by
  decide +kernel

/-- **C50.** `zeromatnm(n, m)`, `onematnm(n, m)`, `fullnm(n, m, k)`: a new `n` by `m` matrix of that constant. -/
theorem C50_full_matrix {h : Heap R} (w : h.WF) (n m : Nat) (k : R) :
    ReturnsMat (fullM ⟨m, n, 1⟩ k) h (fun (_ : Fin n) (_ : Fin m) => k) := by
  unfold fullM
  refine Runs.newMat w rfl ?_
  intro h1 w1 k1 f1 l1 s1
  refine Runs.fill w1 s1 ?_
  exact returnsMat_Gr w1 k1 f1 l1 s1 fun _ _ => rfl

theorem C50_constants {h : Heap ℝ} (w : h.WF) (n m : Nat) (k : Int) :
    ReturnsMat (zeromatnm n m) h (fun (_ : Fin n) (_ : Fin m) => 0) ∧
    ReturnsMat (onematnm n m) h (fun (_ : Fin n) (_ : Fin m) => 1) ∧
    ReturnsMat (fullnm n m k) h (fun (_ : Fin n) (_ : Fin m) => k) ∧
    ReturnsVec (zerovecnv n) h (fun _ : Fin n => 0) ∧ ReturnsVec (onevecnv n) h (fun _ : Fin n => 1) ∧
    ReturnsVec (fullnv n k) h (fun _ : Fin n => k) := by
  have v : ∀ k : ℝ, ReturnsVec (fullV n k) h (fun _ : Fin n => k) := by
    intro k
    unfold fullV
    refine Runs.newVec w ⟨rfl, rfl⟩ ?_
    intro h1 w1 k1 f1 l1 s1
    refine Runs.fillV w1 s1 ?_
    exact returnsVec_St w1 k1 f1 l1 s1 fun _ => rfl
  exact ⟨C50_full_matrix w _ _ _, C50_full_matrix w _ _ _, C50_full_matrix w _ _ _, v _, v _, v _⟩

/-! ## Results in a given vector -/

/-- **C50.** `additionv(a, b, out)`, `subtractionv`, `hadamard_productv` make `out` (which may be `a` or `b`) hold the
element-wise result. -/
theorem C50_into2 [Add R] [Sub R] [Mul R] {h : Heap R} (w : h.WF) {n a b o : Nat} {u v : Fin n → R} (hu : IsVec h a u) (hv : IsVec h b v) :
    SetsVec (additionv (some a) (some b) (some o)) h o (fun i => u i + v i) ∧
    SetsVec (subtractionv (some a) (some b) (some o)) h o (fun i => u i - v i) ∧
    SetsVec (hadamard_productv (some a) (some b) (some o)) h o (fun i => u i * v i) := by
  obtain ⟨f, ef, cf⟩ := hu.cells w
  obtain ⟨g, eg, cg⟩ := hv.cells w
  have key : ∀ p : R → R → R, SetsVec (binB p (.v o) (some (.v a)) (some (.v b))) h o (fun i => p (u i) (v i)) := by
    intro p
    obtain ⟨h', e, up⟩ := binB_run p (.v o) (.v a) (.v b) h (w.len _) (w.len _) (w.len _) (by rw [hu.1, hv.1])
    rw [cf.1, cf.2, cg.2, SortArray.tab, SortArray.tab, List.zipWith_map, List.zipWith_self] at up
    exact updated_setsVec w e up fun i => by rw [ef, eg]
  exact ⟨key _, key _, key _⟩

/-- **C50.** `scalar_multiplyv(k, a, out)` and `scalar_addv(k, a, out)`. -/
theorem C50_into1 [Add R] [Mul R] {h : Heap R} (w : h.WF) {n a o : Nat} {u : Fin n → R} (hu : IsVec h a u) (k : R) :
    SetsVec (scalar_multiplyv k (some a) (some o)) h o (fun i => u i * k) ∧
    SetsVec (scalar_addv k (some a) (some o)) h o (fun i => u i + k) := by
  obtain ⟨f, ef, cf⟩ := hu.cells w
  have key : ∀ p : R → R, SetsVec (unBC p (.v o) (some (.v a))) h o (fun i => p (u i)) := by
    intro p
    obtain ⟨h', e, up⟩ := unBC_run p (.v o) (.v a) h (w.len _) (w.len _)
    rw [cf.1, cf.2, SortArray.tab, List.map_map] at up
    exact updated_setsVec w e up fun i => by rw [ef]; rfl
  exact ⟨key _, key _⟩

/-- **C50.** A null operand or output, or operands of different lengths, change nothing. -/
theorem C50_into_rejects [Add R] [Sub R] [Mul R] (h : Heap R) (a b o : Option Nat) (k : R) :
    (a = none ∨ b = none ∨ o = none ∨ (∃ i j, a = some i ∧ b = some j ∧ h.size (.v i) ≠ h.size (.v j)) →
      additionv a b o h = .ok ((), h) ∧ subtractionv a b o h = .ok ((), h) ∧ hadamard_productv a b o h = .ok ((), h)) ∧
    (a = none ∨ o = none → scalar_multiplyv k a o h = .ok ((), h) ∧ scalar_addv k a o h = .ok ((), h)) := by
  constructor
  · intro q
    cases o with
    | none => exact ⟨rfl, rfl, rfl⟩
    | some o =>
      cases a with
      | none => exact ⟨rfl, rfl, rfl⟩
      | some a =>
        cases b with
        | none => exact ⟨rfl, rfl, rfl⟩
        | some b =>
          obtain ⟨i, j, e1, e2, hne⟩ := ((q.resolve_left nofun).resolve_left nofun).resolve_left nofun
          cases e1; cases e2
          exact ⟨binB_mismatch _ _ _ _ _ hne, binB_mismatch _ _ _ _ _ hne, binB_mismatch _ _ _ _ _ hne⟩
  · intro q
    cases o with
    | none => exact ⟨rfl, rfl⟩
    | some o =>
      cases a with
      | none => exact ⟨rfl, rfl⟩
      | some a => exact absurd (q.resolve_left nofun) nofun

/-! ## Non-vacuity -/

example : Out.bufOf (additionnv (some (.v 0)) (some (.v 1)) (Heap.ofLists (0 : Int) [[1, 2], [10, 20]] [])) (.v 2) = some [11, 22] := by
  decide +kernel
example : IsVec (Heap.ofLists (0 : Int) [[1, 2], [10, 20]] []) 1 ![10, 20] := ⟨rfl, fun i => by fin_cases i <;> rfl⟩

end Verif
