import Verif.Model.KMeans
import Verif.Model.LinAlgMatrix
import Mathlib.Analysis.SpecialFunctions.Trigonometric.Arctan

/-!
# `MLPPMatrix::eigen`, `svd` and the `MLPPLinAlg` copies of them

Over the real numbers. The two classes run the same statements on their own `identity`, product and inverse, so the code is modelled once,
with these three as the parameter `ops`.
-/

namespace Verif
open Mat (sqrtn)

namespace Hd
/-- `a->is_equal_approx(b)` of matrices with the default tolerance `CMP_EPSILON`, mlpp_matrix.h:378, mlpp_matrix.cpp:3021-3041. -/
noncomputable def is_equal_approxm (a b : Ref) (tol : ℝ) : M ℝ Bool := do Mat.is_equal_approx (← derefM a) b.mat tol
/-- `a->duplicate_fast()` of a matrix, mlpp_matrix.cpp:444-451. -/
def duplicate_fastm (a : Ref) : M ℝ Ref := do Mat.duplicate_fast (← derefM a)
/-- `a->sqrtn()` of a matrix, mlpp_matrix.cpp:1466-1481. -/
noncomputable def sqrtnm (a : Ref) : M ℝ Ref := do Mat.sqrtn (← derefM a)
end Hd

namespace Eigen

/-- `Math::round(p_val)`, platform/sfw.h:2557-2562: the C function, which rounds halves away from zero. -/
noncomputable def roundC (x : ℝ) : ℝ := if x < 0 then -(⌊-x + 1 / 2⌋ : ℝ) else (⌊x + 1 / 2⌋ : ℝ)

/-- `CMP_EPSILON`, platform/sfw.h:209. -/
noncomputable def eps : ℝ := 1 / 100000

/-- `Math::is_zero_approx(s)`, platform/sfw.h:2670-2672. -/
noncomputable def isZeroApprox (s : ℝ) : Bool := decide (absC s < eps)

/-- The functions in which `MLPPMatrix::eigen` and `MLPPLinAlg::eigen` differ. -/
structure Ops where
  eye : Nat → M ℝ Ref
  mul : Ref → Ref → M ℝ Ref
  inv : Ref → M ℝ Ref

/-- The locals `a_ij`, `sub_i`, `sub_j`, mlpp_matrix.cpp:2248-2250. The indices are `real_t`s in the source, but only ever hold loop
indices. -/
structure Pivot where
  a_ij : ℝ
  sub_i : Nat
  sub_j : Nat

/-- One entry of the pivot search, mlpp_matrix.cpp:2253-2266. -/
noncomputable def pivotStep (i j : Nat) (ca_ij : ℝ) (p : Pivot) : Pivot :=
  if i ≠ j ∧ absC ca_ij > p.a_ij then ⟨ca_ij, i, j⟩
  else if i ≠ j ∧ absC ca_ij = p.a_ij then
    if i < p.sub_i then ⟨ca_ij, i, j⟩ else p
  else p

/-- The pivot search, mlpp_matrix.cpp:2248-2268; lin_alg.cpp:748-768. -/
noncomputable def pivot (a_mat : Ref) (a_size : Size) : M ℝ Pivot := do
  let a01 ← Hd.element_getm a_mat 0 1
  foldN a_size.y ⟨a01, 0, 1⟩ fun i p =>
    foldN a_size.x p fun j p => do
      let ca_ij ← Hd.element_getm a_mat (i : Nat) (j : Nat)
      pure (pivotStep i j ca_ij p)

/-- The angle, mlpp_matrix.cpp:2273-2279; lin_alg.cpp:773-779. -/
noncomputable def angle (a_ij a_ii a_jj : ℝ) : ℝ :=
  if a_ii = a_jj then MathFns.pi / 4 else 1 / 2 * Real.arctan (2 * a_ij / (a_ii - a_jj))

/-- `P`, mlpp_matrix.cpp:2281-2285; lin_alg.cpp:781-785. -/
noncomputable def rotation (ops : Ops) (d sub_i sub_j : Nat) (theta : ℝ) : M ℝ Ref := do
  let P ← ops.eye d
  Hd.element_setm P (sub_i : Nat) (sub_j : Nat) (-MathFns.sin theta)
  Hd.element_setm P (sub_i : Nat) (sub_i : Nat) (MathFns.cos theta)
  Hd.element_setm P (sub_j : Nat) (sub_j : Nat) (MathFns.cos theta)
  Hd.element_setm P (sub_j : Nat) (sub_i : Nat) (MathFns.sin theta)
  pure P

/-- Whether the loops at mlpp_matrix.cpp:2293 and 2302 treat an entry as zero. -/
noncomputable def small (x : ℝ) : Bool := isZeroApprox (roundC x)

/-- The loop that erases small off-diagonal entries, mlpp_matrix.cpp:2291-2297; lin_alg.cpp:791-797. -/
noncomputable def erase (a_new : Ref) (s : Size) : M ℝ Unit :=
  forN s.y fun i => forN s.x fun j =>
    if i ≠ j then do
      let x ← Hd.element_getm a_new (i : Nat) (j : Nat)
      if small x then Hd.element_setm a_new (i : Nat) (j : Nat) 0 else pure ()
    else pure ()

/-- The computation of `non_zero`, mlpp_matrix.cpp:2299-2306; lin_alg.cpp:799-806. Despite its name it is set when an off-diagonal entry
is (nearly) zero. -/
noncomputable def nonZero (a_new : Ref) (s : Size) : M ℝ Bool :=
  foldN s.y false fun i b => foldN s.x b fun j b =>
    if i ≠ j then do
      let x ← Hd.element_getm a_new (i : Nat) (j : Nat)
      pure (if small x then true else b)
    else pure b

/-- The loop that erases every off-diagonal entry, mlpp_matrix.cpp:2316-2322; lin_alg.cpp:816-822. -/
noncomputable def eraseAll (a_new : Ref) (s : Size) : M ℝ Unit :=
  forN s.y fun i => forN s.x fun j => if i ≠ j then Hd.element_setm a_new (i : Nat) (j : Nat) 0 else pure ()

/-- The body of the `do ... while` loop, mlpp_matrix.cpp:2247-2326; lin_alg.cpp:747-826. Returns `diagonal`, `a_new` and the new
`eigenvectors`. -/
noncomputable def round (ops : Ops) (a_size : Size) (a_mat eigenvectors : Ref) : M ℝ (Bool × Ref × Ref) := do
  let p ← pivot a_mat a_size
  let a_ii ← Hd.element_getm a_mat (p.sub_i : Nat) (p.sub_i : Nat)
  let a_jj ← Hd.element_getm a_mat (p.sub_j : Nat) (p.sub_j : Nat)
  let s ← Hd.sizem a_mat
  let P ← rotation ops s.y p.sub_i p.sub_j (angle p.a_ij a_ii a_jj)
  let Pi ← ops.inv P
  let PiA ← ops.mul Pi a_mat
  let a_new ← ops.mul PiA P
  let a_new_size ← Hd.sizem a_new
  erase a_new a_new_size
  let non_zero ← nonZero a_new a_new_size
  let eq ← Hd.is_equal_approxm a_new a_mat eps
  if eq then do
    eraseAll a_new a_new_size
    let eigenvectors ← ops.mul eigenvectors P
    pure (true, a_new, eigenvectors)
  else do
    let eigenvectors ← ops.mul eigenvectors P
    pure (!non_zero, a_new, eigenvectors)

/-- The `do ... while (!diagonal)` loop, mlpp_matrix.cpp:2247-2328; lin_alg.cpp:747-828, for at most `fuel` rounds: `none` means that it is
then still running. -/
noncomputable def loop (ops : Ops) (a_size : Size) : (fuel : Nat) → (a_mat eigenvectors : Ref) → M ℝ (Option (Ref × Ref))
  | 0, _, _ => pure none
  | fuel + 1, a_mat, eigenvectors => do
    let (diagonal, a_new, eigenvectors) ← round ops a_size a_mat eigenvectors
    if diagonal then pure (some (a_new, eigenvectors)) else loop ops a_size fuel a_new eigenvectors

/-- The bubble sort of the diagonal, mlpp_matrix.cpp:2335-2343; lin_alg.cpp:835-843. -/
noncomputable def sortDiagonal (a_new : Ref) (s : Size) : M ℝ Unit :=
  forN (s.y - 1) fun i => forN (s.x - 1 - i) fun j => do
    let x ← Hd.element_getm a_new (j : Nat) (j : Nat)
    let y ← Hd.element_getm a_new ((j + 1 : Nat) : Int) ((j + 1 : Nat) : Int)
    if x < y then do
      Hd.element_setm a_new ((j + 1 : Nat) : Int) ((j + 1 : Nat) : Int) x
      Hd.element_setm a_new (j : Nat) (j : Nat) y
    else pure ()

/-- `val_to_vec`, mlpp_matrix.cpp:2345-2351; lin_alg.cpp:845-851. A missing key reads as 0 (`HashMap::operator[]` inserts `int()`). -/
noncomputable def valToVec (a_new a_new_prior : Ref) (s : Size) : M ℝ (Nat → Nat) :=
  foldN s.y (fun _ => 0) fun i f => foldN s.x f fun j f => do
    let x ← Hd.element_getm a_new (i : Nat) (i : Nat)
    let y ← Hd.element_getm a_new_prior (j : Nat) (j : Nat)
    pure (if x = y then (fun k => if k = i then j else f k) else f)

/-- `EigenResult`, mlpp_matrix.h:297-300. -/
structure Result where
  eigen_vectors : Ref
  eigen_values : Ref

/-- The part after the loop, mlpp_matrix.cpp:2330-2366; lin_alg.cpp:830-866. -/
noncomputable def finish (a_new eigenvectors : Ref) : M ℝ Result := do
  let a_new_prior ← Hd.duplicate_fastm a_new
  let a_new_size ← Hd.sizem a_new
  sortDiagonal a_new a_new_size
  let val_to_vec ← valToVec a_new a_new_prior a_new_size
  let eigen_temp ← Hd.duplicate_fastm eigenvectors
  let es ← Hd.sizem eigenvectors
  forN es.y fun i => forN es.x fun j => do
    let x ← Hd.element_getm eigen_temp (i : Nat) (val_to_vec j : Nat)
    Hd.element_setm eigenvectors (i : Nat) (j : Nat) x
  pure ⟨eigenvectors, a_new⟩

/-- The common body of the three functions below. `none` means that the iteration has not ended after `fuel` rounds. -/
noncomputable def eigen (ops : Ops) (fuel : Nat) (A : Ref) : M ℝ (Option Result) := do
  let s ← Hd.sizem A
  let eigenvectors ← ops.eye s.y
  let a_size ← Hd.sizem A
  let r ← loop ops a_size fuel A eigenvectors
  match r with
  | none => pure none
  | some (a_new, eigenvectors) => do
    let r ← finish a_new eigenvectors
    pure (some r)

/-- The functions `MLPPMatrix::eigen` uses: `identity_mat`, `multn`, `inverse`. -/
noncomputable def matOps : Ops := ⟨Mat.identity_mat, Hd.multn, Hd.inverse⟩

/-- The functions `MLPPLinAlg::eigen` uses: `identitym`, `matmultnm`, `inversenm`. -/
noncomputable def linAlgOps : Ops := ⟨LinAlg.identitym, LinAlg.matmultnm, LinAlg.inversenm⟩

end Eigen

/-- `MLPPMatrix::eigen()`, mlpp_matrix.cpp:2230-2367. -/
noncomputable def Mat.eigen (fuel : Nat) (this : Nat) : M ℝ (Option Eigen.Result) := Eigen.eigen Eigen.matOps fuel (some (.m this))

/-- `MLPPMatrix::eigenb(A)`, mlpp_matrix.cpp:2368-2506: both results are null handles if `A` is. -/
noncomputable def Mat.eigenb (fuel : Nat) (A : Ref) : M ℝ (Option Eigen.Result) :=
  match A with
  | none => pure (some ⟨none, none⟩)
  | some _ => Eigen.eigen Eigen.matOps fuel A

namespace LinAlg
open Eigen (Result)

/-- `eigen(A)`, lin_alg.cpp:729-867. -/
noncomputable def eigen (fuel : Nat) (A : Ref) : M ℝ (Option Result) :=
  match A with
  | none => pure (some ⟨none, none⟩)
  | some _ => Eigen.eigen Eigen.linAlgOps fuel A

/-- The three loops over the reported eigenvalues, lin_alg.cpp:1038-1042, 1053-1057, 1068-1072: whether no entry of the diagonal is `bad`. -/
def noneBad (bad : ℝ → Prop) [DecidablePred bad] (eigenvals : Ref) : M ℝ Bool := do
  let s ← Hd.sizem eigenvals
  foldN s.y true fun i ok =>
    if ok then do
      let x ← Hd.element_getm eigenvals (i : Nat) (i : Nat)
      pure (decide ¬ bad x)
    else pure false

/-- `positive_definite_checker(A)`, lin_alg.cpp:1032-1045. -/
noncomputable def positive_definite_checker (fuel : Nat) (A : Ref) : M ℝ (Option Bool) := do
  let r ← eigen fuel A
  match r with
  | none => pure none
  | some r => do
    let b ← noneBad (· ≤ 0) r.eigen_values
    pure (some b)

/-- `negative_definite_checker(A)`, lin_alg.cpp:1047-1060. -/
noncomputable def negative_definite_checker (fuel : Nat) (A : Ref) : M ℝ (Option Bool) := do
  let r ← eigen fuel A
  match r with
  | none => pure none
  | some r => do
    let b ← noneBad (· ≥ 0) r.eigen_values
    pure (some b)

/-- `zero_eigenvalue(A)`, lin_alg.cpp:1062-1075. -/
noncomputable def zero_eigenvalue (fuel : Nat) (A : Ref) : M ℝ (Option Bool) := do
  let r ← eigen fuel A
  match r with
  | none => pure none
  | some r => do
    let b ← noneBad (· = 0) r.eigen_values
    pure (some b)

end LinAlg

namespace Eigen

/-- `SVDResult`, mlpp_matrix.h:307-311. -/
structure SvdResult where
  U : Ref
  S : Ref
  Vt : Ref

/-- `MLPPMatrix::svd()`, mlpp_matrix.cpp:2531-2553, also `svdb(A)`, mlpp_matrix.cpp:2555-2581, for a valid handle. -/
noncomputable def matSvd (fuel : Nat) (A : Ref) : M ℝ (Option SvdResult) := do
  let At ← Hd.transposen A
  let AAt ← Hd.multn A At
  let left_eigen ← eigen matOps fuel AAt
  let At2 ← Hd.transposen A
  let AtA ← Hd.multn At2 A
  let right_eigen ← eigen matOps fuel AtA
  match left_eigen, right_eigen with
  | some left_eigen, some right_eigen => do
    let singularvals ← Hd.sqrtnm left_eigen.eigen_values
    let as ← Hd.sizem A
    let sigma ← Mat.matn_zero as.y as.x
    let ss ← Hd.sizem singularvals
    forN ss.y fun i => forN ss.x fun j => do
      let x ← Hd.element_getm singularvals (i : Nat) (j : Nat)
      Hd.element_setm sigma (i : Nat) (j : Nat) x
    pure (some ⟨left_eigen.eigen_vectors, sigma, right_eigen.eigen_vectors⟩)
  | _, _ => pure none

/-- `MLPPMatrix::svdb(A)`, mlpp_matrix.cpp:2555-2581. -/
noncomputable def svdb (fuel : Nat) (A : Ref) : M ℝ (Option SvdResult) :=
  match A with
  | none => pure (some ⟨none, none, none⟩)
  | some _ => matSvd fuel A

/-- `MLPPLinAlg::svd(A)`, lin_alg.cpp:869-895. -/
noncomputable def linAlgSvd (fuel : Nat) (A : Ref) : M ℝ (Option SvdResult) :=
  match A with
  | none => pure (some ⟨none, none, none⟩)
  | some _ => do
    let as ← Hd.sizem A
    let At ← LinAlg.transposenm A
    let AAt ← LinAlg.matmultnm A At
    let left_eigen ← eigen linAlgOps fuel AAt
    let At2 ← LinAlg.transposenm A
    let AtA ← LinAlg.matmultnm At2 A
    let right_eigen ← eigen linAlgOps fuel AtA
    match left_eigen, right_eigen with
    | some left_eigen, some right_eigen => do
      let singularvals ← LinAlg.sqrtnm left_eigen.eigen_values
      let sigma ← LinAlg.zeromatnm as.y as.x
      let ss ← Hd.sizem sigma
      forN ss.y fun i => forN ss.x fun j => do
        let x ← Hd.element_getm singularvals (i : Nat) (j : Nat)
        Hd.element_setm sigma (i : Nat) (j : Nat) x
      pure (some ⟨left_eigen.eigen_vectors, sigma, right_eigen.eigen_vectors⟩)
    | _, _ => pure none

end Eigen
end Verif
