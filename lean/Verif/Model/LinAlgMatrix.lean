import Verif.Model.LinAlg
import Verif.Model.MatrixApi
import Verif.Model.Stat

/-!
# `MLPPLinAlg` (core/lin_alg.cpp): products, determinants, factorisations, reductions, lists of matrices

Not modelled here: `gaussian_noise` (see Model/Gan.lean), `tensor` functions that are commented out in the source. Loops that are
textually those of the container methods reuse the definitions of `Model/Matrix.lean`.
-/

namespace Verif
variable {R : Type}

/-- The vector a `Ref<MLPPVector>` parameter refers to (platform/sfw.h:19319-19331). -/
def Ref.vec? : Ref → Option Nat
  | some (.v i) => some i
  | _ => none

/-- The matrix a `Ref<MLPPMatrix>` parameter refers to (platform/sfw.h:19319-19331). -/
def Ref.mat? : Ref → Option Nat
  | some (.m i) => some i
  | _ => none

namespace LinAlg

/-! ## Products and transposes -/

/-- `matmultnm(A, B)`, lin_alg.cpp:118-151. -/
def matmultnm [Zero R] [Add R] [Mul R] (A B : Ref) : M R Ref :=
  match A.mat?, B.mat? with
  | some a, some b => do
    let as ← Mat.size a
    let bs ← Mat.size b
    if as.x = bs.y then do
      let C ← newMat
      resizeTo C ⟨bs.x, as.y, 1⟩
      fillAll C 0
      let cs ← getSize C
      Mat.multLoop (.m a) (.m b) C as.y bs.y bs.x as.x bs.x cs.x
      pure (some C)
    else pure none
  | _, _ => pure none

/-- `transposenm(A)`, lin_alg.cpp:244-261; no null check. -/
def transposenm (A : Ref) : M R Ref := do
  let a ← derefM A
  let as ← Mat.size a
  let AT ← newMat
  resizeTo AT ⟨as.y, as.x, 1⟩
  let ts ← getSize AT
  Mat.transLoop (.m a) AT as.y as.x as.x ts.x
  pure (some AT)

/-- `gram_matrix(A)`, lin_alg.cpp:45-47. -/
def gram_matrix [Zero R] [Add R] [Mul R] (A : Ref) : M R Ref := do
  let a ← derefM A
  let T ← Mat.transposen a
  let t ← derefM T
  Mat.multn t (some a)

/-- `linear_independence_checker(A)`, lin_alg.cpp:49-55: the determinant is asked for with the number of *rows* of `A`. -/
def linear_independence_checker [Zero R] [One R] [Neg R] [Add R] [Sub R] [Mul R] [NatCast R] [MathFns R] [DecidableEq R]
    (A : Ref) : M R Bool := do
  let G ← gram_matrix A
  let g ← derefM G
  let a ← derefM A
  let s ← Mat.size a
  let d ← Mat.detb g s.y
  pure (if d = 0 then false else true)

/-- `flattenmnv(A)` on a list of vectors, lin_alg.cpp:1077-1103; same code as `MLPPVector::flatten_vectorsn`. -/
def flattenmnv (A : List (Option Nat)) : M R Ref := do
  let a ← newVec
  let vsize ← Vec.sumSizes A
  resizeTo a ⟨vsize, 1, 1⟩
  Vec.flattenLoop a 0 A
  pure (some a)

/-- The scaled copies of the row in `row_tmp`, lin_alg.cpp:208-211. -/
def kronRow [Mul R] (a : Loc) (ca i : Nat) (row_tmp : Nat) (cols : Nat) : M R (List (Option Nat)) :=
  foldN cols [] fun k acc => do
    let x ← load a (i * ca + k)
    let r ← scalar_multiplynv x (some (.v row_tmp))
    let v ← derefV r
    pure (acc ++ [some v])

/-- `kronecker_productnm(A, B)`, lin_alg.cpp:175-220. -/
def kronecker_productnm [Mul R] (A B : Ref) : M R Ref :=
  match A.mat?, B.mat? with
  | some a, some b => do
    let as ← Mat.size a
    let bs ← Mat.size b
    let C ← newMat
    resizeTo C ⟨bs.x * as.x, bs.y * as.y, 1⟩
    let row_tmp ← newVec
    resizeTo row_tmp ⟨bs.x, 1, 1⟩
    forN as.y fun i =>
      forN bs.y fun j => do
        Mat.row_get_into_mlpp_vector b j (some row_tmp.id)
        let row ← kronRow (.m a) as.x i row_tmp.id as.x
        let fl ← flattenmnv row
        let f ← derefV fl
        Mat.row_set_mlpp_vector C.id ((i * bs.y + j : Nat) : Int) (some f)
    pure (some C)
  | _, _ => pure none

/-! ## Determinant, inverse -/

/-- `detm(A, d)`, lin_alg.cpp:436-471, for `d ≥ 0`. The scratch matrix `B` is created before the test `d == 2`. -/
def detm [Zero R] [One R] [Neg R] [Add R] [Sub R] [Mul R] [NatCast R] [MathFns R] (A : Ref) : (d : Nat) → M R R
  | 2 =>
    match A.mat? with
    | none => pure 0
    | some a => do
      let B ← newMat
      resizeTo B ⟨2, 2, 1⟩
      fillAll B 0
      let x ← Mat.element_get a 0 0
      let y ← Mat.element_get a 1 1
      let z ← Mat.element_get a 0 1
      let w ← Mat.element_get a 1 0
      pure (x * y - z * w)
  | 0 =>
    match A.mat? with
    | none => pure 0
    | some _ => do
      let B ← newMat
      resizeTo B ⟨0, 0, 1⟩
      fillAll B 0
      pure 0
  | d' + 1 =>
    match A.mat? with
    | none => pure 0
    | some a => do
      let B ← newMat
      resizeTo B ⟨d' + 1, d' + 1, 1⟩
      fillAll B 0
      foldN (d' + 1) 0 fun i deter => do
        let _ ← loop 1 d' 0 fun j sub_i => do
          let _ ← Mat.detRow a B.id (d' + 1) i j sub_i
          pure (sub_i + 1)
        let x ← Mat.element_get a 0 i
        let m ← detm (some B) d'
        pure (deter + MathFns.pow (-1 : R) (i : R) * x * m)

/-- `cofactornm(A, n, i, j)`, lin_alg.cpp:483-505; no null check. -/
def cofactornm [Zero R] (A : Ref) (n i j : Nat) : M R Ref := do
  let cof ← newMat
  let a ← derefM A
  let s ← Mat.size a
  resizeTo cof s
  let _ ← Mat.cofLoop a cof.id n i j
  pure (some cof)

/-- The body of `adjointnm` after the size check, lin_alg.cpp:520-544. -/
def adjLoopnm [Zero R] [One R] [Neg R] [Add R] [Sub R] [Mul R] [NatCast R] [MathFns R] (A : Ref) (a adj n : Nat) : M R Unit := do
  if n = 1 then Mat.element_set adj 0 0 1
  else if n = 2 then do
    let d ← Mat.element_get a 1 1
    Mat.element_set adj 0 0 d
    let x ← Mat.element_get a 0 0
    Mat.element_set adj 1 1 x
    let b ← Mat.element_get a 0 1
    Mat.element_set adj 0 1 (-b)
    let c ← Mat.element_get a 1 0
    Mat.element_set adj 1 0 (-c)
  else
    forN n fun i =>
      forN n fun j => do
        let cof ← cofactornm A n i j
        let d ← detm cof (n - 1)
        Mat.element_set adj j i ((if (i + j) % 2 = 0 then (1 : R) else -1) * d)

/-- `adjointnm(A)`, lin_alg.cpp:506-545. -/
def adjointnm [Zero R] [One R] [Neg R] [Add R] [Sub R] [Mul R] [NatCast R] [MathFns R] (A : Ref) : M R Ref :=
  match A.mat? with
  | none => pure none
  | some a => do
    let s ← Mat.size a
    if s.x = s.y then do
      let adj ← newMat
      resizeTo adj s
      adjLoopnm A a adj.id s.y
      pure (some adj)
    else pure none

/-- `inversenm(A)`, lin_alg.cpp:546-548: `A->size()` without a null check; `detm` is evaluated first here. -/
def inversenm [Zero R] [One R] [Neg R] [Add R] [Sub R] [Mul R] [Div R] [NatCast R] [MathFns R] (A : Ref) : M R Ref := do
  let a ← derefM A
  let s ← Mat.size a
  let d ← detm A s.y
  let J ← adjointnm A
  scalar_multiplynm (1 / d) J

/-- `pinversenm(A)`, lin_alg.cpp:549-551. -/
def pinversenm [Zero R] [One R] [Neg R] [Add R] [Sub R] [Mul R] [Div R] [NatCast R] [MathFns R] (A : Ref) : M R Ref := do
  let T ← transposenm A
  let G ← matmultnm T A
  let I ← inversenm G
  let T' ← transposenm A
  matmultnm I T'

/-- `identitym(d)`, lin_alg.cpp:683-696. -/
def identitym [Zero R] [One R] (d : Nat) : M R Ref := do
  let im ← newMat
  resizeTo im ⟨d, d, 1⟩
  fillAll im 0
  Mat.diagOnes im d d
  pure (some im)

/-- `solve(A, b)`, lin_alg.cpp:1028-1030. -/
def solve [Zero R] [One R] [Neg R] [Add R] [Sub R] [Mul R] [Div R] [NatCast R] [MathFns R] (A b : Ref) : M R Ref := do
  let a ← derefM A
  let I ← Mat.inverse a
  let i ← derefM I
  Mat.mult_vec i b.vec?

/-- The double loop of `cov`: mlpp_matrix.cpp:2189-2197, 2219-2227, lin_alg.cpp:716-724. The column loop runs over the *columns*
of `A` but reads *rows*. -/
def covLoop [Zero R] [One R] [Add R] [Sub R] [Mul R] [Div R] [IntCast R] (a out ri rj : Nat) (rows cols : Nat) : M R Unit :=
  forN rows fun i => do
    Mat.row_get_into_mlpp_vector a (i : Int) (some ri)
    forN cols fun j => do
      Mat.row_get_into_mlpp_vector a (j : Int) (some rj)
      let c ← Stat.covariancev (some ri) (some rj)
      Mat.element_set out (i : Int) (j : Int) c

/-- `covnm(A)`, lin_alg.cpp:698-727; no null check. -/
def covnm [Zero R] [One R] [Add R] [Sub R] [Mul R] [Div R] [IntCast R] (A : Ref) : M R Ref := do
  let cov_mat ← newMat
  let a ← derefM A
  let s ← Mat.size a
  resizeTo cov_mat s
  let ri ← newVec
  resizeTo ri ⟨s.x, 1, 1⟩
  let rj ← newVec
  resizeTo rj ⟨s.x, 1, 1⟩
  covLoop a cov_mat.id ri.id rj.id s.y s.x
  pure (some cov_mat)

/-- `MLPPMatrix::cov()`, mlpp_matrix.cpp:2174-2201. -/
def _root_.Verif.Mat.cov [Zero R] [One R] [Add R] [Sub R] [Mul R] [Div R] [IntCast R] (this : Nat) : M R Ref := do
  let cov_mat ← newMat
  let s ← Mat.size this
  resizeTo cov_mat s
  let ri ← newVec
  resizeTo ri ⟨s.x, 1, 1⟩
  let rj ← newVec
  resizeTo rj ⟨s.x, 1, 1⟩
  covLoop this cov_mat.id ri.id rj.id s.y s.x
  pure (some cov_mat)

/-- `MLPPMatrix::covo(out)`, mlpp_matrix.cpp:2202-2228. -/
def _root_.Verif.Mat.covo [Zero R] [One R] [Add R] [Sub R] [Mul R] [Div R] [IntCast R] (this : Nat) (out : Option Nat) :
    M R Unit :=
  match out with
  | none => pure ()
  | some out => do
    let s ← Mat.size this
    ensureSize (.m out) s
    let ri ← newVec
    resizeTo ri ⟨s.x, 1, 1⟩
    let rj ← newVec
    resizeTo rj ⟨s.x, 1, 1⟩
    covLoop this out ri.id rj.id s.y s.x

/-! ## Gram-Schmidt, QR, Cholesky -/

/-- `vector_projection(a, b)`, lin_alg.cpp:897-901; no null check on `a`, `b` is checked by `dot`. -/
def vector_projection [Zero R] [Add R] [Mul R] [Div R] (a b : Ref) : M R Ref := do
  let a ← derefV a
  let ab ← Vec.dot a b.vec?
  let aa ← Vec.dot a (some a)
  Vec.scalar_multiplyn a (ab / aa)

/-- Normalisation of the row in `tmp` and its storage in row `i` of `B`, lin_alg.cpp:917-918, 944-945. -/
def gsNormalise [Zero R] [One R] [Add R] [Mul R] [Div R] [MathFns R] (B tmp : Nat) (i : Int) : M R Unit := do
  let n ← Vec.norm_2 tmp
  Vec.scalar_multiply tmp (1 / n)
  Mat.row_set_mlpp_vector B i (some tmp)

/-- One pass of the inner loop of `gram_schmidt_process`, lin_alg.cpp:932-940. -/
def gsInner [Zero R] [Add R] [Sub R] [Mul R] [Div R] (A B bi ai bj : Nat) (i j : Nat) : M R Unit := do
  Mat.row_get_into_mlpp_vector A (i : Int) (some ai)
  Mat.row_get_into_mlpp_vector B (j : Int) (some bj)
  Mat.row_get_into_mlpp_vector B (i : Int) (some bi)
  let p ← vector_projection (some (.v bj)) (some (.v ai))
  Vec.sub bi p.vec?
  Mat.row_set_mlpp_vector B (i : Int) (some bi)

/-- `gram_schmidt_process(p_A)`, lin_alg.cpp:903-949; no null check. The inner loop runs `j` from `i - 1` down to `0`. -/
def gram_schmidt_process [Zero R] [One R] [Add R] [Sub R] [Mul R] [Div R] [MathFns R] (p_A : Ref) : M R Ref := do
  let pa ← derefM p_A
  let T ← Mat.transposen pa
  let A ← derefM T
  let s ← Mat.size A
  let B ← newMat
  resizeTo B s
  fillAll B 0
  let bi ← newVec
  resizeTo bi ⟨s.x, 1, 1⟩
  Mat.row_get_into_mlpp_vector A 0 (some bi.id)
  gsNormalise B.id bi.id 0
  let ai ← newVec
  resizeTo ai ⟨s.x, 1, 1⟩
  let bj ← newVec
  resizeTo bj ⟨s.x, 1, 1⟩
  forN (s.y - 1) fun k => do
    let i := k + 1
    Mat.row_get_into_mlpp_vector A (i : Int) (some bi.id)
    Mat.row_set_mlpp_vector B.id (i : Int) (some bi.id)
    forN i fun l => gsInner A B.id bi.id ai.id bj.id i (i - 1 - l)
    Mat.row_get_into_mlpp_vector B.id (i : Int) (some bi.id)
    gsNormalise B.id bi.id (i : Int)
  Mat.transposen B.id

/-- `qrd(A)`, lin_alg.cpp:951-958: the handles `Q` and `R`. -/
def qrd [Zero R] [One R] [Add R] [Sub R] [Mul R] [Div R] [MathFns R] (A : Ref) : M R (Ref × Ref) := do
  let Q ← gram_schmidt_process A
  let q ← derefM Q
  let T ← Mat.transposen q
  let t ← derefM T
  let r ← Mat.multn t A.mat?
  pure (Q, r)

/-- The sum `Σ_{k<j} L(i,k) * L(i',k)`, lin_alg.cpp:973-978, 983-986. -/
def cholSum [Zero R] [Add R] [Mul R] (L i i' j : Nat) : M R R :=
  foldN j 0 fun k sum => do
    let x ← Mat.element_get L (i : Int) (k : Int)
    let y ← Mat.element_get L (i' : Int) (k : Int)
    pure (sum + x * y)

/-- `cholesky(A)`, lin_alg.cpp:960-997: the handles `L` and `Lt`. In the diagonal case the code reads `L(i,k)` once. -/
def cholesky [Zero R] [Add R] [Sub R] [Mul R] [Div R] [MathFns R] (A : Ref) : M R (Ref × Ref) := do
  let a ← derefM A
  let s ← Mat.size a
  if s.x = s.y then do
    let Lr ← zeromatnm s.y s.x
    let L ← derefM Lr
    forN s.y fun j =>
      forN (s.y - j) fun d => do
        let i := j + d
        if i = j then do
          let sum ← cholSum L i i j
          let x ← Mat.element_get a (i : Int) (j : Int)
          Mat.element_set L (i : Int) (j : Int) (MathFns.sqrt (x - sum))
        else do
          let sum ← cholSum L i j j
          let x ← Mat.element_get a (i : Int) (j : Int)
          let l ← Mat.element_get L (j : Int) (j : Int)
          Mat.element_set L (i : Int) (j : Int) ((x - sum) / l)
    let Lt ← Mat.transposen L
    pure (Lr, Lt)
  else pure (none, none)

/-! ## Reductions -/

/-- `maxvr(a)`, lin_alg.cpp:1572-1590. -/
def maxvr [LT R] [DecidableLT R] [Neg R] [HasInf R] (a : Ref) : M R R :=
  match a.vec? with
  | none => pure (-HasInf.inf)
  | some a => do
    let n ← Vec.size a
    foldN n (-HasInf.inf) fun i m => do
      let x ← load (.v a) i
      pure (if m < x then x else m)

/-- `minvr(a)`, lin_alg.cpp:1591-1609. -/
def minvr [LT R] [DecidableLT R] [HasInf R] (a : Ref) : M R R :=
  match a.vec? with
  | none => pure HasInf.inf
  | some a => do
    let n ← Vec.size a
    foldN n HasInf.inf fun i m => do
      let x ← load (.v a) i
      pure (if x < m then x else m)

/-- `euclidean_distance_squared(a, b)`, lin_alg.cpp:1642-1659. -/
def euclidean_distance_squared [Zero R] [Add R] [Sub R] [Mul R] (a b : Ref) : M R R :=
  match a.vec?, b.vec? with
  | some a, some b => do
    let n ← Vec.size a
    let nb ← Vec.size b
    if n = nb then
      foldN n 0 fun i dist => do
        let x ← load (.v a) i
        let y ← load (.v b) i
        pure (dist + (x - y) * (x - y))
    else pure 0
  | _, _ => pure 0

/-- `euclidean_distance(a, b)`, lin_alg.cpp:1624-1641. A rejected pair of operands gives `0`. -/
def euclidean_distance [Zero R] [Add R] [Sub R] [Mul R] [MathFns R] (a b : Ref) : M R R :=
  match a.vec?, b.vec? with
  | some a, some b => do
    let n ← Vec.size a
    let nb ← Vec.size b
    if n = nb then do
      let d ← foldN n 0 fun i dist => do
        let x ← load (.v a) i
        let y ← load (.v b) i
        pure (dist + (x - y) * (x - y))
      pure (MathFns.sqrt d)
    else pure 0
  | _, _ => pure 0

/-- `dotnv(a, b)`, lin_alg.cpp:1442-1455; no null check. -/
def dotnv [Zero R] [Add R] [Mul R] (a b : Ref) : M R R := do
  let a ← derefV a
  let n ← Vec.size a
  let b ← derefV b
  let nb ← Vec.size b
  if n = nb then
    foldN n 0 fun i c => do
      let x ← load (.v a) i
      let y ← load (.v b) i
      pure (c + x * y)
  else pure 0

/-- `norm_sqv(a)`, lin_alg.cpp:1667-1678. -/
def norm_sqv [Zero R] [Add R] [Mul R] (a : Ref) : M R R :=
  match a.vec? with
  | none => pure 0
  | some a => do
    let n ← Vec.size a
    foldN n 0 fun i c => do
      let x ← load (.v a) i
      pure (c + x * x)

/-- `sum_elementsv(a)`, lin_alg.cpp:1680-1690; no null check. -/
def sum_elementsv [Zero R] [Add R] (a : Ref) : M R R := do
  let a ← derefV a
  let n ← Vec.size a
  foldN n 0 fun i c => do
    let x ← load (.v a) i
    pure (c + x)

/-! ## Matrices and vectors -/

/-- `mat_vec_multnv(A, b)`, lin_alg.cpp:1698-1724: a shorter `b` is accepted. -/
def mat_vec_multnv [Zero R] [Add R] [Mul R] (A b : Ref) : M R Ref :=
  match A.mat?, b.vec? with
  | some a, some b => do
    let s ← Mat.size a
    let n ← Vec.size b
    if s.x < n then pure none else do
      let c ← newVec
      resizeTo c ⟨s.y, 1, 1⟩
      fillAll c 0
      Mat.multVecLoop (.m a) (.v b) c s.y n s.x
      pure (some c)
  | _, _ => pure none

/-- `subtract_matrix_rowsnv(a, B)`, lin_alg.cpp:1726-1743; no null check. -/
def subtract_matrix_rowsnv [Sub R] (a B : Ref) : M R Ref := do
  let a ← derefV a
  let c ← Vec.duplicate_fast a
  let cl ← deref c
  let b ← derefM B
  let bs ← Mat.size b
  let cs ← getSize cl
  if bs.x = cs.x then do
    Vec.subRowsLoop cl (.m b) bs
    pure c
  else pure c

/-- `outer_product(a, b)`, lin_alg.cpp:1745-1763; no null check. -/
def outer_product [Mul R] (a b : Ref) : M R Ref := do
  let C ← newMat
  let b ← derefV b
  let nb ← Vec.size b
  let a ← derefV a
  let na ← Vec.size a
  resizeTo C ⟨nb, na, 1⟩
  Mat.outerLoop C.id (.v a) (.v b) na nb
  pure (some C)

/-- `mat_vec_addnm(A, b)`, lin_alg.cpp:1765-1789. -/
def mat_vec_addnm [Add R] (A b : Ref) : M R Ref :=
  match A.mat?, b.vec? with
  | some a, some b => do
    let s ← Mat.size a
    let n ← Vec.size b
    if s.x = n then do
      let ret ← newMat
      resizeTo ret s
      Mat.addVecLoop (.m a) (.v b) ret s.y s.x
      pure (some ret)
    else pure none
  | _, _ => pure none

/-- `diagnm(a)`, lin_alg.cpp:1791-1808; no null check. -/
def diagnm [Zero R] (a : Ref) : M R Ref := do
  let a ← derefV a
  let n ← Vec.size a
  let B ← newMat
  resizeTo B ⟨n, n, 1⟩
  fillAll B 0
  Mat.diagLoop B (.v a) n n
  pure (some B)

/-- `flattenvvnv(A)`, lin_alg.cpp:1011-1026; no null check. -/
def flattenvvnv (A : Ref) : M R Ref := do
  let a ← derefM A
  let s ← Mat.size a
  let res ← newVec
  resizeTo res ⟨s.count, 1, 1⟩
  unLoop id (.m a) res s.count
  pure (some res)

/-! ## Lists of matrices (`Vector<Ref<MLPPMatrix>>`)

`A[i]` outside a `Vector` is a deliberate crash (`CRASH_BAD_INDEX`, platform/sfw.h). -/

/-- The results of `f` on the elements, in order: the loops of lin_alg.cpp:1840-1849, 1851-1860. -/
def mapL (f : Ref → M R Ref) : List Ref → M R (List Ref)
  | [] => pure []
  | a :: as => do
    let x ← f a
    let xs ← mapL f as
    pure (x :: xs)

/-- The results of `f(A[i], B[i])` for `i < A.size()`: the loops of lin_alg.cpp:1810-1819, 1829-1838. -/
def zipL (f : Ref → Ref → M R Ref) : List Ref → List Ref → M R (List Ref)
  | [], _ => pure []
  | _ :: _, [] => crash
  | a :: as, b :: bs => do
    let x ← f a b
    let xs ← zipL f as bs
    pure (x :: xs)

/-- `additionnvt(A)`, lin_alg.cpp:1810-1819. -/
def additionnvt [Add R] (A B : List Ref) : M R (List Ref) := zipL additionnm A B
/-- `division_element_wisenvnvt(A)`, lin_alg.cpp:1829-1838. -/
def division_element_wisenvnvt [Div R] (A B : List Ref) : M R (List Ref) := zipL division_element_wisenvnm A B
/-- `sqrtnvt(A)`, lin_alg.cpp:1840-1849. -/
def sqrtnvt [MathFns R] (A : List Ref) : M R (List Ref) := mapL sqrtnm A
/-- `exponentiatenvt(A)`, lin_alg.cpp:1851-1860. -/
def exponentiatenvt [MathFns R] (A : List Ref) (p : R) : M R (List Ref) := mapL (exponentiatenm p) A
/-- `scalar_multiplynvt(A)`, lin_alg.cpp:1889-1894. -/
def scalar_multiplynvt [Mul R] (k : R) (A : List Ref) : M R (List Ref) := mapL (scalar_multiplynm k) A
/-- `scalar_addnvt(A)`, lin_alg.cpp:1895-1900. -/
def scalar_addnvt [Add R] (k : R) (A : List Ref) : M R (List Ref) := mapL (scalar_addnm k) A
/-- `maxnvt(A)`, lin_alg.cpp:1929-1938. -/
def maxnvt [LT R] [DecidableLT R] (A B : List Ref) : M R (List Ref) := zipL maxnm A B
/-- `absnvt(A)`, lin_alg.cpp:1940-1949: the results are computed and dropped, `A` is returned. -/
def absnvt [LT R] [DecidableLT R] [Neg R] [Zero R] (A : List Ref) : M R (List Ref) := do
  let _ ← mapL absnm A
  pure A
/-- One element of `resizencvt`, lin_alg.cpp:1919-1923: a matrix of the same extents, contents arbitrary; no null check. -/
def sameSize (A : Ref) : M R Ref := do
  let m ← newMat
  let a ← derefM A
  let s ← Mat.size a
  resizeTo m s
  pure (some m)
/-- `resizencvt(A)`, lin_alg.cpp:1914-1927. -/
def resizencvt (A : List Ref) : M R (List Ref) := mapL sameSize A

end LinAlg
end Verif
