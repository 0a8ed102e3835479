import Verif.Model.Vector
import Verif.Model.Matrix

/-!
# `MLPPLinAlg` (core/lin_alg.cpp): element-wise functions

Every handle argument is a `Ref`. A C++ parameter `const Ref<MLPPVector> &` that receives a `Ref` of another class is
initialised by the converting constructor (platform/sfw.h:19319-19331), whose `Object::cast_to` yields null: `Ref.asV` and
`Ref.asM`.
-/

namespace Verif
variable {R : Type}

/-- Conversion to `Ref<MLPPVector>`, platform/sfw.h:19319-19331. -/
def Ref.asV : Ref → Option Loc
  | some (.v i) => some (.v i)
  | _ => none

/-- Conversion to `Ref<MLPPMatrix>`, platform/sfw.h:19319-19331. -/
def Ref.asM : Ref → Option Loc
  | some (.m i) => some (.m i)
  | _ => none

/-- Function call with one argument expression `f(e)`. -/
def app1 (f : Ref → M R Ref) (e : M R Ref) : M R Ref := do
  let x ← e
  f x

/-- Function call with two argument expressions `f(e1, e2)`. C++ leaves the order of evaluation open; left to right here. -/
def app2 (f : Ref → Ref → M R Ref) (e1 e2 : M R Ref) : M R Ref := do
  let x ← e1
  let y ← e2
  f x y

namespace LinAlg

/-- One-operand functions with a null check, shape of lin_alg.cpp:283-300 (`lognm`) and 1310-1327 (`lognv`). -/
def unR (f : R → R) (a : Option Loc) : M R Ref :=
  match a with
  | none => pure none
  | some a => unN f a

/-- Two-operand functions, shape of lin_alg.cpp:76-97 (`additionnm`) and 1235-1254 (`additionnv`). -/
def binR (f : R → R → R) (a b : Option Loc) : M R Ref :=
  match a, b with
  | some a, some b => binN f a (some b)
  | _, _ => pure none

/-- The row-by-row loops of lin_alg.cpp:160-165 and 226-231. -/
def gridLoop (f : R → R → R) (a b out : Loc) (s : Size) : M R Unit :=
  forN s.y fun i => forN s.x fun j => do
    let x ← load a (i * s.x + j)
    let y ← load b (i * s.x + j)
    store out (i * s.x + j) (f x y)

/-- Two-operand functions with row-by-row loops, shape of lin_alg.cpp:147-168. -/
def gridR (f : R → R → R) (a b : Option Loc) : M R Ref :=
  match a, b with
  | some a, some b => do
    let s ← getSize a
    let sb ← getSize b
    if s = sb then do
      let out ← newMat
      resizeTo out s
      gridLoop f a b out s
      pure (some out)
    else pure none
  | _, _ => pure none

/-- Functions on `A->duplicate_fast()` with row-by-row loops, shape of lin_alg.cpp:254-266; no null check. -/
def dupR (f : R → R) (a : Option Loc) : M R Ref :=
  match a with
  | none => ub
  | some a => do
    let r ← duplicateFast a
    let an ← deref r
    let s ← getSize an
    forN s.y fun i => forN s.x fun j => do
      let x ← load an (i * s.x + j)
      store an (i * s.x + j) (f x)
    pure r

/-! ## Matrices -/

/-- `additionnm(A, B)`, lin_alg.cpp:76-96. -/
def additionnm [Add R] (A B : Ref) : M R Ref := binR (· + ·) A.asM B.asM
/-- `subtractionnm(A, B)`, lin_alg.cpp:97-117. -/
def subtractionnm [Sub R] (A B : Ref) : M R Ref := binR (· - ·) A.asM B.asM
/-- `hadamard_productnm(A, B)`, lin_alg.cpp:153-174. -/
def hadamard_productnm [Mul R] (A B : Ref) : M R Ref := gridR (· * ·) A.asM B.asM
/-- `division_element_wisenvnm(A, B)`, lin_alg.cpp:221-242. -/
def division_element_wisenvnm [Div R] (A B : Ref) : M R Ref := gridR (· / ·) A.asM B.asM
/-- `scalar_multiplynm(scalar, A)`, lin_alg.cpp:262-274. -/
def scalar_multiplynm [Mul R] (k : R) (A : Ref) : M R Ref := dupR (· * k) A.asM
/-- `scalar_addnm(scalar, A)`, lin_alg.cpp:276-288. -/
def scalar_addnm [Add R] (k : R) (A : Ref) : M R Ref := dupR (· + k) A.asM
/-- `lognm(A)`, lin_alg.cpp:290-307. -/
def lognm [MathFns R] (A : Ref) : M R Ref := unR MathFns.log A.asM
/-- `log10nm(A)`, lin_alg.cpp:308-325. -/
def log10nm [MathFns R] (A : Ref) : M R Ref := unR MathFns.log10 A.asM
/-- `expnm(A)`, lin_alg.cpp:326-343. -/
def expnm [MathFns R] (A : Ref) : M R Ref := unR MathFns.exp A.asM
/-- `erfnm(A)`, lin_alg.cpp:344-361. -/
def erfnm [MathFns R] (A : Ref) : M R Ref := unR MathFns.erf A.asM
/-- `exponentiatenm(A, p)`, lin_alg.cpp:362-379. -/
def exponentiatenm [MathFns R] (p : R) (A : Ref) : M R Ref := unR (fun x => MathFns.pow x p) A.asM
/-- `sqrtnm(A)`, lin_alg.cpp:380-397. -/
def sqrtnm [MathFns R] (A : Ref) : M R Ref := unR MathFns.sqrt A.asM
/-- `cbrtnm(A)`, lin_alg.cpp:398-400. -/
def cbrtnm [MathFns R] [One R] [IntCast R] [Div R] (A : Ref) : M R Ref := exponentiatenm (1 / ((3 : Int) : R)) A
/-- `absnm(A)`, lin_alg.cpp:417-434. -/
def absnm [LT R] [DecidableLT R] [Neg R] [Zero R] (A : Ref) : M R Ref := unR absC A.asM
/-- `sinnm(A)`, lin_alg.cpp:580-597. -/
def sinnm [MathFns R] (A : Ref) : M R Ref := unR MathFns.sin A.asM
/-- `cosnm(A)`, lin_alg.cpp:598-615. -/
def cosnm [MathFns R] (A : Ref) : M R Ref := unR MathFns.cos A.asM

/-- `instance(); resize(s); fill(k)`, shape of lin_alg.cpp:547-573. -/
def fullM (s : Size) (k : R) : M R Ref := do
  let mat ← newMat
  resizeTo mat s
  fillAll mat k
  pure (some mat)
/-- `zeromatnm(n, m)`, lin_alg.cpp:552-560. -/
def zeromatnm [Zero R] (n m : Nat) : M R Ref := fullM ⟨m, n, 1⟩ 0
/-- `onematnm(n, m)`, lin_alg.cpp:561-569. -/
def onematnm [One R] (n m : Nat) : M R Ref := fullM ⟨m, n, 1⟩ 1
/-- `fullnm(n, m, k)`, lin_alg.cpp:570-578. -/
def fullnm [IntCast R] (n m : Nat) (k : Int) : M R Ref := fullM ⟨m, n, 1⟩ (k : R)

/-- `maxnm(A, B)`, lin_alg.cpp:1554-1570: no null or size check; `MAX(a, b)` is `a > b ? a : b` (platform/sfw.h:575). -/
def maxnm [LT R] [DecidableLT R] (A B : Ref) : M R Ref := do
  let a ← deref A.asM
  let out ← newMat
  let s ← getSize a
  resizeTo out s
  let b ← deref B.asM
  binLoop maxC a b out s.count
  pure (some out)

/-! ## Vectors -/

/-- `hadamard_productnv(a, b)`, lin_alg.cpp:1106-1127. -/
def hadamard_productnv [Mul R] (a b : Ref) : M R Ref := binR (· * ·) a.asV b.asV
/-- `division_element_wisenv(a, b)`, lin_alg.cpp:1148-1169. -/
def division_element_wisenv [Div R] (a b : Ref) : M R Ref := binR (· / ·) a.asV b.asV
/-- `scalar_multiplynv(scalar, a)`, lin_alg.cpp:1171-1189. -/
def scalar_multiplynv [Mul R] (k : R) (a : Ref) : M R Ref := unR (· * k) a.asV
/-- `scalar_addnv(scalar, a)`, lin_alg.cpp:1207-1225. -/
def scalar_addnv [Add R] (k : R) (a : Ref) : M R Ref := unR (· + k) a.asV
/-- `additionnv(a, b)`, lin_alg.cpp:1243-1263. -/
def additionnv [Add R] (a b : Ref) : M R Ref := binR (· + ·) a.asV b.asV
/-- `subtractionnv(a, b)`, lin_alg.cpp:1284-1309: empty operands give a fresh empty vector. -/
def subtractionnv [Sub R] (a b : Ref) : M R Ref :=
  match a.asV, b.asV with
  | some a, some b => do
    let s ← getSize a
    let sb ← getSize b
    if s = sb then do
      let out ← newVec
      if s.count = 0 then pure (some out) else do
        resizeTo out s
        binLoop (· - ·) a b out s.count
        pure (some out)
    else pure none
  | _, _ => pure none
/-- `lognv(a)`, lin_alg.cpp:1330-1347. -/
def lognv [MathFns R] (a : Ref) : M R Ref := unR MathFns.log a.asV
/-- `log10nv(a)`, lin_alg.cpp:1348-1365. -/
def log10nv [MathFns R] (a : Ref) : M R Ref := unR MathFns.log10 a.asV
/-- `expnv(a)`, lin_alg.cpp:1366-1383. -/
def expnv [MathFns R] (a : Ref) : M R Ref := unR MathFns.exp a.asV
/-- `erfnv(a)`, lin_alg.cpp:1384-1401. -/
def erfnv [MathFns R] (a : Ref) : M R Ref := unR MathFns.erf a.asV
/-- `exponentiatenv(a, p)`, lin_alg.cpp:1402-1419. -/
def exponentiatenv [MathFns R] (p : R) (a : Ref) : M R Ref := unR (fun x => MathFns.pow x p) a.asV
/-- `sqrtnv(a)`, lin_alg.cpp:1420-1437. -/
def sqrtnv [MathFns R] (a : Ref) : M R Ref := unR MathFns.sqrt a.asV
/-- `cbrtnv(a)`, lin_alg.cpp:1438-1440. -/
def cbrtnv [MathFns R] [One R] [IntCast R] [Div R] (a : Ref) : M R Ref := exponentiatenv (1 / ((3 : Int) : R)) a
/-- `absv(a)`, lin_alg.cpp:1470-1487. -/
def absv [LT R] [DecidableLT R] [Neg R] [Zero R] (a : Ref) : M R Ref := unR absC a.asV
/-- `sinnv(a)`, lin_alg.cpp:1517-1534. -/
def sinnv [MathFns R] (a : Ref) : M R Ref := unR MathFns.sin a.asV
/-- `cosnv(a)`, lin_alg.cpp:1535-1552. -/
def cosnv [MathFns R] (a : Ref) : M R Ref := unR MathFns.cos a.asV

/-- `instance(); resize(n); fill(k)`, shape of lin_alg.cpp:1479-1503. -/
def fullV (n : Nat) (k : R) : M R Ref := do
  let vec ← newVec
  resizeTo vec ⟨n, 1, 1⟩
  fillAll vec k
  pure (some vec)
/-- `zerovecnv(n)`, lin_alg.cpp:1489-1497. -/
def zerovecnv [Zero R] (n : Nat) : M R Ref := fullV n 0
/-- `onevecnv(n)`, lin_alg.cpp:1498-1506. -/
def onevecnv [One R] (n : Nat) : M R Ref := fullV n 1
/-- `fullnv(n, k)`, lin_alg.cpp:1507-1515. -/
def fullnv [IntCast R] (n : Nat) (k : Int) : M R Ref := fullV n (k : R)

/-- `maxnvv(a, b)`, lin_alg.cpp:617-645: bad operands give a fresh empty vector. -/
def maxnvv [LT R] [DecidableLT R] (a b : Ref) : M R Ref := do
  let ret ← newVec
  match a.asV, b.asV with
  | some a, some b => do
    let s ← getSize a
    let sb ← getSize b
    if s = sb then do
      resizeTo ret s
      binLoop maxC a b ret s.count
      pure (some ret)
    else pure (some ret)
  | _, _ => pure (some ret)

/-! ### Variants that write into a given vector -/

/-- `hadamard_productv(a, b, out)`, lin_alg.cpp:1128-1146. -/
def hadamard_productv [Mul R] (a b out : Option Nat) : M R Unit :=
  match out with
  | none => pure ()
  | some o => binB (· * ·) (.v o) (a.map .v) (b.map .v)
/-- `additionv(a, b, out)`, lin_alg.cpp:1264-1282. -/
def additionv [Add R] (a b out : Option Nat) : M R Unit :=
  match out with
  | none => pure ()
  | some o => binB (· + ·) (.v o) (a.map .v) (b.map .v)
/-- `subtractionv(a, b, out)`, lin_alg.cpp:1310-1328. -/
def subtractionv [Sub R] (a b out : Option Nat) : M R Unit :=
  match out with
  | none => pure ()
  | some o => binB (· - ·) (.v o) (a.map .v) (b.map .v)
/-- `scalar_multiplyv(scalar, a, out)`, lin_alg.cpp:1190-1205. -/
def scalar_multiplyv [Mul R] (k : R) (a out : Option Nat) : M R Unit :=
  match out with
  | none => pure ()
  | some o => unBC (· * k) (.v o) (a.map .v)
/-- `scalar_addv(scalar, a, out)`, lin_alg.cpp:1226-1241. -/
def scalar_addv [Add R] (k : R) (a out : Option Nat) : M R Unit :=
  match out with
  | none => pure ()
  | some o => unBC (· + k) (.v o) (a.map .v)

end LinAlg
end Verif
