import Verif.Model.Vector
import Verif.Model.Sort
import Verif.Model.Matrix

/-!
# `MLPPStat` (core/stat.cpp)

`int` to `real_t` conversions are `IntCast`; `M_E` is `exp 1` (a rounded constant in the code).
-/

namespace Verif
namespace Stat
variable {R : Type}

section
variable [Zero R] [One R] [Add R] [Sub R] [Mul R] [Div R] [IntCast R]

/-- `meanv(x)`, stat.cpp:161-173. -/
def meanv (x : Option Nat) : M R R :=
  match x with
  | none => pure 0
  | some x => do
    let n ← Vec.size x
    let sum ← foldN n 0 fun i sum => do
      let xi ← load (.v x) i
      pure (sum + xi)
    pure (sum / ((n : Int) : R))

/-- `variancev(x)`, stat.cpp:181-196. -/
def variancev (x : Option Nat) : M R R :=
  match x with
  | none => pure 0
  | some x => do
    let x_mean ← meanv (some x)
    let n ← Vec.size x
    let sum ← foldN n 0 fun i sum => do
      let xi ← load (.v x) i
      pure (sum + (xi - x_mean) * (xi - x_mean))
    pure (sum / (((n : Int) - 1 : Int) : R))

/-- `standard_deviationv(x)`, stat.cpp:175-179. -/
def standard_deviationv [MathFns R] (x : Option Nat) : M R R :=
  match x with
  | none => pure 0
  | some x => do
    let v ← variancev (some x)
    pure (MathFns.sqrt v)

/-- `covariancev(x, y)`, stat.cpp:198-216. -/
def covariancev (x y : Option Nat) : M R R :=
  match x, y with
  | some x, some y => do
    let n ← Vec.size x
    let ny ← Vec.size y
    if n = ny then do
      let x_mean ← meanv (some x)
      let y_mean ← meanv (some y)
      let sum ← foldN n 0 fun i sum => do
        let xi ← load (.v x) i
        let yi ← load (.v y) i
        pure (sum + (xi - x_mean) * (yi - y_mean))
      pure (sum / (((n : Int) - 1 : Int) : R))
    else pure 0
  | _, _ => pure 0

/-- `b1_estimation(x, y)`, stat.cpp:54-58. -/
def b1_estimation (x y : Option Nat) : M R R :=
  match x, y with
  | some x, some y => do
    let c ← covariancev (some x) (some y)
    let v ← variancev (some x)
    pure (c / v)
  | _, _ => pure 0

/-- `b0_estimation(x, y)`, stat.cpp:49-53. -/
def b0_estimation (x y : Option Nat) : M R R :=
  match x, y with
  | some x, some y => do
    let my ← meanv (some y)
    let b1 ← b1_estimation (some x) (some y)
    let mx ← meanv (some x)
    pure (my - b1 * mx)
  | _, _ => pure 0

/-- `median(p_x)`, stat.cpp:60-73. -/
def median [LT R] [DecidableLT R] (p_x : Option Nat) : M R R :=
  match p_x with
  | none => pure 0
  | some p => do
    let r ← Vec.duplicate_fast p
    let x ← derefV r
    let n ← Vec.size x
    let center := n / 2
    Vec.sort x
    let n' ← Vec.size x
    if n' % 2 = 0 then do
      let a ← Vec.element_get x ((center : Int) - 1)
      let b ← Vec.element_get x (center : Int)
      pure ((a + b) / ((2 : Int) : R))
    else Vec.element_get x ((center : Int) - 1)

/-- `range(x)`, stat.cpp:115-120, with `MLPPLinAlg::maxvr` and `minvr` (lin_alg.cpp:1572-1609), whose bodies are those of
`MLPPVector::max_element` and `min_element`. -/
def range [LT R] [DecidableLT R] [Neg R] [HasInf R] (x : Option Nat) : M R R :=
  match x with
  | none => pure 0
  | some x => do
    let a ← Vec.max_element x
    let b ← Vec.min_element x
    pure (a - b)

/-- `midrange(x)`, stat.cpp:122-126. -/
def midrange [LT R] [DecidableLT R] [Neg R] [HasInf R] (x : Option Nat) : M R R :=
  match x with
  | none => pure 0
  | some x => do
    let r ← range (some x)
    pure (r / ((2 : Int) : R))

/-- `abs_avg_deviation(p_x)`, stat.cpp:128-142. -/
def abs_avg_deviation [LT R] [DecidableLT R] [Neg R] (p_x : Option Nat) : M R R :=
  match p_x with
  | none => pure 0
  | some x => do
    let x_mean ← meanv (some x)
    let n ← Vec.size x
    let sum ← foldN n 0 fun i sum => do
      let xi ← load (.v x) i
      pure (sum + absC (xi - x_mean))
    pure (sum / ((n : Int) : R))

/-- `correlation(x, y)`, stat.cpp:144-148. -/
def correlation [MathFns R] (x y : Option Nat) : M R R :=
  match x, y with
  | some x, some y => do
    let c ← covariancev (some x) (some y)
    let sx ← standard_deviationv (some x)
    let sy ← standard_deviationv (some y)
    pure (c / (sx * sy))
  | _, _ => pure 0

/-- `r2(x, y)`, stat.cpp:150-154. -/
def r2 [MathFns R] (x y : Option Nat) : M R R :=
  match x, y with
  | some x, some y => do
    let a ← correlation (some x) (some y)
    let b ← correlation (some x) (some y)
    pure (a * b)
  | _, _ => pure 0

/-- `chebyshev_ineq(k)`, stat.cpp:156-159. -/
def chebyshev_ineq (k : R) : R := 1 - 1 / (k * k)

/-- `weighted_mean(x, weights)`, stat.cpp:218-233. -/
def weighted_mean (x weights : Option Nat) : M R R :=
  match x, weights with
  | some x, some w => do
    let n ← Vec.size x
    let nw ← Vec.size w
    if n = nw then do
      let s ← foldN n ((0 : R), (0 : R)) fun i s => do
        let xi ← load (.v x) i
        let wi ← load (.v w) i
        pure (s.1 + xi * wi, s.2 + wi)
      pure (s.1 / s.2)
    else pure 0
  | _, _ => pure 0

/-- `geometric_mean(x)`, stat.cpp:235-247. -/
def geometric_mean [MathFns R] (x : Option Nat) : M R R :=
  match x with
  | none => pure 0
  | some x => do
    let n ← Vec.size x
    let p ← foldN n 1 fun i p => do
      let xi ← load (.v x) i
      pure (p * xi)
    pure (MathFns.pow p (1 / ((n : Int) : R)))

/-- `harmonic_mean(x)`, stat.cpp:249-260. -/
def harmonic_mean (x : Option Nat) : M R R :=
  match x with
  | none => pure 0
  | some x => do
    let n ← Vec.size x
    let sum ← foldN n 0 fun i sum => do
      let xi ← load (.v x) i
      pure (sum + 1 / xi)
    pure (((n : Int) : R) / sum)

/-- `rms(x)`, stat.cpp:262-276. -/
def rms [MathFns R] (x : Option Nat) : M R R :=
  match x with
  | none => pure 0
  | some x => do
    let n ← Vec.size x
    let sum ← foldN n 0 fun i sum => do
      let xi ← load (.v x) i
      pure (sum + xi * xi)
    pure (MathFns.sqrt (sum / ((n : Int) : R)))

/-- `power_mean(x, p)`, stat.cpp:278-289. -/
def power_mean [MathFns R] (x : Option Nat) (p : R) : M R R :=
  match x with
  | none => pure 0
  | some x => do
    let n ← Vec.size x
    let sum ← foldN n 0 fun i sum => do
      let xi ← load (.v x) i
      pure (sum + MathFns.pow xi p)
    pure (MathFns.pow (sum / ((n : Int) : R)) (1 / p))

/-- `lehmer_mean(x, p)`, stat.cpp:291-304. -/
def lehmer_mean [MathFns R] (x : Option Nat) (p : R) : M R R :=
  match x with
  | none => pure 0
  | some x => do
    let n ← Vec.size x
    let s ← foldN n ((0 : R), (0 : R)) fun i s => do
      let xi ← load (.v x) i
      pure (s.1 + MathFns.pow xi p, s.2 + MathFns.pow xi (p - 1))
    pure (s.1 / s.2)

/-- `weighted_lehmer_mean(x, weights, p)`, stat.cpp:306-321. -/
def weighted_lehmer_mean [MathFns R] (x weights : Option Nat) (p : R) : M R R :=
  match x, weights with
  | some x, some w => do
    let n ← Vec.size x
    let nw ← Vec.size w
    if n = nw then do
      let s ← foldN n ((0 : R), (0 : R)) fun i s => do
        let xi ← load (.v x) i
        let wi ← load (.v w) i
        pure (s.1 + wi * MathFns.pow xi p, s.2 + wi * MathFns.pow xi (p - 1))
      pure (s.1 / s.2)
    else pure 0
  | _, _ => pure 0

/-- `heronian_mean(A, B)`, stat.cpp:323-325. -/
def heronian_mean [MathFns R] (a b : R) : R := (a + MathFns.sqrt (a * b) + b) / ((3 : Int) : R)

/-- `contra_harmonic_mean(x)`, stat.cpp:327-331. -/
def contra_harmonic_mean [MathFns R] (x : Option Nat) : M R R :=
  match x with
  | none => pure 0
  | some x => lehmer_mean (some x) ((2 : Int) : R)

/-- `heinz_mean(A, B, x)`, stat.cpp:333-335. -/
def heinz_mean [MathFns R] (a b x : R) : R :=
  (MathFns.pow a x * MathFns.pow b (1 - x) + MathFns.pow a (1 - x) * MathFns.pow b x) / ((2 : Int) : R)

/-- `neuman_sandor_mean(a, b)`, stat.cpp:337-340, with `MLPPActivation::arsinh_normr` (activation.cpp:2201-2203). -/
def neuman_sandor_mean [MathFns R] (a b : R) : R :=
  let z := (a - b) / (a + b)
  (a - b) / ((2 : Int) : R) * MathFns.log (z + MathFns.sqrt (z * z + 1))

/-- `stolarsky_mean(x, y, p)`, stat.cpp:342-347. -/
def stolarsky_mean [MathFns R] [DecidableEq R] (x y p : R) : R :=
  if x = y then x else MathFns.pow ((MathFns.pow x p - MathFns.pow y p) / (p * (x - y))) (1 / (p - 1))

/-- `identric_mean(x, y)`, stat.cpp:349-354. -/
def identric_mean [MathFns R] [DecidableEq R] (x y : R) : R :=
  if x = y then x else (1 / MathFns.exp (1 : R)) * MathFns.pow (MathFns.pow x x / MathFns.pow y y) (1 / (x - y))

/-- `log_mean(x, y)`, stat.cpp:356-361. -/
def log_mean [MathFns R] [DecidableEq R] (x y : R) : R :=
  if x = y then x else (y - x) / (MathFns.log y - MathFns.log x)
end

/-! ## mode -/

/-- The inner loop of `MLPPData::vec_to_setnv`, data.h:229-240, on the `Vector<real_t>` collected so far. -/
def addNew [DecidableEq R] (s : List R) (x : R) : List R := if s.any (fun y => decide (y = x)) then s else s ++ [x]

/-- `MLPPData::vec_to_setnv(input_set)`, data.h:225-247. -/
def vec_to_setnv [Zero R] [DecidableEq R] (input_set : Nat) : M R Ref := do
  let n ← Vec.size input_set
  let s ← foldN n ([] : List R) fun i s => do
    let x ← Vec.element_get input_set (i : Int)
    pure (addNew s x)
  let ret ← newVec
  Vec.set_from_vector ret.id s
  pure (some ret)

/-- `HashMap<real_t, int>`: a missing key reads as the default value 0 (platform/sfw.h:16439-16447). Hashing is not
modelled. -/
def mapAdd [DecidableEq R] (m : R → Int) (k : R) : R → Int := fun x => if x = k then m k + 1 else m x
def mapSet [DecidableEq R] (m : R → Int) (k : R) (v : Int) : R → Int := fun x => if x = k then v else m x

/-- `mode(p_x)`, stat.cpp:75-113. The counts are compared as integers (the code converts them to `real_t`). -/
def mode [Zero R] [DecidableEq R] (p_x : Option Nat) : M R Ref :=
  match p_x with
  | none => pure none
  | some x => do
    let r ← vec_to_setnv x
    let x_set ← derefV r
    let x_set_size ← Vec.size x_set
    let x_size ← Vec.size x
    let m0 ← foldN (σ := R → Int) x_set_size (fun _ => (0 : Int)) fun i m => do
      let xi ← load (.v x) i
      pure (mapSet m xi 0)
    let element_num ← foldN (σ := R → Int) x_size m0 fun i m => do
      let xi ← load (.v x) i
      pure (mapAdd m xi)
    let modes ← newVec
    let first ← load (.v x_set) 0
    let _ ← foldN x_set_size (element_num first) fun i max_num => do
      let si ← load (.v x_set) i
      if max_num < element_num si then do
        Vec.clear modes.id
        Vec.push_back modes.id si
        pure (element_num si)
      else if element_num si = max_num then do
        Vec.push_back modes.id si
        pure max_num
      else pure max_num
    pure (some modes)

end Stat
end Verif
