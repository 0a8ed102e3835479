/-!
# Scalar functions

`real_t` operations beyond `+ - * / < ==`. No laws are assumed: an instance may be IEEE arithmetic or the real numbers.
-/

namespace Verif

/-- The functions of class `Math` (platform/sfw.h:2230-2330) the modelled code uses. -/
class MathFns (R : Type) where
  log : R → R
  log10 : R → R
  exp : R → R
  erf : R → R
  sqrt : R → R
  sin : R → R
  cos : R → R
  sinh : R → R
  cosh : R → R
  tanh : R → R
  pow : R → R → R
  /-- `Math_PI`, platform/sfw.h:219. -/
  pi : R

/-- `Math_INF` (platform/sfw.h:221). Separate, so that the real numbers need not pretend to contain it. -/
class HasInf (R : Type) where
  inf : R

/-- `ABS(v)`, platform/sfw.h:561. -/
def absC {R : Type} [LT R] [DecidableLT R] [Neg R] [Zero R] (v : R) : R := if v < 0 then -v else v

/-- The comparison `aa_i > bb_i ? aa_i : bb_i`, mlpp_vector.cpp:1075-1079. -/
def maxC {R : Type} [LT R] [DecidableLT R] (a b : R) : R := if b < a then a else b

/-- The comparison `aa_i < bb_i ? aa_i : bb_i`, mlpp_vector.cpp:1146-1150. -/
def minC {R : Type} [LT R] [DecidableLT R] (a b : R) : R := if a < b then a else b

/-- `Math::is_equal_approx(a, b, tolerance)`, platform/sfw.h:2652-2659 and 2687-2694. -/
def isEqualApproxS {R : Type} [BEq R] [LT R] [DecidableLT R] [Sub R] [Neg R] [Zero R] (a b tol : R) : Bool :=
  a == b || decide (absC (a - b) < tol)

end Verif
