import Verif.Float.RangeRateModel
import Mathlib.Data.Real.Sqrt

/-
Model of the theoretical range rate and of the residual of the orbit determination program (test/rinex_pod.cpp) in
double arithmetic: every operation is followed by a rounding `rnd`.  The compiler may fuse a product with the sum it
belongs to; the choices are parameters.  `top2dae` (test/rinex_pod.cpp:767) is outside the repository: the present
distance is a parameter.  Eigen evaluates the norm of three components as the root of x^2 + (y^2 + z^2); the
statements hold for the components in any order.
-/
namespace Verif.Float

/-- How a sum of two products is compiled. -/
inductive FuseP
  | none | left | right
  deriving DecidableEq, Repr

/-- `a * b + c * d`, from the exact products. -/
def sum2D {K : Type} [Field K] (rnd : K → K) (m : FuseP) (p q : K) : K :=
  match m with
  | .none => rnd (rnd p + rnd q)
  | .left => rnd (p + rnd q)
  | .right => rnd (rnd p + q)

/-- `SatBeacon::rho` (test/rinex_pod.cpp:124). -/
noncomputable def distD (rnd : ℝ → ℝ) (m : FuseP) (fused : Bool) (x y z : ℝ) : ℝ :=
  let i := sum2D rnd m (y * y) (z * z)
  let q := if fused then rnd (x * x + i) else rnd (rnd (x * x) + i)
  rnd (√q)

/-- `TropoDetails::sum(Lwz_)` (test/rinex_pod.cpp:69). -/
def tropoD {K : Type} [Field K] (rnd : K → K) (m : FuseP) (lhz mfh lwz mfw : K) : K :=
  sum2D rnd m (lhz * mfh) (lwz * mfw)

/-- `Utheo` (test/rinex_pod.cpp:932-934). -/
def utheoD {K : Type} [Field K] (rnd : K → K) (f1 f2 : Bool) (feN frT ndopDt dt rho rho' dtropo df : K) : K :=
  let a := rnd (1 / dt)
  let d := rnd (rho - rho')
  let s := if f1 then rnd (a * d + dtropo) else rnd (rnd (a * d) + dtropo)
  let x := rnd (rnd (299792458 / feN) * rnd (ndopDt + frT))
  if f2 then rnd (s - x * df) else rnd (s - rnd (x * df))

/-- `oc` (test/rinex_pod.cpp:936). -/
def ocD {K : Type} [Field K] (rnd : K → K) (uobs utheo : K) : K := rnd (uobs + utheo)

end Verif.Float
