import Verif.Float.Format
import Verif.Var.InterpModel

/-
Model of the nearest-neighbour and the linear interpolator of var/intrp.cc in double arithmetic: every operation
is followed by a rounding `rnd`; `fused`: the compiler joins the last product and sum to one operation with one
rounding.  Comparisons are exact.  Overflow is not modelled.  Loop and status: `Verif.Var.valueAt`.
-/
namespace Verif.Float

variable {K : Type} [Field K] [LinearOrder K]

/-- `NearestNeighborInterpolator` (var/intrp.cc:16-33). -/
def nearestD (rnd : K → K) (x y : Nat → K) (size : Nat) (q : K) : Option (Nat × K) :=
  Var.valueAt (fun i => some (if rnd (q - x (i - 1)) < rnd (x i - q) then y (i - 1) else y i)) x y size q

/-- The value in an interval (var/intrp.cc:50-52). -/
def segD (rnd : K → K) (fused : Bool) (x0 x1 y0 y1 q : K) : K :=
  let s := rnd (rnd (y0 - y1) / rnd (x0 - x1))
  let d := rnd (q - x0)
  if fused then rnd (y0 + s * d) else rnd (y0 + rnd (s * d))

/-- `LinearInterpolator` (var/intrp.cc:40-57). -/
def linearD (rnd : K → K) (fused : Bool) (x y : Nat → K) (size : Nat) (q : K) : Option (Nat × K) :=
  Var.valueAt (fun i => some (segD rnd fused (x (i - 1)) (x i) (y (i - 1)) (y i) q)) x y size q

end Verif.Float
