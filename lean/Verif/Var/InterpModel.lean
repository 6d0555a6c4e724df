import Mathlib.Algebra.Order.Field.Basic
import Mathlib.Algebra.Order.Ring.Abs

/-
Model of the interpolators of var/intrp.cc.  Numbers are elements of an ordered field, arrays are functions of the
index with a size.  `none`: the code reads outside of the arrays or an assertion fails.
-/
namespace Verif.Var

variable {K : Type} [Field K] [LinearOrder K]

/-- The loop over the intervals (var/intrp.cc:24-25, 48-49, 72-73): the first index `i` from 1 on with
`x[i - 1] <= q < x[i]`. -/
def interval (x : Nat → K) (size : Nat) (q : K) : Option Nat :=
  (List.range' 1 (size - 1)).find? fun i => decide (x (i - 1) ≤ q ∧ q < x i)

/-- The frame of the three functions `value_at` (var/intrp.cc:16-23, 30-32, 40-47, 54-56, 64-71, 97-99): status and
value; `inner`: the value in an interval. -/
def valueAt (inner : Nat → Option K) (x y : Nat → K) (size : Nat) (q : K) : Option (Nat × K) :=
  if size = 0 then none
  else if q ≤ x 0 then some (if q < x 0 then 1 else 0, y 0)
  else
    match interval x size q with
    | some i => (inner i).map fun v => (0, v)
    | none => some (2, y (size - 1))

/-- `NearestNeighborInterpolator` (var/intrp.cc:11-34). -/
def nearest (x y : Nat → K) (size : Nat) (q : K) : Option (Nat × K) :=
  valueAt (fun i => some (if q - x (i - 1) < x i - q then y (i - 1) else y i)) x y size q

/-- `LinearInterpolator` (var/intrp.cc:36-58). -/
def linear (x y : Nat → K) (size : Nat) (q : K) : Option (Nat × K) :=
  valueAt (fun i => some (y (i - 1) + ((y (i - 1) - y i) / (x (i - 1) - x i)) * (q - x (i - 1)))) x y size q

/-- The third point (var/intrp.cc:74-83); `none`: -1. -/
def third (x : Nat → K) (size : Nat) (q : K) (i : Nat) : Option Nat :=
  if i > 1 ∧ i < size - 1 then some (if q - x (i - 2) < x (i + 1) - q then i - 2 else i + 1)
  else if i ≤ 1 ∧ i < size - 1 then some (i + 1)
  else if i > 1 ∧ i ≥ size - 1 then some (i - 2)
  else none

/-- The parabola through three points (var/intrp.cc:86-95). -/
def parabola (x0 x1 x2 y0 y1 y2 q : K) : K :=
  let l0 := ((q - x1) * (q - x2)) / ((x0 - x1) * (x0 - x2))
  let l1 := ((q - x0) * (q - x2)) / ((x1 - x0) * (x1 - x2))
  let l2 := ((q - x0) * (q - x1)) / ((x2 - x0) * (x2 - x1))
  y0 * l0 + y1 * l1 + y2 * l2

/-- The value in an interval, with the assertion (var/intrp.cc:74-95). -/
def quadInner (x y : Nat → K) (size : Nat) (q : K) (i : Nat) : Option K :=
  match third x size q i with
  | none => none
  | some k => if k ≤ size - 1 then some (parabola (x (i - 1)) (x i) (x k) (y (i - 1)) (y i) (y k) q) else none

/-- `QuadraticInterpolator` (var/intrp.cc:60-101). -/
def quadratic (x y : Nat → K) (size : Nat) (q : K) : Option (Nat × K) := valueAt (quadInner x y size q) x y size q

end Verif.Var
