import Mathlib.LinearAlgebra.Matrix.Notation
import Mathlib.Data.Matrix.Mul
import Mathlib.Algebra.Order.Field.Basic

/-
Model of test/test_kalman.py: a line fitted by a Kalman filter, in matrices and, for comparison, in
scalars.  Numbers are elements of an ordered field in place of `float`; a division by zero (numpy: an
error of `inv`, or `inf`) is the field's, the theorems show that it does not occur.  Printing, plotting
and reading the file are left out, as is the unused `make_model`.
-/
namespace Verif.Filters.KalmanPy

open Matrix

variable {K : Type} [Field K] [LinearOrder K] [IsStrictOrderedRing K]

/-- The members (test/test_kalman.py:38-48).  `xdeb` and `Pdeb` are the caller's arrays `x0` and `P0`
themselves (lines 47-48), written in place by `update`; `x` and `P` are so only until the first `update`,
which reads them before it writes and then binds the names to new arrays, so that values suffice here. -/
structure Filter (K : Type) where
  x : Fin 2 → K
  P : Matrix (Fin 2) (Fin 2) K
  tref : K
  R : K
  Q : Matrix (Fin 2) (Fin 2) K
  max0 : K
  max1 : K
  xdeb : Fin 2 → K
  Pdeb : Matrix (Fin 2) (Fin 2) K

/-- `__init__` (test/test_kalman.py:38-48). -/
def Filter.init (x0 : Fin 2 → K) (P0 : Matrix (Fin 2) (Fin 2) K) (tref sigma : K)
    (Q : Matrix (Fin 2) (Fin 2) K) : Filter K :=
  ⟨x0, P0, tref, sigma * sigma, Q, -(1 / 10 ^ 15), -(1 / 10 ^ 15), x0, P0⟩

/-- `H` (test/test_kalman.py:65). -/
def rowH (f : Filter K) (t : K) : Fin 2 → K := ![1, t - f.tref]

/-- `newP` (test/test_kalman.py:63-67). -/
def newP (f : Filter K) : Matrix (Fin 2) (Fin 2) K := (1 : Matrix (Fin 2) (Fin 2) K) * f.P * 1ᵀ + f.Q

/-- `y`, the innovation (test/test_kalman.py:66-69). -/
def innovation (f : Filter K) (z t : K) : K := z - rowH f t ⬝ᵥ ((1 : Matrix (Fin 2) (Fin 2) K) *ᵥ f.x)

/-- `S` (test/test_kalman.py:70). -/
def varS (f : Filter K) (t : K) : K := (rowH f t ᵥ* newP f) ⬝ᵥ rowH f t + f.R

/-- `K` (test/test_kalman.py:71). -/
def gain (f : Filter K) (t : K) : Fin 2 → K := (varS f t)⁻¹ • (newP f *ᵥ rowH f t)

/-- The gain of the scalar version: `k0`, `k1` (test/test_kalman.py:76-81). -/
def gainDeb (f : Filter K) (t : K) : K × K :=
  let dt := t - f.tref
  let p0p1dt := f.Pdeb 0 0 + f.Pdeb 0 1 * dt
  let p1p2dt := f.Pdeb 0 1 + f.Pdeb 1 1 * dt
  let s := p0p1dt + dt * p1p2dt + f.R
  (p0p1dt / s, p1p2dt / s)

/-- The covariance of the scalar version (test/test_kalman.py:90-96). -/
def covDeb (f : Filter K) (t : K) : Matrix (Fin 2) (Fin 2) K :=
  let dt := t - f.tref
  let k0 := (gainDeb f t).1
  let k1 := (gainDeb f t).2
  let p0 := (1 - k0) * f.Pdeb 0 0 - f.Pdeb 0 1 * k0 * dt
  let p1 := (((1 - k0) * f.Pdeb 0 1 - f.Pdeb 1 1 * k0 * dt) +
    (-k1 * f.Pdeb 0 0 + (1 - k1 * dt) * f.Pdeb 0 1)) / 2
  let p2 := -k1 * f.Pdeb 0 1 + (1 - k1 * dt) * f.Pdeb 1 1
  !![p0, p1; p1, p2]

/-- `update` (test/test_kalman.py:61-96). -/
def update (f : Filter K) (z t : K) : Filter K :=
  let y := innovation f z t
  let k := gain f t
  let d0 := |(gainDeb f t).1 - k 0|
  let d1 := |(gainDeb f t).2 - k 1|
  { f with
    x := (1 : Matrix (Fin 2) (Fin 2) K) *ᵥ f.x + y • k
    P := (1 - vecMulVec k (rowH f t)) * newP f
    max0 := if d0 > f.max0 then d0 else f.max0
    max1 := if d1 > f.max1 then d1 else f.max1
    xdeb := ![f.xdeb 0 + (gainDeb f t).1 * y, f.xdeb 1 + (gainDeb f t).2 * y]
    Pdeb := covDeb f t }

/-- The loop over the observations, pairs of time and value (test/test_kalman.py:116-117). -/
def run (f : Filter K) (obs : List (K × K)) : Filter K := obs.foldl (fun f o => update f o.2 o.1) f

/-- The loop of `recreate` (test/test_kalman.py:50-59): times and values; `none` if not finished after
`fuel` turns. -/
def recreate (f : Filter K) (step : K) : Nat → K → K → Option (List (K × K))
  | 0, _, _ => none
  | fuel + 1, t1, t2 =>
    if t1 < t2 then
      (recreate f step fuel (t1 + step) t2).map ((t1, (t1 - f.tref) * f.x 1 + f.x 0) :: ·)
    else some []

/-- The filter of the main program (test/test_kalman.py:109-117) for the observations of the file; `none`
for an empty file (`y[0]` raises). -/
def main : List (K × K) → Option (Filter K)
  | [] => none
  | o :: os => some (run (Filter.init ![o.2, 5] !![5 / 2, 0; 0, 2] o.1 5 0) (o :: os))

end Verif.Filters.KalmanPy
