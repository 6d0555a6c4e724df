import Verif.Float.ResidualModel
import Verif.Forces.Model

/-
Model of three functions in double arithmetic: `point_mass_accel` (src/gravity/point_mass_acceleration.cpp),
`solar_radiation_acceleration` (src/astrodynamics/solar_radiation.cpp) and `relativistic_clock_correction`
(src/relativity/relativistic_clock_correction.cpp).  Every operation is followed by a rounding `rnd`; a product may be
fused with the sum it belongs to (the choices are parameters).  Eigen evaluates squared norms of three components as
x^2 + (y^2 + z^2); the statements hold for the components in any order.  Overflow is outside the model.
-/
namespace Verif.Float

open Verif.Astro (V3)

/-- The axes. -/
inductive Ax
  | x | y | z
  deriving DecidableEq, Repr

/-- Component of a vector. -/
def Ax.of : Ax → V3 → ℝ
  | .x, v => v.x
  | .y, v => v.y
  | .z, v => v.z

/-- How a squared norm of three components is compiled. -/
structure FuseN where
  inner : FuseP
  outer : Bool
  deriving DecidableEq, Repr

/-- `squaredNorm()`. -/
def sqD {K : Type} [Field K] (rnd : K → K) (f : FuseN) (x y z : K) : K :=
  let i := sum2D rnd f.inner (y * y) (z * z)
  if f.outer then rnd (x * x + i) else rnd (rnd (x * x) + i)

/-- `norm()`. -/
noncomputable def nrmD (rnd : ℝ → ℝ) (f : FuseN) (v : V3) : ℝ := rnd (√(sqD rnd f v.x v.y v.z))

/-- `rsat - robj` (src/gravity/point_mass_acceleration.cpp:9, src/astrodynamics/solar_radiation.cpp:8). -/
def subD (rnd : ℝ → ℝ) (a b : V3) : V3 := ⟨rnd (a.x - b.x), rnd (a.y - b.y), rnd (a.z - b.z)⟩

/-- One component `v` of a vector divided by the cube of its length (src/gravity/point_mass_acceleration.cpp:12-18:
`d / (dn*dn2)` and `robj / (sn*sn2)`). -/
noncomputable def cubeD (rnd : ℝ → ℝ) (f f' : FuseN) (d : V3) (v : ℝ) : ℝ :=
  rnd (v / rnd (nrmD rnd f d * sqD rnd f' d.x d.y d.z))

/-- `point_mass_accel` (src/gravity/point_mass_acceleration.cpp:3-19), component by component. -/
noncomputable def pointMassD (rnd : ℝ → ℝ) (f f' g g' : FuseN) (GM : ℝ) (rsat robj : V3) (a : Ax) : ℝ :=
  let d := subD rnd rsat robj
  rnd (-GM * rnd (cubeD rnd f f' d (a.of d) + cubeD rnd g g' robj (a.of robj)))

/-- `solar_radiation_acceleration` (src/astrodynamics/solar_radiation.cpp:3-18), component by component. -/
noncomputable def srpD (rnd : ℝ → ℝ) (f : FuseN) (AU : ℝ) (rsat rsun : V3) (Area mass C : ℝ) (a : Ax) : ℝ :=
  let d := subD rnd rsat rsun
  let D := nrmD rnd f d
  let D3 := rnd (rnd (D * D) * D)
  let AU2 := rnd (AU * AU)
  let p := rnd (456316 / 10 ^ 11)
  rnd (rnd (rnd (rnd (rnd (C * rnd (Area / mass)) * p) * AU2) * a.of d) / D3)

/-- `relativistic_clock_correction` without J2 (src/relativity/relativistic_clock_correction.cpp:16-30); halving is
exact except for the tiniest numbers. -/
noncomputable def clockD (rnd : ℝ → ℝ) (f g : FuseN) (c : ℝ) (r v : V3) (GM : ℝ) : ℝ :=
  rnd (rnd (rnd (GM / nrmD rnd f r) + rnd (sqD rnd g v.x v.y v.z / 2)) / c)

/-- `relativistic_clock_correction` with J2 (src/relativity/relativistic_clock_correction.cpp:44-69); `s` is the double
`std::sin(latitude)`, `fs` says whether `3 s^2 - 1` is fused. -/
noncomputable def clockJ2D (rnd : ℝ → ℝ) (f g : FuseN) (fs : Bool) (c s : ℝ) (r v : V3) (GM J2 Re : ℝ) : ℝ :=
  let R := nrmD rnd f r
  let k := rnd (Re / R)
  let p := rnd (rnd (k * k) * J2)
  let t := if fs then rnd (rnd (3 * s) * s - 1) else rnd (rnd (rnd (3 * s) * s) - 1)
  let q := rnd (rnd (p * t) / 2)
  let U := rnd (rnd (GM / R) * rnd (1 - q))
  rnd (rnd (U + rnd (sqD rnd g v.x v.y v.z / 2)) / c)

end Verif.Float
