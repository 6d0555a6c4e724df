import Verif.Float.Norm
import Verif.Astro.Vec
import Mathlib.Analysis.SpecialFunctions.Trigonometric.Inverse

/-
Orbital elements and spherical coordinates in double arithmetic: where the functions give a number
and where NaN (`none`).

`dso::Vector3` is of an outside library: its operations are taken to be the componentwise ones, the
sums from left to right.  The compiler may contract a product and a sum into one operation with one
rounding; `fused` chooses this for the norm.  Standard functions are rounded to nearest.  Overflow is
not modelled.
-/
namespace Verif.Float

open Verif.Astro (V3)
open Real

/-- Sum of squares, with or without fused operations. -/
noncomputable def normSqD (rnd : ℝ → ℝ) (fused : Bool) (v : V3) : ℝ :=
  if fused then rnd (v.z * v.z + rnd (v.y * v.y + rnd (v.x * v.x)))
  else rnd (rnd (rnd (v.x * v.x) + rnd (v.y * v.y)) + rnd (v.z * v.z))

/-- `norm()`. -/
noncomputable def normD (rnd : ℝ → ℝ) (fused : Bool) (v : V3) : ℝ := rnd √(normSqD rnd fused v)

/-- `dot_product`. -/
noncomputable def dotD (rnd : ℝ → ℝ) (a b : V3) : ℝ :=
  rnd (rnd (rnd (a.x * b.x) + rnd (a.y * b.y)) + rnd (a.z * b.z))

/-- `cross_product`. -/
noncomputable def crossD (rnd : ℝ → ℝ) (a b : V3) : V3 :=
  ⟨rnd (rnd (a.y * b.z) - rnd (a.z * b.y)), rnd (rnd (a.z * b.x) - rnd (a.x * b.z)),
    rnd (rnd (a.x * b.y) - rnd (a.y * b.x))⟩

/-- A quotient; `none`: an infinity or NaN, for a zero denominator. -/
noncomputable def quotD (rnd : ℝ → ℝ) (n d : ℝ) : Option ℝ :=
  open Classical in if d = 0 then none else some (rnd (n / d))

/-- `std::acos`; NaN outside [-1, 1]. -/
noncomputable def acosD (rnd : ℝ → ℝ) (t : ℝ) : Option ℝ :=
  open Classical in if -1 ≤ t ∧ t ≤ 1 then some (rnd (arccos t)) else none

/-- `std::asin`; NaN outside [-1, 1]. -/
noncomputable def asinD (rnd : ℝ → ℝ) (t : ℝ) : Option ℝ :=
  open Classical in if -1 ≤ t ∧ t ≤ 1 then some (rnd (arcsin t)) else none

/-- `std::sqrt`; NaN for negative numbers. -/
noncomputable def sqrtD (rnd : ℝ → ℝ) (t : ℝ) : Option ℝ :=
  open Classical in if t < 0 then none else some (rnd √t)

/-- The elements of `state2kepler`; angles as `none` where they are NaN. -/
structure ClassicD where
  h : ℝ
  i : Option ℝ
  Omega : Option ℝ
  e : ℝ
  omega : Option ℝ
  theta : Option ℝ

/-- Replacement of an angle by its complement to a full turn, `iers2010::D2PI - angle`
(src/astrodynamics/state2kepler.cpp:312, 335, 350). -/
noncomputable def turnD (rnd : ℝ → ℝ) (turn : ℝ) (b : Prop) (a : Option ℝ) : Option ℝ :=
  open Classical in if b then a.map fun a => rnd (turn - a) else a

/-- `state2kepler` (src/astrodynamics/state2kepler.cpp:264-354), `turn` for `iers2010::D2PI`. -/
noncomputable def state2keplerD (rnd : ℝ → ℝ) (fused : Bool) (turn : ℝ) (pos vel : V3) (m : ℝ) :
    ClassicD :=
  let r := normD rnd fused pos
  let v := normD rnd fused vel
  let vr := rnd (dotD rnd pos vel / r)
  let hv := crossD rnd pos vel
  let h := normD rnd fused hv
  let i := (quotD rnd hv.z h).bind (acosD rnd)
  let Nv : V3 := ⟨-hv.y, hv.x, 0⟩
  let N := normD rnd fused Nv
  let Nf := (quotD rnd Nv.x N).bind (acosD rnd)
  let A := rnd (rnd (v * v) - rnd (m / r))
  let B := rnd (r * vr)
  let ec := fun p w => rnd (rnd (rnd (p * A) - rnd (w * B)) / m)
  let ev : V3 := ⟨ec pos.x vel.x, ec pos.y vel.y, ec pos.z vel.z⟩
  let e := normD rnd fused ev
  let Of := ((quotD rnd (dotD rnd Nv ev) N).bind fun q => quotD rnd q e).bind (acosD rnd)
  let Tf := ((quotD rnd (dotD rnd ev pos) e).bind fun q => quotD rnd q r).bind (acosD rnd)
  { h := h, i := i, Omega := turnD rnd turn (Nv.y < 0) Nf, e := e,
    omega := turnD rnd turn (ev.z < 0) Of, theta := turnD rnd turn (vr < 0) Tf }

/-- Inclination and node of `alternatives::state2kepler_vallado`
(src/astrodynamics/state2kepler.cpp:217-222, 244-249). -/
noncomputable def valladoNodeD (rnd : ℝ → ℝ) (fused : Bool) (turn : ℝ) (r v : V3) :
    Option ℝ × Option ℝ :=
  let h := crossD rnd r v
  let hnorm := normD rnd fused h
  let n : V3 := ⟨-h.y, h.x, 0⟩
  let nnorm := normD rnd fused n
  ((quotD rnd h.z hnorm).bind (acosD rnd),
    turnD rnd turn (n.y < 0) ((quotD rnd n.x nnorm).bind (acosD rnd)))

/-- Eccentricity of `alternatives::state2kepler_montenbruck`
(src/astrodynamics/state2kepler.cpp:181-183, 191-195). -/
noncomputable def montenbruckEccD (rnd : ℝ → ℝ) (fused : Bool) (r v : V3) (m : ℝ) : Option ℝ :=
  let rmag := normD rnd fused r
  let h := crossD rnd r v
  let p := rnd (normSqD rnd fused h / m)
  let a := rnd (1 / rnd (rnd (2 / rmag) - rnd (normSqD rnd fused v / m)))
  sqrtD rnd (rnd (1 - rnd (p / a)))

/-- `pos2ad` (src/astrodynamics/pos2ra.cpp:7-32): right ascension and declination. -/
noncomputable def pos2adD (rnd : ℝ → ℝ) (fused : Bool) (turn : ℝ) (pos : V3) :
    Option ℝ × Option ℝ :=
  let r := normD rnd fused pos
  let d := (quotD rnd pos.z r).bind (asinD rnd)
  let af := d.bind fun d =>
    (quotD rnd pos.x r).bind fun l => (quotD rnd l (rnd (cos d))).bind (acosD rnd)
  ((quotD rnd pos.y r).bind fun m => turnD rnd turn (m ≤ 0) af, d)

end Verif.Float
