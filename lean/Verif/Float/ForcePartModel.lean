import Verif.Float.ForceModel

/-
Model of the partials of `point_mass_accel` (src/gravity/point_mass_acceleration.cpp:21-44) and of
`solar_radiation_acceleration` (src/astrodynamics/solar_radiation.cpp:20-48) in double arithmetic.  As in
Verif/Float/ForceModel.lean every operation is followed by a rounding `rnd`, and Eigen evaluates the expressions for one
entry after the other.  None of the products outside the norms is a term of a sum, so that nothing else can be fused.
Overflow is outside the model.
-/
namespace Verif.Float.ForcePart

open Verif.Astro (V3)

/-- Entry of the identity matrix. -/
def delta (a b : Ax) : ℝ := if a = b then 1 else 0

/-- Entry of `3e0 * (d*d.transpose())` (src/gravity/point_mass_acceleration.cpp:41,
src/astrodynamics/solar_radiation.cpp:38). -/
def outer3D (rnd : ℝ → ℝ) (d : V3) (a b : Ax) : ℝ := rnd (3 * rnd (a.of d * b.of d))

/-- Entry of the partials of `point_mass_accel` (src/gravity/point_mass_acceleration.cpp:27-41). -/
noncomputable def pmPartD (rnd : ℝ → ℝ) (f f' g g' : FuseN) (GM : ℝ) (rsat robj : V3) (a b : Ax) : ℝ :=
  let d := subD rnd rsat robj
  let dn := nrmD rnd f d
  let dn2 := sqD rnd f' d.x d.y d.z
  let sn := nrmD rnd g robj
  let sn2 := sqD rnd g' robj.x robj.y robj.z
  let sn5 := rnd (rnd (sn2 * sn2) * sn)
  rnd (-GM * rnd (rnd (delta a b / rnd (dn * dn2)) + rnd (outer3D rnd d a b / sn5)))

/-- `P0 * C * (Area / mass) * AU2` (src/astrodynamics/solar_radiation.cpp:36). -/
noncomputable def srpFacD (rnd : ℝ → ℝ) (AU Area mass C : ℝ) : ℝ :=
  rnd (rnd (rnd (rnd (456316 / 10 ^ 11) * C) * rnd (Area / mass)) * rnd (AU * AU))

/-- Entry of `dadr` (src/astrodynamics/solar_radiation.cpp:27-38). -/
noncomputable def srpPartD (rnd : ℝ → ℝ) (f : FuseN) (AU : ℝ) (rsat rsun : V3) (Area mass C : ℝ) (a b : Ax) : ℝ :=
  let d := subD rnd rsat rsun
  let D := nrmD rnd f d
  let D3 := rnd (rnd (D * D) * D)
  rnd (srpFacD rnd AU Area mass C * rnd (rnd (delta a b / D3) - rnd (outer3D rnd d a b / rnd (rnd (D3 * D) * D))))

/-- Entry of `dadC` (src/astrodynamics/solar_radiation.cpp:41-45) for a coefficient that is not zero. -/
noncomputable def srpDCD (rnd : ℝ → ℝ) (f : FuseN) (AU : ℝ) (rsat rsun : V3) (Area mass C : ℝ) (a : Ax) : ℝ :=
  rnd (srpD rnd f AU rsat rsun Area mass C a / C)

end Verif.Float.ForcePart
