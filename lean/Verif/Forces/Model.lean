import Verif.Astro.Vec

/-
Model of the force models and frame transformations:
src/astrodynamics/drag.cpp, solar_radiation.cpp, occultation.cpp (46-73),
src/gravity/point_mass_acceleration.cpp, src/relativity/relativistic_clock_correction.cpp,
src/itrs2gcrs.cpp (84-154), src/variational_equations.cpp (73-75, 143-178).
Real numbers stand for `double`.  Divisions by zero are excluded by hypotheses in the theorems or
reported as `none`.
-/
namespace Verif.Forces

open Real Verif.Astro

/-! ### Drag -/

/-- `Eigen::normalized()`: a zero vector is returned as it is. -/
noncomputable def normalized (v : V3) : V3 := if v.dot v > 0 then v.smul (1 / v.norm) else v

/-- Angular velocity vector of the Earth (drag.cpp 25-26); `w` is `iers2010::OmegaEarth`. -/
def earthRate (w : ℝ) : V3 := ⟨0, 0, w⟩

/-- `drag_accel` with the true-of-date matrix (drag.cpp 20-42).  `vrel` is an unevaluated Eigen
expression that refers to the temporary returned by `omega.cross(rtod)`, gone by the time it is
read; `tmp` is what is read in its place. -/
noncomputable def dragTod (w : ℝ) (tmp : V3 → V3) (rsat vsat : V3) (rbpn : M3) (Area CD Mass dens : ℝ) : V3 :=
  let rtod := rbpn.mulVec rsat
  let vtod := rbpn.mulVec vsat
  let vrel := vtod.sub (tmp ((earthRate w).cross rtod))
  rbpn.transpose.mulVec (vrel.smul (-(1 / 2) * CD * (Area / Mass) * dens * vrel.norm))

/-- Velocity relative to the atmosphere (drag.cpp 54, 78). -/
def relVel (w : ℝ) (rsat vsat : V3) : V3 := vsat.sub ((earthRate w).cross rsat)

/-- `drag_accel` in the inertial frame (drag.cpp 45-62, 81-83). -/
noncomputable def drag (w : ℝ) (rsat vsat : V3) (Area CD Mass dens : ℝ) : V3 :=
  let vrel := relVel w rsat vsat
  (normalized vrel).smul (-(1 / 2) * CD * (Area / Mass) * dens * vrel.dot vrel)

/-- Partials with respect to the drag coefficient (drag.cpp 86). -/
noncomputable def dragDC (w : ℝ) (rsat vsat : V3) (Area Mass dens : ℝ) : V3 :=
  let vrel := relVel w rsat vsat
  vrel.smul (-(1 / 2) * (Area / Mass) * dens * vrel.norm)

/-- Partials with respect to velocity (drag.cpp 89-91). -/
noncomputable def dragDV (w : ℝ) (rsat vsat : V3) (Area CD Mass dens : ℝ) : M3 :=
  let vrel := relVel w rsat vsat
  ((M3.one.smul vrel.norm).add ((M3.outer vrel vrel).smul (1 / vrel.norm))).smul
    (-(1 / 2) * CD * (Area / Mass) * dens)

/-- `XOmega` (drag.cpp 94-97; the array is read column by column). -/
def xOmega (w : ℝ) : M3 := ⟨⟨0, -w, 0⟩, ⟨w, 0, 0⟩, ⟨0, 0, 0⟩⟩

/-- Partials with respect to position (drag.cpp 98-100). -/
noncomputable def dragDR (w : ℝ) (rsat vsat : V3) (Area CD Mass dens : ℝ) (ddens : V3) : M3 :=
  let vrel := relVel w rsat vsat
  (M3.outer (vrel.smul (-(1 / 2) * CD * (Area / Mass) * vrel.norm)) ddens).add
    ((M3.mul (dragDV w rsat vsat Area CD Mass dens) (xOmega w)).smul (-1))

/-! ### Radiation pressure -/

/-- `P0` (solar_radiation.cpp 13-14). -/
noncomputable def P0 : ℝ := 456316 / 10 ^ 11

/-- `solar_radiation_acceleration` (solar_radiation.cpp 3-18; 41-42). -/
noncomputable def srp (AU : ℝ) (rsat rsun : V3) (Area mass C : ℝ) : V3 :=
  let d := rsat.sub rsun
  let D := d.norm
  (d.smul (C * (Area / mass) * P0 * (AU * AU))).smul (1 / (D * D * D))

/-- The overload with partials (solar_radiation.cpp 20-48): acceleration, position partials,
coefficient partials (`none`: 0/0). -/
noncomputable def srpPartials (AU : ℝ) (rsat rsun : V3) (Area mass C : ℝ) : V3 × M3 × Option V3 :=
  let d := rsat.sub rsun
  let D := d.norm
  let D3 := D * D * D
  let dadr := ((M3.one.smul (1 / D3)).add ((M3.outer d d).smul (-3 / (D3 * D * D)))).smul
    (P0 * C * (Area / mass) * (AU * AU))
  let acc := (d.smul (C * (Area / mass) * P0 * (AU * AU))).smul (1 / D3)
  open Classical in
  (acc, dadr, if C = 0 then none else some (acc.smul (1 / C)))

/-! ### Third body -/

/-- `point_mass_accel` (point_mass_acceleration.cpp 3-19). -/
noncomputable def pointMass (GM : ℝ) (rsat robj : V3) : V3 :=
  let d := rsat.sub robj
  ((d.smul (1 / (d.norm * d.dot d))).add (robj.smul (1 / (robj.norm * robj.dot robj)))).smul (-GM)

/-- The overload with partials (point_mass_acceleration.cpp 21-44): the second term has a plus sign
and the distance of the body from the geocentre. -/
noncomputable def pointMassPartials (GM : ℝ) (rsat robj : V3) : V3 × M3 :=
  let d := rsat.sub robj
  let dn := d.norm
  let dn2 := d.dot d
  let sn := robj.norm
  let sn2 := robj.dot robj
  let sn5 := sn2 * sn2 * sn
  (((d.smul (1 / (dn * dn2))).add (robj.smul (1 / (sn * sn2)))).smul (-GM),
   ((M3.one.smul (1 / (dn * dn2))).add ((M3.outer d d).smul (3 / sn5))).smul (-GM))

/-! ### Relativistic clock correction -/

/-- Without the J2 term (relativistic_clock_correction.cpp 16-30). -/
noncomputable def clock (c : ℝ) (r v : V3) (GM : ℝ) : ℝ := (GM / r.norm + v.dot v / 2) / c

/-- With the J2 term (lines 44-69); `lat` is the geodetic latitude `car2ell` (outside library)
gives for the position. -/
noncomputable def clockJ2 (c : ℝ) (lat : V3 → ℝ) (r v : V3) (GM J2 Re : ℝ) : ℝ :=
  let R := r.norm
  let U := GM / R * (1 - Re / R * (Re / R) * J2 * (3 * sin (lat r) * sin (lat r) - 1) / 2)
  (U + v.dot v / 2) / c

/-! ### Shadow -/

/-- `montebruck_shadow`, vector overload (occultation.cpp 46-52). -/
noncomputable def shadowV (Re : ℝ) (rsat rsun : V3) : ℝ :=
  let u := rsun.smul (1 / rsun.norm)
  let s := rsat.dot u
  open Classical in
  if s > 0 ∨ (rsat.sub (u.smul s)).norm > Re then 1 else 0

/-- `montebruck_shadow`, Eigen overload (occultation.cpp 54-60). -/
noncomputable def shadowE (Re : ℝ) (rsat rsun : V3) : ℝ :=
  let u := normalized rsun
  let s := rsat.dot u
  open Classical in
  if s > 0 ∨ (rsat.sub (u.smul s)).norm > Re then 1 else 0

/-- The axis stretched by one plus the flattening (occultation.cpp 64-66). -/
def stretch (f : ℝ) (v : V3) : V3 := ⟨v.x, v.y, v.z * (1 + f)⟩

/-- `bernese_shadow1` (occultation.cpp 62-73). -/
noncomputable def berneseShadow (f Re : ℝ) (rsat rsun : V3) : ℝ :=
  let zsat := stretch f rsat
  let zsun := stretch f rsun
  let rcos := zsat.dot zsun / zsun.norm
  let rsin := √(zsat.dot zsat - rcos * rcos)
  open Classical in
  if rcos < 0 ∧ rsin - Re < 0 then 0 else 1

/-! ### Frames -/

/-- `rpom * R(era) * rc2i` (itrs2gcrs.cpp 89-90, 125). -/
noncomputable def c2t (rc2i : M3) (era : ℝ) (rpom : M3) : M3 := M3.mul rpom (M3.mul (M3.rotZ (-era)) rc2i)

/-- `rcel2ter` (itrs2gcrs.cpp 84-91). -/
noncomputable def rcel2ter (r : V3) (rc2i : M3) (era : ℝ) (rpom : M3) : V3 := (c2t rc2i era rpom).mulVec r

/-- `rter2cel` (itrs2gcrs.cpp 120-127). -/
noncomputable def rter2cel (r : V3) (rc2i : M3) (era : ℝ) (rpom : M3) : V3 :=
  (c2t rc2i era rpom).transpose.mulVec r

/-- The matrix `data` (itrs2gcrs.cpp 105, 141; read column by column). -/
def rateMat : M3 := ⟨⟨0, 1, 0⟩, ⟨-1, 0, 0⟩, ⟨0, 0, 0⟩⟩

/-- `rpom * rc2ti` with the derivative of the rotation (itrs2gcrs.cpp 108-116, 144-152).  `rc2ti`
is an unevaluated product referring to a temporary 3x3 matrix that no longer exists when it is
read: `tmp` gives what is read in place of the temporary.  `w` is the rotation rate, with or
without the length-of-day correction. -/
noncomputable def c2tRate (w : ℝ) (tmp : M3 → M3) (rc2i : M3) (era : ℝ) (rpom : M3) : M3 :=
  M3.mul rpom (M3.mul (tmp (M3.mul (rateMat.smul w) (M3.rotZ (-era)))) rc2i)

/-- `OmegaEarth(xlod)` (itrs2gcrs.cpp 80-82). -/
noncomputable def omegaEarth (w0 xlod : ℝ) : ℝ := w0 * (1 - xlod / 86400)

/-- `ycel2ter` (itrs2gcrs.cpp 93-118). -/
noncomputable def ycel2ter (w : ℝ) (tmp : M3 → M3) (y : V3 × V3) (rc2i : M3) (era : ℝ) (rpom : M3) : V3 × V3 :=
  (rcel2ter y.1 rc2i era rpom,
   (rcel2ter y.2 rc2i era rpom).add ((c2tRate w tmp rc2i era rpom).mulVec y.1))

/-- `yter2cel` (itrs2gcrs.cpp 129-154). -/
noncomputable def yter2cel (w : ℝ) (tmp : M3 → M3) (y : V3 × V3) (rc2i : M3) (era : ℝ) (rpom : M3) : V3 × V3 :=
  (rter2cel y.1 rc2i era rpom,
   (rter2cel y.2 rc2i era rpom).add ((c2tRate w tmp rc2i era rpom).transpose.mulVec y.1))

/-! ### Variational equations -/

/-- Gravity in the equations of motion (variational_equations.cpp 50-54, 73-75): `g` and `G` are
the Earth-fixed acceleration and partials as functions of the Earth-fixed position. -/
noncomputable def gravityInertial (g : V3 → V3) (G : V3 → M3) (U : M3) (r : V3) : V3 × M3 :=
  let rgeo := U.mulVec r
  (U.transpose.mulVec (g rgeo), M3.mul (M3.mul U (G rgeo)) U.transpose)

/-- `drhodr` (variational_equations.cpp 143-178); `dens` is the density the atmosphere model
returns for a position. -/
noncomputable def densityGradient (dens : V3 → ℝ) (r : V3) : V3 :=
  let rho := dens r
  let diff (a b : V3) := ((dens (r.add a) - rho) + (rho - dens (r.add b))) / 2
  ⟨diff ⟨1, 0, 0⟩ ⟨-1, 0, 0⟩, diff ⟨0, 1, 0⟩ ⟨0, -1, 0⟩, diff ⟨0, 0, 1⟩ ⟨0, 0, 1⟩⟩

end Verif.Forces
