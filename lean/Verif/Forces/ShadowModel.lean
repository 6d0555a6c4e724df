import Verif.Astro.Vec
import Mathlib.Analysis.SpecialFunctions.Trigonometric.Inverse

/-!
Model of the two conical shadow functions (src/astrodynamics/occultation.cpp 17-44, 75-99).
The constants `iers2010::Re`, `Rs` and `AU`, of an outside library, are parameters.  Real numbers stand for
`double`.
-/
namespace Verif.Forces

open Real Verif.Astro

/-- `vallado_shadow` (occultation.cpp 17-44). -/
noncomputable def valladoShadow (Re Rs AU : ℝ) (rsat rsun : V3) : ℝ :=
  open Classical in
  let product := rsat.dot rsun
  if product ≥ 0 then 1 else
  let r := rsat.norm
  let s := rsun.norm
  let cosz := product / (r * s)
  let zeta := arccos cosz
  let sinz := sin zeta
  let sath := r * cosz
  let satv := r * sinz
  let sinApen := (Rs + Re) / AU
  let Apen := arcsin sinApen
  let tanApen := tan Apen
  let x := Re / sinApen
  let penv := tanApen * (x + sath)
  if satv ≤ penv then
    let sinAumb := (Rs - Re) / AU
    let y := Re / sinAumb
    let Aumb := arcsin sinAumb
    let tanAumb := tan Aumb
    let umbv := tanAumb * (y - sath)
    if satv ≤ umbv then 0 else 1 / 2
  else 1

/-- `std::acos` of the quotient `n / d`; `none` where the result is not a number. -/
noncomputable def acosQ (n d : ℝ) : Option ℝ :=
  open Classical in
  if d ≠ 0 ∧ -1 ≤ n / d ∧ n / d ≤ 1 then some (arccos (n / d)) else none

/-- `std::asin` of the quotient `n / d`; `none` where the result is not a number. -/
noncomputable def asinQ (n d : ℝ) : Option ℝ :=
  open Classical in
  if d ≠ 0 ∧ -1 ≤ n / d ∧ n / d ≤ 1 then some (arcsin (n / d)) else none

/-- The part of `conical_shadow` after the three angles (occultation.cpp 83-98). -/
noncomputable def conicalAngles (te ts tes : ℝ) : Option ℝ :=
  open Classical in
  if tes ≥ te + ts then some 1 else
  if tes ≤ te - ts then some 0 else
  let ts2 := ts * ts
  let te2 := te * te
  let tes2 := tes * tes
  (acosQ (ts2 + tes2 - te2) (2 * ts * tes)).bind fun caf =>
  (acosQ (te2 + tes2 - ts2) (2 * te * tes)).bind fun cbd =>
  let Safc := 0.5 * caf * ts2
  let Saec := 0.5 * (ts * sin caf) * (ts * cos caf)
  let Sbdc := 0.5 * cbd * te2
  let Sbec := 0.5 * (te * sin cbd) * (te * cos cbd)
  let S := 2 * (Safc - Saec) + 2 * (Sbdc - Sbec)
  some (1 - S / (π * ts2))

/-- `conical_shadow` (occultation.cpp 75-99); `none` where the result is not a number. -/
noncomputable def conicalShadow (Re Rs : ℝ) (rsat rsun : V3) : Option ℝ :=
  let d := rsun.sub rsat
  (asinQ Re rsat.norm).bind fun te =>
  (asinQ Rs d.norm).bind fun ts =>
  (acosQ (-(rsat.dot d)) (d.norm * rsat.norm)).bind fun tes =>
  conicalAngles te ts tes

end Verif.Forces
