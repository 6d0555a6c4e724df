import Verif.Variational.Model
import Verif.Atmosphere.MsisModel
import Mathlib.Analysis.SpecialFunctions.Trigonometric.Basic

/-!
Model of the input of the atmosphere model during orbit integration: `InParamsCore` (src/atmosphere/nrlmsise00.hpp:182-248),
`InParams<ST_CSV_SW>` (src/atmosphere/nrlmsise00.hpp:313-343) and the calls of src/variational_equations.cpp:139-175.

Simplifications: real numbers stand for `double`; calendar (`dso::datetime`), ellipsoidal coordinates (`dso::car2ell`) and the
contents of the space weather file (C26-C29) are parameters; the calls wrapped in `assert` are taken to be executed and to
return zero.  The members that no call has set keep what memory held, so the record before the first call is arbitrary.
-/
namespace Verif.Variational

open Verif.Astro Verif.Forces Verif.Atmosphere

/-- What is taken from outside. -/
structure AtmExt where
  /-- day of year and seconds of day of a `datetime` made of a day and milliseconds (`as_ydoy`, `sec`) -/
  stamp : ℤ → ℤ → ℤ × ℝ
  /-- `f107A`, `f107`, `ap`, `aparr` for day of year and seconds of day (`Nrlmsise00DataFeed::update`) -/
  feed : ℤ → ℝ → ℝ × ℝ × ℝ × (ℕ → ℝ)
  /-- longitude and latitude [rad], height [m] (`car2ell<grs80>`) -/
  lfh : V3 → V3

/-- `static_cast` of a `double` to an integer. -/
noncomputable def toMs (x : ℝ) : ℤ := if 0 ≤ x then ⌊x⌋ else ⌈x⌉

/-- `update_params` (src/atmosphere/nrlmsise00.hpp:322-331). -/
noncomputable def updateParams (E : AtmExt) (x : Msis.In ℝ) (mjd : ℤ) (secday : ℝ) : Msis.In ℝ :=
  let t := E.stamp mjd (toMs (secday * 1000))
  let f := E.feed t.1 t.2
  { x with doy := t.1, sec := t.2, f107A := f.1, f107 := f.2.1, ap := f.2.2.1, aparr := f.2.2.2 }

/-- `set_spatial_from_cartesian` (src/atmosphere/nrlmsise00.hpp:335-342). -/
noncomputable def setSpatial (E : AtmExt) (x : Msis.In ℝ) (xyz : V3) : Msis.In ℝ :=
  let l := E.lfh xyz
  { x with glon := l.x * 180 / Real.pi, glat := l.y * 180 / Real.pi, alt := l.z / 1000 }

/-- The displacements in the order of their use (src/variational_equations.cpp:140, 149-150, 153-154, 159-160, 163-164,
169-170, 173-174); the last one repeats the sixth. -/
def displacements : List V3 :=
  [⟨0, 0, 0⟩, ⟨1, 0, 0⟩, ⟨-1, 0, 0⟩, ⟨0, 1, 0⟩, ⟨0, -1, 0⟩, ⟨0, 0, 1⟩, ⟨0, 0, 1⟩]

/-- The inputs of the seven evaluations (src/variational_equations.cpp:139-175) for the position `r` of the state (celestial
frame), after `set_spatial_from_cartesian` for each displacement in turn. -/
noncomputable def densityInputs (E : AtmExt) (r : V3) : List V3 → Msis.In ℝ → List (Msis.In ℝ)
  | [], _ => []
  | d :: ds, x =>
    let x' := setSpatial E x (r.add d)
    x' :: densityInputs E r ds x'

/-- All inputs of one evaluation of the variational equations, and the record left behind. -/
noncomputable def evaluation (E : AtmExt) (x : Msis.In ℝ) (mjd : ℤ) (secday : ℝ) (r : V3) : List (Msis.In ℝ) × Msis.In ℝ :=
  let l := densityInputs E r displacements (updateParams E x mjd secday)
  (l, l.getLastD x)

/-- The inputs of an integration: a sequence of evaluations at dates and positions. -/
noncomputable def integration (E : AtmExt) : Msis.In ℝ → List (ℤ × ℝ × V3) → List (List (Msis.In ℝ))
  | _, [] => []
  | x, (mjd, secday, r) :: l =>
    let e := evaluation E x mjd secday r
    e.1 :: integration E e.2 l

end Verif.Variational
