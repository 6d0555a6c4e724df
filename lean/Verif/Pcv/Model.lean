import Mathlib.Algebra.Order.Floor.Ring
import Mathlib.Analysis.Real.Pi.Bounds
import Verif.SystemInfo.Model

/-
Model of the phase-centre-variation functions of src/antenna_pcv.hpp, over the reals.
-/
namespace Verif.Pcv
open Verif.SystemInfo (AntType)

/-- `plarray` of Alcatel, frequency 1 (src/antenna_pcv.hpp:36-39). -/
noncomputable def alcatel1 : List ℝ :=
  [0, 2.05, 7.24, 9.21, 6.71, 8.14, 11.87, 12.48, 12.28, 13.67, 13.91, 13.01, 13.01, 11.87,
   9.70, 7.94, 4.99, 0.41, -3.93]

/-- `plarray` of Starec B and C, frequency 1 (src/antenna_pcv.hpp:90-93, 142-145). -/
noncomputable def starec1 : List ℝ :=
  [0, 0.06, -0.32, -1.12, -2.87, -4.02, -3.44, -2.15, -1.73, -1.73, -0.08, 1.37, 2.20, 5.37,
   7.02, 10.70, 13.86, 17.27, 22.37]

/-- The table of an antenna on frequency 1. -/
noncomputable def table : AntType → List ℝ
  | .alcatel => alcatel1
  | .starecB => starec1
  | .starecC => starec1

/-- Outcome of `pcv`: the returned value (`none`: a table read outside `plarray`, undefined
behaviour) and the final `out_of_bounds`. -/
structure Result where
  value : Option ℝ
  outOfBounds : Int

/-- `rad2deg`. -/
noncomputable def rad2deg (z : ℝ) : ℝ := z * 180 / Real.pi

/-- The interpolation of lines 55-60, 108-113, 160-165: both `plarray[index]` and
`plarray[index + 1]` are read. -/
noncomputable def interpolate (t : List ℝ) (angle : ℝ) : Option ℝ :=
  let index := ⌊angle / 5⌋
  if index < 0 then none
  else
    match t[index.toNat]?, t[index.toNat + 1]? with
    | some a, some b => some (a + (angle - 5 * (index : ℝ)) * ((b - a) / 5))
    | _, _ => none

/-- `AntennaOffsetTraits<T, 1>::pcv` (src/antenna_pcv.hpp:48-61, 101-114, 153-166).  In the
Alcatel version the assignment `out_of_bounds = 1` stands after the `return` (lines 52-53). -/
noncomputable def pcv1 (a : AntType) (zenith : ℝ) : Result :=
  if zenith < 0 ∨ zenith > Real.pi / 2 then
    ⟨some 0, match a with
      | .alcatel => 0
      | .starecB => 1
      | .starecC => 1⟩
  else ⟨interpolate (table a) (rad2deg zenith), 0⟩

/-- `AntennaOffsetTraits<T, 2>::pcv` (src/antenna_pcv.hpp:73-76, 126-129, 178-181). -/
noncomputable def pcv2 (_ : AntType) (zenith : ℝ) : Result :=
  ⟨some 0, (if zenith < 0 then 1 else 0) + (if zenith > Real.pi / 2 then 1 else 0)⟩

end Verif.Pcv
