import Verif.Float.Format
import Verif.Pcv.Model

/-
The phase-centre variations of src/antenna_pcv.hpp in double arithmetic.  `rnd` is any rounding to nearest; no operation here
overflows.  The conversion to degrees belongs to the geodesy library and is taken in its usual form, `radians * 180 / DPI`.
Fused multiply-add is not modelled.
-/
namespace Verif.Float.Pcv
open Verif.SystemInfo (AntType)

/-- `dso::DPI`, the double next to π, as the geodesy library has it (used in src/antenna_pcv.hpp:51, 104, 156). -/
noncomputable def dpi : ℝ := (7074237752028440 : ℤ) * 2 ^ (-51 : ℤ)

/-- `dso::rad2deg<double>` of the geodesy library, called in src/antenna_pcv.hpp:49, 102, 154. -/
noncomputable def degrees (rnd : ℝ → ℝ) (z : ℝ) : ℝ := rnd (rnd (z * 180) / dpi)

/-- The interpolation of src/antenna_pcv.hpp:55-60, 108-113, 160-165, every operation rounded; `none`: a read outside `plarray`. -/
noncomputable def interpolate (rnd : ℝ → ℝ) (t : List ℝ) (angle : ℝ) : Option ℝ :=
  let index := ⌊rnd (angle / 5)⌋
  if index < 0 then none
  else
    match t[index.toNat]?, t[index.toNat + 1]? with
    | some a, some b => some (rnd (a + rnd (rnd (angle - rnd (5 * (index : ℝ))) * rnd (rnd (b - a) / 5))))
    | _, _ => none

/-- `AntennaOffsetTraits<T, 1>::pcv` (src/antenna_pcv.hpp:48-61, 101-114, 153-166); the table holds the doubles next to the
decimals written in the code. -/
noncomputable def pcv1 (rnd : ℝ → ℝ) (a : AntType) (zenith : ℝ) : Verif.Pcv.Result :=
  if zenith < 0 ∨ zenith > rnd (dpi / 2) then
    ⟨some 0, match a with
      | .alcatel => 0
      | .starecB => 1
      | .starecC => 1⟩
  else ⟨interpolate rnd ((Verif.Pcv.table a).map rnd) (degrees rnd zenith), 0⟩

/-- The check of the debug build (src/antenna_pcv.hpp:57, 110, 162) for a table of `n` doubles: `sizeof` counts bytes. -/
def debugCheck (n : Nat) (index : Int) : Bool := decide (0 ≤ index) && decide (index < 8 * (n : Int) - 1)

end Verif.Float.Pcv
