import Verif.Float.Format

/-
Model of two pieces of src/iers/eop_interpolate.cpp in double arithmetic: the time argument of the tidal models, and
the removal and restoration of the tidal effect.  Every operation is followed by a rounding `rnd`; `modf` is exact.
The constants `mjd0_jd` and `j2000_jd` of the date library are taken as 2400000.5 and 2451545.  Only days from
the origin of the Modified Julian Date on (`modf` of a negative number rounds towards zero).
-/
namespace Verif.Float

variable {K : Type} [Field K] [LinearOrder K] [FloorRing K]

/-- `jc2000` (src/iers/eop_interpolate.cpp:49-52, 89-91). -/
def jcD (rnd : K → K) (t : K) : K :=
  let i : K := (⌊t⌋ : ℤ)
  let f := t - i
  rnd (rnd (rnd (rnd (i + 4800001 / 2) - 2451545) / 36525) + rnd (f / 36525))

/-- A value `a` of the table after the effect `d` has been subtracted and added again
(src/iers/eop_interpolate.cpp:100-102, 62-64). -/
def restoreD (rnd : K → K) (a d : K) : K := rnd (rnd (a - d) + d)

end Verif.Float
