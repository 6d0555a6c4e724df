import Verif.Float.ClockModel

/-
Dates during the integration, in double arithmetic: days (MJD, TAI) to days and nanoseconds.
-/
namespace Verif.Float

open Verif.Rinex (truncInt)

/-- The date of a call of `VariationalEquations` (src/variational_equations.cpp:19). -/
def currentMjd (rnd : ℚ → ℚ) (mjd tsec : ℚ) : ℚ := rnd (mjd + rnd (tsec / 86400))

/-- Days and nanoseconds of the day in `gcrs2itrs` (src/itrs2gcrs.cpp:163-169). -/
def splitMjd (rnd : ℚ → ℚ) (mjd : ℚ) : ℤ × ℤ :=
  let imjd := truncInt mjd
  let sec := rnd (rnd (mjd - imjd) * 86400)
  (imjd, truncInt (rnd (sec * 10 ^ 9)))

/-- The date for which Earth orientation is computed (src/variational_equations.cpp:19, 28). -/
def orientationDate (rnd : ℚ → ℚ) (mjd tsec : ℚ) : ℤ × ℤ := splitMjd rnd (currentMjd rnd mjd tsec)

end Verif.Float
