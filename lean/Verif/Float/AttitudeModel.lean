import Verif.Float.Format

/-
Model of the dates of the attitude records and of the interpolation parameter in double arithmetic
(src/satellites/jason3_quaternions.cpp).  Every operation is followed by a rounding `rnd`.  Fraction and number of the
day are what the date library delivers; the fraction counts as exact.
-/
namespace Verif.Float

variable {K : Type} [Field K]

/-- `record.tai_mjd`: fraction `f` of the day plus number `d` of the day, which is exact as a double
(src/satellites/jason3_quaternions.cpp:18-19). -/
def recTimeD (rnd : K → K) (f : K) (d : ℤ) : K := rnd (f + d)

/-- `dt` for the date `t` between the records at `t0` and `t1` (src/satellites/jason3_quaternions.cpp:214-216). -/
def slerpD (rnd : K → K) (t t0 t1 : K) : K := rnd (rnd (t - t0) / rnd (t1 - t0))

end Verif.Float
