import Verif.Float.Format

/-
Model of the measured range rate of the orbit determination program (test/rinex_pod.cpp) in double
arithmetic: every operation is followed by a rounding `rnd`.  The compiler may fuse a product with
the following sum into one operation with one rounding (the release build has `-march=native`);
`fused` says whether it does.  The product in `frT` is also printed (test/rinex_pod.cpp:920-923),
so it is rounded before `feN - frT`: a compiler that fused it there as well is not modelled.  The interval of proper time is a double; the decimal literal 1e-11 is
rounded, the other literals are doubles.
-/
namespace Verif.Float

variable {K : Type} [Field K]

/-- The frequency of the receiver, from the fitted offset in units of 1e-11
(test/rinex_pod.cpp:877-878). -/
def frTD (rnd : K → K) (fused : Bool) (v : K) : K :=
  let lit := rnd (1 / 10 ^ 11)
  let s := if fused then rnd (1 + v * lit) else rnd (1 + rnd (v * lit))
  rnd (rnd (8145 / 4 * 1000000) * s)

/-- A difference divided by the interval: `NdopDt` and `Drel` (test/rinex_pod.cpp:883-886,
910-911). -/
def rateD (rnd : K → K) (a b dt : K) : K := rnd (rnd (a - b) / dt)

/-- `Dion` (test/rinex_pod.cpp:896-898); the speed of light is `iers2010::C`. -/
def dionD (rnd : K → K) (feN a b dt : K) : K :=
  rnd (rnd (rnd (299792458 / feN) * rnd (a - b)) / dt)

/-- `Uobs` (test/rinex_pod.cpp:929-930). -/
def uobsD (rnd : K → K) (fused : Bool) (feN frT ndopDt dion drel : K) : K :=
  let a := rnd (299792458 / feN)
  let b := rnd (rnd (feN - frT) - ndopDt)
  let s := if fused then rnd (a * b + dion) else rnd (rnd (a * b) + dion)
  rnd (s + drel)

end Verif.Float
