import Verif.Float.Format

/-
Model of the nominal frequencies of the beacons and of the ionospheric correction in double
arithmetic: every operation is followed by a rounding `rnd`.  The compiler may fuse a product with
the following sum into one operation with one rounding (the release build has `-march=native`);
`Fuse` says which product of a sum, if any.  The literals of the code (5e6, 0.75, 87, 543, 107,
2036.25, 401.25, ...) are doubles; `long` holds the power `2^26`.
-/
namespace Verif.Float

variable {K : Type} [Field K]

/-- Which of the two products of a sum is fused with it. -/
inductive Fuse
  | none
  | left
  | right

/-- `a * b + c * d`. -/
def sum2 (rnd : K → K) : Fuse → K → K → K → K → K
  | .none, a, b, c, d => rnd (rnd (a * b) + rnd (c * d))
  | .left, a, b, c, d => rnd (a * b + rnd (c * d))
  | .right, a, b, c, d => rnd (rnd (a * b) + c * d)

/-- `fac1` (src/doris_system_info.hpp:38, 50). -/
def fac1D (rnd : K → K) : K := rnd (5000000 * (3 / 4))

/-- `fac2` (src/doris_system_info.hpp:49, 51-52). -/
def fac2D (rnd : K → K) (k : ℤ) : K :=
  rnd (rnd (5000000 * rnd (87 * (k : K))) / rnd (5 * 2 ^ 26))

/-- `beacon_nominal_frequency` (src/doris_system_info.hpp:46-56): S1 and U2 in Hz. -/
def nominalD (rnd : K → K) (f1 f2 : Fuse) (k : ℤ) : K × K :=
  (sum2 rnd f1 543 (fac1D rnd) 543 (fac2D rnd k), sum2 rnd f2 107 (fac1D rnd) 107 (fac2D rnd k))

/-- `GAMMA_FACTOR_SQRT` (src/doris_system_info.hpp:24, 27, 31). -/
def gammaSqrtD (rnd : K → K) : K := rnd ((8145 / 4) / (1605 / 4))

/-- `GAMMA_FACTOR - 1e0` (src/doris_system_info.hpp:35, src/doris_observation_equations.hpp:18). -/
def denomD (rnd : K → K) : K := rnd (rnd (gammaSqrtD rnd * gammaSqrtD rnd) - 1)

/-- `carrier_iono_correction` (src/doris_observation_equations.hpp:16-19). -/
def ionoD (rnd : K → K) (fused : Bool) (l1 l2 : K) : K :=
  let num := if fused then rnd (l1 - gammaSqrtD rnd * l2) else rnd (l1 - rnd (gammaSqrtD rnd * l2))
  rnd (num / denomD rnd)

end Verif.Float
