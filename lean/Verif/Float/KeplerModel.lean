import Verif.Float.Format
import Verif.Astro.Kepler

/-
The two solvers of Kepler's equation (src/astrodynamics/kepler.cpp) in double arithmetic.

`sn` and `cs` stand for `std::sin` and `std::cos`, of which only a bound of the error is assumed in the theorems
(`LibM`).  `std::fmod` is exact, as the standard requires.  The compiler may contract a product and the following sum
into one operation with one rounding; `fused` chooses this.  `DPI` and `D2PI` are of the library iers2010, which is
not at hand: they are taken to be the doubles nearest to π and 2π.  Infinite and undefined arguments are not modelled.
-/
namespace Verif.Float

open Real
open Verif.Astro (maxIt)

/-- A standard library whose sine and cosine are off by at most one unit in the last place of 1. -/
structure LibM (sn cs : ℝ → ℝ) : Prop where
  sin_err : ∀ x, |sn x - sin x| ≤ 2 ^ (-53 : ℤ)
  cos_err : ∀ x, |cs x - cos x| ≤ 2 ^ (-53 : ℤ)

/-- A product that is subtracted or added next. -/
def mulR (rnd : ℝ → ℝ) (fused : Bool) (x : ℝ) : ℝ := if fused then x else rnd x

/-- `arg02pi` (src/astrodynamics/kepler.cpp:10-13). -/
noncomputable def arg02piD (rnd : ℝ → ℝ) (a : ℝ) : ℝ :=
  let pi2 := rnd (2 * π)
  let t := Verif.Astro.fmod a pi2
  if t < 0 then rnd (t + pi2) else t

/-- The iterations (lines 24-27, 47-50): `f` is compared with the tolerance, `step` gives the next value. -/
noncomputable def loopD (f step : ℝ → ℝ) (tol : ℝ) : Nat → ℝ → Nat → ℝ × Nat
  | 0, E, it => (E, it)
  | fuel + 1, E, it =>
    if |f E| > tol then
      if it + 1 < maxIt then loopD f step tol fuel (step E) (it + 1) else (step E, it + 1)
    else (step E, it)

/-- `f` of `kepler` (line 25). -/
noncomputable def residD (rnd sn : ℝ → ℝ) (fused : Bool) (e M E : ℝ) : ℝ :=
  rnd (rnd (E - mulR rnd fused (e * sn E)) - M)

/-- The denominator (lines 26, 49). -/
noncomputable def denD (rnd cs : ℝ → ℝ) (fused : Bool) (e E : ℝ) : ℝ := rnd (1 - mulR rnd fused (e * cs E))

/-- The next value of `kepler` (line 26). -/
noncomputable def stepK (rnd sn cs : ℝ → ℝ) (fused : Bool) (e M E : ℝ) : ℝ :=
  rnd (E - rnd (residD rnd sn fused e M E / denD rnd cs fused e E))

/-- `kepler` (lines 15-35): anomaly, status (0: converged). -/
noncomputable def keplerD (rnd sn cs : ℝ → ℝ) (fused : Bool) (e M tol : ℝ) : ℝ × Nat :=
  let M := arg02piD rnd M
  let E := if e < rnd (8 / 10) then M else rnd π
  let r := loopD (residD rnd sn fused e M) (stepK rnd sn cs fused e M) tol maxIt E 0
  (r.1, if r.2 ≥ maxIt then 1 else 0)

/-- The next value of `kepler_vallado` (line 49). -/
noncomputable def stepV (rnd sn cs : ℝ → ℝ) (fused : Bool) (e M E : ℝ) : ℝ :=
  rnd (E + rnd (rnd (rnd (M - E) + mulR rnd fused (e * sn E)) / denD rnd cs fused e E))

/-- `kepler_vallado` (lines 37-58). -/
noncomputable def valladoD (rnd sn cs : ℝ → ℝ) (fused : Bool) (e M tol : ℝ) : ℝ × Nat :=
  let M := arg02piD rnd M
  let mr := (M > -rnd π ∧ M < 0) ∨ M > rnd π
  open Classical in
  let E := rnd (M + (if mr then -e else e))
  let step := stepV rnd sn cs fused e M
  let r := loopD (fun E => rnd (E - step E)) step tol maxIt E 0
  (r.1, if r.2 ≥ maxIt then 1 else 0)

end Verif.Float
