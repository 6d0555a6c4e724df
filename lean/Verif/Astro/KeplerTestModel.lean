import Verif.Astro.Kepler

/-
Model of test/test_kepler.cpp: the solver `EccAnom` written there, and the loop that looks for the largest difference
between the three solvers.  Real numbers stand for `double`; the random pairs are a list.
-/
namespace Verif.Astro

open Real

/-- `Frac` (test/test_kepler.cpp:27). -/
noncomputable def frac (x : ℝ) : ℝ := x - ⌊x⌋

/-- `Modulo` (test/test_kepler.cpp:29). -/
noncomputable def modulo (x y : ℝ) : ℝ := y * frac (x / y)

/-- The loop of `EccAnom` (test/test_kepler.cpp:45-52): anomaly, counter.  The test of the counter in the middle
leaves the loop. -/
noncomputable def eccLoop (e M eps : ℝ) : Nat → ℝ → Nat → ℝ × Nat
  | 0, E, i => (E, i)
  | fuel + 1, E, i =>
    let f := E - e * sin E - M
    let E' := E - f / (1 - e * cos E)
    if i = maxIt then (E', i)
    else if |f| > eps then
      if i + 1 < maxIt then eccLoop e M eps fuel E' (i + 1) else (E', i + 1)
    else (E', i)

/-- `EccAnom` (test/test_kepler.cpp:31-60): anomaly, status.  The status set where the loop is left is overwritten. -/
noncomputable def eccAnom (M e eps : ℝ) : ℝ × Nat :=
  let M := modulo M (2 * π)
  let E := if e < 8 / 10 then M else π
  let r := eccLoop e M eps (maxIt + 1) E 0
  (r.1, if r.2 ≥ maxIt then 1 else 0)

/-- `MaxDiff` (test/test_kepler.cpp:22-25). -/
structure MaxDiff where
  E1 : ℝ
  E2 : ℝ
  e : ℝ
  M : ℝ

/-- `MaxDiff::operator()` (test/test_kepler.cpp:24). -/
noncomputable def MaxDiff.diff (d : MaxDiff) : ℝ := |d.E1 - d.E2|

/-- `if (std::abs(E1 - E3) > md13()) md13 = MaxDiff{...}` (test/test_kepler.cpp:132-135). -/
noncomputable def MaxDiff.update (d : MaxDiff) (a b e M : ℝ) : MaxDiff :=
  open Classical in if |a - b| > d.diff then ⟨a, b, e, M⟩ else d

/-- The loop of `main` (test/test_kepler.cpp:95-136) over the pairs (mean anomaly, eccentricity): `md13`, `md23`, and
the number of messages of each solver.  -/
noncomputable def compareAll (eps : ℝ) : List (ℝ × ℝ) → MaxDiff → MaxDiff → Nat → Nat → Nat → MaxDiff × MaxDiff × Nat × Nat × Nat
  | [], d13, d23, n1, n2, n3 => (d13, d23, n1, n2, n3)
  | (M, e) :: l, d13, d23, n1, n2, n3 =>
    let E1 := kepler e M eps
    let E2 := keplerVallado e M eps
    let E3 := eccAnom M e eps
    compareAll eps l (d13.update E1.1 E3.1 e M) (d23.update E2.1 E3.1 e M) (n1 + E1.2) (n2 + E2.2) (n3 + E3.2)

end Verif.Astro
