import Verif.Float.GravityModel
import Verif.Float.KeplerModel

/-
Model of `elements2state`, the overload with vectors (src/astrodynamics/state2kepler.cpp:16-53), in double arithmetic.
`sn` and `cs` stand for `std::sin` and `std::cos`.  Every operation is followed by a rounding; a product that is a term of a
sum may be fused with it: `fl` numbers these products.  The product of matrix and vector belongs to the library matvec;
it is taken to be the sum of the products in their order, of which the third is a product with zero and adds nothing.
Overflow is outside the model.
-/
namespace Verif.Float.State

open Verif.Astro (V3)
open Verif.Float.Gravity (rq)

/-- The mean anomaly (src/astrodynamics/state2kepler.cpp:19-20). -/
noncomputable def meanD (rnd : ℝ → ℝ) (b : Bool) (GM a M0 dt : ℝ) : ℝ :=
  rnd (M0 + rq rnd b (rnd √(rnd (GM / rnd (rnd (a * a) * a))) * dt))

/-- `f` (src/astrodynamics/state2kepler.cpp:31). -/
noncomputable def rootD (rnd : ℝ → ℝ) (e : ℝ) : ℝ := rnd √(rnd (rnd (1 - e) * rnd (1 + e)))

/-- First two components of `rf` (src/astrodynamics/state2kepler.cpp:29-33). -/
noncomputable def rfD (rnd sn cs : ℝ → ℝ) (a e E : ℝ) : ℝ × ℝ :=
  (rnd (a * rnd (cs E - e)), rnd (rnd (a * rootD rnd e) * sn E))

/-- `vmag` (src/astrodynamics/state2kepler.cpp:32, 34). -/
noncomputable def vmagD (rnd cs : ℝ → ℝ) (b : Bool) (GM a e E : ℝ) : ℝ :=
  rnd (rnd √(rnd (GM * a)) / rnd (a * rnd (1 - rq rnd b (e * cs E))))

/-- First two components of `vf` (src/astrodynamics/state2kepler.cpp:35). -/
noncomputable def vfD (rnd sn cs : ℝ → ℝ) (b : Bool) (GM a e E : ℝ) : ℝ × ℝ :=
  (rnd (-vmagD rnd cs b GM a e E * sn E), rnd (rnd (vmagD rnd cs b GM a e E * rootD rnd e) * cs E))

/-- First two columns of a row of `T` (src/astrodynamics/state2kepler.cpp:38-46). -/
noncomputable def rowD (rnd sn cs : ℝ → ℝ) (fl : ℕ → Bool) (O o i : ℝ) : Ax → ℝ × ℝ
  | .x => (rnd (rq rnd (fl 0) (cs O * cs o) - rq rnd (fl 1) (rnd (sn O * sn o) * cs i)),
      rnd (rq rnd (fl 2) (-cs O * sn o) - rq rnd (fl 3) (rnd (sn O * cs o) * cs i)))
  | .y => (rnd (rq rnd (fl 4) (sn O * cs o) + rq rnd (fl 5) (rnd (cs O * sn o) * cs i)),
      rnd (rq rnd (fl 6) (-sn O * sn o) + rq rnd (fl 7) (rnd (cs O * cs o) * cs i)))
  | .z => (rnd (sn o * sn i), rnd (cs o * sn i))

/-- A component of the product of `T` with a vector whose third component is zero
(src/astrodynamics/state2kepler.cpp:49-50). -/
noncomputable def rotD (rnd : ℝ → ℝ) (b b' : Bool) (t v : ℝ × ℝ) : ℝ :=
  rnd (rq rnd b (t.1 * v.1) + rq rnd b' (t.2 * v.2))

/-- A component of `r` for the eccentric anomaly `E` (src/astrodynamics/state2kepler.cpp:28-49). -/
noncomputable def posD (rnd sn cs : ℝ → ℝ) (fl : ℕ → Bool) (a e i O o E : ℝ) (w : Ax) : ℝ :=
  rotD rnd (fl 8) (fl 9) (rowD rnd sn cs fl O o i w) (rfD rnd sn cs a e E)

/-- A component of `v` for the eccentric anomaly `E` (src/astrodynamics/state2kepler.cpp:28-50). -/
noncomputable def velD (rnd sn cs : ℝ → ℝ) (fl : ℕ → Bool) (GM a e i O o E : ℝ) (w : Ax) : ℝ :=
  rotD rnd (fl 10) (fl 11) (rowD rnd sn cs fl O o i w) (vfD rnd sn cs (fl 12) GM a e E)

end Verif.Float.State
