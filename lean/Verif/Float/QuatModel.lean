import Verif.Float.StateModel

/-
Model of `propagate_state` from elements (src/astrodynamics/propagate_state.cpp:3-42), of `elements2state`, the overload
with Eigen types (src/astrodynamics/state2kepler.cpp:55-96), and of `core::elements2perifocal`
(src/astrodynamics/perifocal.cpp:68-78) in double arithmetic.  A product of `Eigen::AngleAxisd` is a product of quaternions,
from which the matrix is made.  Products with the zeros of a quaternion and sums with them are exact and are left out;
halving an angle and doubling a number are exact (numbers near the smallest double apart).  `sn` and `cs` stand for
`std::sin` and `std::cos`.  Every other operation is followed by a rounding; a product that is a term of a sum may be fused
with it: `fl` numbers these products.  Overflow is outside the model.
-/
namespace Verif.Float.Quat

open Verif.Astro (V3 M3)
open Verif.Float.Gravity (rq)
open Verif.Float.State (rfD vfD rotD)

/-- A quaternion. -/
structure Qt where
  w : ℝ
  x : ℝ
  y : ℝ
  z : ℝ

/-- `AngleAxisd(O, UnitZ) * AngleAxisd(i, UnitX)` (src/astrodynamics/propagate_state.cpp:34-35). -/
noncomputable def pairD (rnd sn cs : ℝ → ℝ) (O i : ℝ) : Qt :=
  ⟨rnd (cs (O / 2) * cs (i / 2)), rnd (cs (O / 2) * sn (i / 2)), rnd (sn (O / 2) * sn (i / 2)), rnd (sn (O / 2) * cs (i / 2))⟩

/-- The product with `AngleAxisd(o, UnitZ)` (src/astrodynamics/propagate_state.cpp:34-36). -/
noncomputable def quatD (rnd sn cs : ℝ → ℝ) (fl : ℕ → Bool) (O i o : ℝ) : Qt :=
  let a := pairD rnd sn cs O i
  ⟨rnd (rq rnd (fl 0) (a.w * cs (o / 2)) - rq rnd (fl 1) (a.z * sn (o / 2))),
    rnd (rq rnd (fl 2) (a.x * cs (o / 2)) + rq rnd (fl 3) (a.y * sn (o / 2))),
    rnd (rq rnd (fl 4) (a.y * cs (o / 2)) - rq rnd (fl 5) (a.x * sn (o / 2))),
    rnd (rq rnd (fl 6) (a.w * sn (o / 2)) + rq rnd (fl 7) (a.z * cs (o / 2)))⟩

/-- The matrix made from a quaternion (src/astrodynamics/propagate_state.cpp:34). -/
noncomputable def matD (rnd : ℝ → ℝ) (fl : ℕ → Bool) (q : Qt) : M3 :=
  ⟨⟨rnd (1 - rnd (rq rnd (fl 10) (2 * q.y * q.y) + rq rnd (fl 11) (2 * q.z * q.z))),
      rnd (rq rnd (fl 12) (2 * q.y * q.x) - rq rnd (fl 13) (2 * q.z * q.w)),
      rnd (rq rnd (fl 14) (2 * q.z * q.x) + rq rnd (fl 15) (2 * q.y * q.w))⟩,
    ⟨rnd (rq rnd (fl 16) (2 * q.y * q.x) + rq rnd (fl 17) (2 * q.z * q.w)),
      rnd (1 - rnd (rq rnd (fl 18) (2 * q.x * q.x) + rq rnd (fl 19) (2 * q.z * q.z))),
      rnd (rq rnd (fl 20) (2 * q.z * q.y) - rq rnd (fl 21) (2 * q.x * q.w))⟩,
    ⟨rnd (rq rnd (fl 22) (2 * q.z * q.x) - rq rnd (fl 23) (2 * q.y * q.w)),
      rnd (rq rnd (fl 24) (2 * q.z * q.y) + rq rnd (fl 25) (2 * q.x * q.w)),
      rnd (1 - rnd (rq rnd (fl 26) (2 * q.x * q.x) + rq rnd (fl 27) (2 * q.y * q.y)))⟩⟩

/-- The rotation by three angles (src/astrodynamics/propagate_state.cpp:34-36; src/astrodynamics/state2kepler.cpp:82-84). -/
noncomputable def anglesD (rnd sn cs : ℝ → ℝ) (fl : ℕ → Bool) (O i o : ℝ) : M3 := matD rnd fl (quatD rnd sn cs fl O i o)

/-- Two columns of a row. -/
def row2 (m : M3) : Ax → ℝ × ℝ
  | .x => (m.r0.x, m.r0.y)
  | .y => (m.r1.x, m.r1.y)
  | .z => (m.r2.x, m.r2.y)

/-- A component of the position `propagate_state` returns, for the eccentric anomaly `E`
(src/astrodynamics/propagate_state.cpp:21-38). -/
noncomputable def posD (rnd sn cs : ℝ → ℝ) (fl : ℕ → Bool) (a e i O o E : ℝ) (w : Ax) : ℝ :=
  rotD rnd (fl 30) (fl 31) (row2 (anglesD rnd sn cs fl O i o) w) (rfD rnd sn cs a e E)

/-- A component of the velocity `propagate_state` returns (src/astrodynamics/propagate_state.cpp:21-39). -/
noncomputable def velD (rnd sn cs : ℝ → ℝ) (fl : ℕ → Bool) (GM a e i O o E : ℝ) (w : Ax) : ℝ :=
  rotD rnd (fl 32) (fl 33) (row2 (anglesD rnd sn cs fl O i o) w) (vfD rnd sn cs (fl 34) GM a e E)

/-- A component of the position the Eigen overload of `elements2state` returns
(src/astrodynamics/state2kepler.cpp:67-91): the rotation by the negative angles, transposed. -/
noncomputable def posE (rnd sn cs : ℝ → ℝ) (fl : ℕ → Bool) (a e i O o E : ℝ) (w : Ax) : ℝ :=
  rotD rnd (fl 30) (fl 31) (row2 (anglesD rnd sn cs fl (-O) (-i) (-o)).transpose w) (rfD rnd sn cs a e E)

/-- A component of the velocity the Eigen overload returns (src/astrodynamics/state2kepler.cpp:67-92). -/
noncomputable def velE (rnd sn cs : ℝ → ℝ) (fl : ℕ → Bool) (GM a e i O o E : ℝ) (w : Ax) : ℝ :=
  rotD rnd (fl 32) (fl 33) (row2 (anglesD rnd sn cs fl (-O) (-i) (-o)).transpose w) (vfD rnd sn cs (fl 34) GM a e E)

/-- `core::elements2perifocal` (src/astrodynamics/perifocal.cpp:68-78): position and velocity, third components zero. -/
noncomputable def perifocalD (rnd sn cs : ℝ → ℝ) (b : Bool) (GM E e a : ℝ) : (ℝ × ℝ) × (ℝ × ℝ) :=
  let me2p1 := rnd √(rnd (rnd (1 + e) * rnd (1 - e)))
  let r := rnd (a * rnd (1 - rq rnd b (e * cs E)))
  let v := rnd (rnd √(rnd (GM * a)) / r)
  ((rnd (a * rnd (cs E - e)), rnd (rnd (a * me2p1) * sn E)), (rnd (-v * sn E), rnd (rnd (v * me2p1) * cs E)))

end Verif.Float.Quat
