import Verif.Float.FrameModel
import Verif.Orbit.Model

/-
Model of `perifocal2equatorial_matrix`, `perifocal2equatorial` and `equatorial2perifocal`
(src/astrodynamics/perifocal.cpp:7-27, 98-139) in double arithmetic.  `sn` and `cs` stand for `std::sin` and `std::cos`.
Every operation is followed by a rounding; a product that is a term of a sum may be fused with it: `fl` numbers these
products.  The product of matrix and vector belongs to the library matvec; every component is the sum of three products, in
either order (as in Verif/Float/FrameModel).  Overflow is outside the model.
-/
namespace Verif.Float.Peri

open Verif.Astro (V3 M3)
open Verif.Float.Gravity (rq)
open Verif.Float.Frame (mulVecD)

/-- `perifocal2equatorial_matrix` (src/astrodynamics/perifocal.cpp:7-27). -/
noncomputable def p2eD (rnd sn cs : ℝ → ℝ) (fl : ℕ → Bool) (Omega omega i : ℝ) : M3 :=
  let cO := cs Omega
  let sO := sn Omega
  let co := cs omega
  let so := sn omega
  let ci := cs i
  let si := sn i
  ⟨⟨rnd (rq rnd (fl 0) (cO * co) - rq rnd (fl 1) (rnd (sO * so) * ci)),
      rnd (rq rnd (fl 2) (-cO * so) - rq rnd (fl 3) (rnd (sO * co) * ci)), rnd (sO * si)⟩,
    ⟨rnd (rq rnd (fl 4) (sO * co) + rq rnd (fl 5) (rnd (cO * so) * ci)),
      rnd (rq rnd (fl 6) (-sO * so) + rq rnd (fl 7) (rnd (cO * co) * ci)), rnd (-cO * si)⟩,
    ⟨rnd (sO * si), rnd (cO * si), ci⟩⟩

/-- `perifocal2equatorial` (src/astrodynamics/perifocal.cpp:98-106): position and velocity. -/
noncomputable def toEquatorialD (rnd sn cs : ℝ → ℝ) (fl : ℕ → Bool) (f g : ℕ → ℕ → Bool) (Omega omega i : ℝ) (y : V3 × V3) :
    V3 × V3 :=
  (mulVecD rnd f (p2eD rnd sn cs fl Omega omega i) y.1, mulVecD rnd g (p2eD rnd sn cs fl Omega omega i) y.2)

/-- `equatorial2perifocal` (src/astrodynamics/perifocal.cpp:119-128): the transposed matrix. -/
noncomputable def toPerifocalD (rnd sn cs : ℝ → ℝ) (fl : ℕ → Bool) (f g : ℕ → ℕ → Bool) (Omega omega i : ℝ) (y : V3 × V3) :
    V3 × V3 :=
  (mulVecD rnd f (p2eD rnd sn cs fl Omega omega i).transpose y.1,
    mulVecD rnd g (p2eD rnd sn cs fl Omega omega i).transpose y.2)

end Verif.Float.Peri
