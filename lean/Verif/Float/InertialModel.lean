import Verif.Float.FrameModel

/-
Model of the gravity part of the equations of motion (src/variational_equations.cpp:50-54, 73-75) in double arithmetic.
`gD` and `GD` stand for what `grav_potential_accel` returns for an Earth-fixed position (acceleration and partials; their
errors are C178 and C180).  The matrices are multiplied as in Verif/Float/FrameModel.  Overflow is outside the model.
-/
namespace Verif.Float.Inertial

open Verif.Astro (V3 M3)
open Verif.Float.Frame (mulD c2tD rcel2terD rter2celD)

/-- The acceleration in the inertial frame (src/variational_equations.cpp:50-54, 73): `f` and `f'` are the choices of the
compiler in the two functions. -/
noncomputable def accD (rnd sn cs : ℝ → ℝ) (f f' : ℕ → ℕ → ℕ → ℕ → Bool) (gD : V3 → V3) (r : V3) (rc2i : M3) (era : ℝ)
    (rpom : M3) : V3 :=
  rter2celD rnd sn cs f' (gD (rcel2terD rnd sn cs f r rc2i era rpom)) rc2i era rpom

/-- The partials (src/variational_equations.cpp:74-75), for the partials `G` in the Earth-fixed frame: the two factors
`rpom * rc2ti` may be evaluated differently. -/
noncomputable def partD (rnd sn cs : ℝ → ℝ) (f f' : ℕ → ℕ → ℕ → ℕ → Bool) (g : ℕ → ℕ → ℕ → ℕ → Bool) (G : M3) (rc2i : M3)
    (era : ℝ) (rpom : M3) : M3 :=
  mulD rnd (g 1) (mulD rnd (g 0) (c2tD rnd sn cs f rc2i era rpom) G) (c2tD rnd sn cs f' rc2i era rpom).transpose

end Verif.Float.Inertial
