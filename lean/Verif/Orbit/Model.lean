import Verif.Astro.Kepler
import Verif.Astro.Vec
import Mathlib.Analysis.SpecialFunctions.Complex.Arg

/-
Model of the conversions between orbital elements and states:
src/astrodynamics/state2kepler.cpp 16-173, propagate_state.cpp 3-42, perifocal.cpp.
Real numbers stand for `double`.
-/
namespace Verif.Orbit

open Real Verif.Astro

/-- `OrbitalElements` (src/astrodynamics.hpp). -/
structure Elements where
  a : ℝ
  e : ℝ
  i : ℝ
  Omega : ℝ
  omega : ℝ
  M : ℝ

/-- The default tolerance of `kepler`, a hundred machine epsilons (src/astrodynamics.hpp 166-169). -/
noncomputable def keplerTol : ℝ := 100 / 2 ^ 52

/-- The eccentric anomaly at `dt` (state2kepler.cpp 19-25, 60-65; propagate_state.cpp 15-20;
perifocal.cpp 83-86): anomaly and status. -/
noncomputable def anomaly (GM : ℝ) (ele : Elements) (dt : ℝ) : ℝ × Nat :=
  kepler ele.e (ele.M + √(GM / (ele.a * ele.a * ele.a)) * dt) keplerTol

/-- Perifocal position (state2kepler.cpp 29-33, 74; propagate_state.cpp 25-29; perifocal.cpp 70-76). -/
noncomputable def perifocalR (a e E : ℝ) : V3 :=
  ⟨a * (cos E - e), a * √((1 - e) * (1 + e)) * sin E, 0⟩

/-- Perifocal velocity (the same lines). -/
noncomputable def perifocalV (GM a e E : ℝ) : V3 :=
  let vmag := √(GM * a) / (a * (1 - e * cos E))
  ⟨-vmag * sin E, vmag * √((1 - e) * (1 + e)) * cos E, 0⟩

/-- The matrix written out in state2kepler.cpp 38-46. -/
noncomputable def matT (Omega omega i : ℝ) : M3 :=
  let sO := sin Omega
  let cO := cos Omega
  let so := sin omega
  let co := cos omega
  let si := sin i
  let ci := cos i
  ⟨⟨cO * co - sO * so * ci, -cO * so - sO * co * ci, sO * si⟩,
   ⟨sO * co + cO * so * ci, -sO * so + cO * co * ci, -cO * si⟩,
   ⟨so * si, co * si, ci⟩⟩

/-- `elements2state`, vector overload (state2kepler.cpp 16-53): position, velocity, status. -/
noncomputable def elements2state (ele : Elements) (dt GM : ℝ) : V3 × V3 × Nat :=
  let E := anomaly GM ele dt
  let T := matT ele.Omega ele.omega ele.i
  (T.mulVec (perifocalR ele.a ele.e E.1), T.mulVec (perifocalV GM ele.a ele.e E.1), E.2)

/-- The rotation of the Eigen overload (state2kepler.cpp 82-84, applied transposed, 91-92). -/
noncomputable def matR (Omega omega i : ℝ) : M3 :=
  M3.mul (M3.mul (M3.rotZ (-Omega)) (M3.rotX (-i))) (M3.rotZ (-omega))

/-- `elements2state`, Eigen overload (state2kepler.cpp 55-96). -/
noncomputable def elements2stateE (GM dt : ℝ) (ele : Elements) : V3 × V3 × Nat :=
  let E := anomaly GM ele dt
  let Rt := (matR ele.Omega ele.omega ele.i).transpose
  (Rt.mulVec (perifocalR ele.a ele.e E.1), Rt.mulVec (perifocalV GM ele.a ele.e E.1), E.2)

/-- `propagate_state` from elements (propagate_state.cpp 3-42). -/
noncomputable def propagateState (GM : ℝ) (ele : Elements) (dt : ℝ) : V3 × V3 :=
  let E := anomaly GM ele dt
  let PQW := M3.mul (M3.mul (M3.rotZ ele.Omega) (M3.rotX ele.i)) (M3.rotZ ele.omega)
  (PQW.mulVec (perifocalR ele.a ele.e E.1), PQW.mulVec (perifocalV GM ele.a ele.e E.1))

/-- `perifocal2equatorial_matrix` (perifocal.cpp 7-27): the last row uses the node where the
argument of perigee belongs. -/
noncomputable def p2eMatrix (Omega omega i : ℝ) : M3 :=
  let sO := sin Omega
  let cO := cos Omega
  let so := sin omega
  let co := cos omega
  let si := sin i
  let ci := cos i
  ⟨⟨cO * co - sO * so * ci, -cO * so - sO * co * ci, sO * si⟩,
   ⟨sO * co + cO * so * ci, -sO * so + cO * co * ci, -cO * si⟩,
   ⟨sO * si, cO * si, ci⟩⟩

/-- `elements2perifocal` (perifocal.cpp 79-88). -/
noncomputable def elements2perifocal (GM : ℝ) (ele : Elements) (dt : ℝ) : V3 × V3 :=
  let E := (anomaly GM ele dt).1
  (perifocalR ele.a ele.e E, perifocalV GM ele.a ele.e E)

/-- `perifocal2equatorial` (perifocal.cpp 98-117). -/
noncomputable def perifocal2equatorial (ele : Elements) (y : V3 × V3) : V3 × V3 :=
  let T := p2eMatrix ele.Omega ele.omega ele.i
  (T.mulVec y.1, T.mulVec y.2)

/-- `equatorial2perifocal` (perifocal.cpp 119-139). -/
noncomputable def equatorial2perifocal (ele : Elements) (y : V3 × V3) : V3 × V3 :=
  let T := (p2eMatrix ele.Omega ele.omega ele.i).transpose
  (T.mulVec y.1, T.mulVec y.2)

/-- `std::atan2`: the argument of the complex number `x + i y`, in `(-π, π]`. -/
noncomputable def atan2 (y x : ℝ) : ℝ := Complex.arg ⟨x, y⟩

/-- `state2elements` (state2kepler.cpp 98-132 and, in the same words, 134-173). `norm` is
`dso::norm_angle`, of an outside library. -/
noncomputable def state2elements (norm : ℝ → ℝ) (r v : V3) (GM : ℝ) : Elements :=
  let h := r.cross v
  let H := h.norm
  let u := atan2 (r.z * H) (-r.x * h.y + r.y * h.x)
  let R := r.norm
  let a := 1 / (2 / R - v.dot v / GM)
  let eCosE := 1 - R / a
  let eSinE := r.dot v / √(GM * a)
  let e2 := eCosE * eCosE + eSinE * eSinE
  let E := atan2 eSinE eCosE
  let nu := atan2 (√(1 - e2) * eSinE) (eCosE - e2)
  { a := a, e := √e2,
    i := atan2 (√(h.x * h.x + h.y * h.y)) h.z,
    Omega := norm (atan2 h.x (-h.y)),
    omega := norm (u - nu),
    M := norm (E - eSinE) }

end Verif.Orbit
