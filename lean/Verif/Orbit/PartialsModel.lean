import Verif.Orbit.Model
import Mathlib.Data.Matrix.Mul

/-
Model of the partial derivatives of the two-body state with respect to the orbital elements
(src/astrodynamics/state_partials.cpp) and of the state transition matrix
(src/astrodynamics/propagate_state.cpp:44-99).  Real numbers stand for `double`; the Eigen
expressions are taken at their mathematical values (all `auto` expressions there refer to objects
that are still alive).
-/
namespace Verif.Orbit

open Real Verif.Astro

/-- First, second and third column of a matrix (state_partials.cpp:21-23). -/
def colP (m : M3) : V3 := ⟨m.r0.x, m.r1.x, m.r2.x⟩
def colQ (m : M3) : V3 := ⟨m.r0.y, m.r1.y, m.r2.y⟩
def colW (m : M3) : V3 := ⟨m.r0.z, m.r1.z, m.r2.z⟩

/-- `Eigen::Vector3d::UnitZ()`. -/
def unitZ : V3 := ⟨0, 0, 1⟩

/-- `p * P + q * Q`, as it is written many times in state_partials.cpp. -/
def comb (p : ℝ) (P : V3) (q : ℝ) (Q : V3) : V3 := (P.smul p).add (Q.smul q)

/-- The matrix of Gaussian vectors (state_partials.cpp:17-20, propagate_state.cpp:34-36). -/
noncomputable def gauss (ele : Elements) : M3 :=
  M3.mul (M3.mul (M3.rotZ ele.Omega) (M3.rotX ele.i)) (M3.rotZ ele.omega)

/-- The unit vector to the ascending node (state_partials.cpp:25-26). -/
noncomputable def nodeVec (W : V3) : V3 :=
  let N := unitZ.cross W
  N.smul (1 / N.norm)

/-- `state_partials` (state_partials.cpp:5-80) for perifocal coordinates `s`: the six columns
of the matrix, position and velocity part.  In the code `s` is `elements2perifocal(GM, ele, dt)`
(state_partials.cpp:9). -/
noncomputable def statePartialsAt (GM : ℝ) (ele : Elements) (dt : ℝ) (s : V3 × V3) : Fin 6 → V3 × V3 :=
  let x := s.1.x
  let y := s.1.y
  let vx := s.2.x
  let vy := s.2.y
  let r := s.1.norm
  let PQW := gauss ele
  let P := colP PQW
  let Q := colQ PQW
  let N := nodeVec (colW PQW)
  let dPdi := N.cross P
  let dPdO := unitZ.cross P
  let dPdo := Q
  let dQdi := N.cross Q
  let dQdO := unitZ.cross Q
  let dQdo := P.smul (-1)
  let a := ele.a
  let e := ele.e
  let fac := √((1 - e) * (1 + e))
  let n := √(GM / (a * a * a))
  let dYda : V3 × V3 := (comb (x / a) P (y / a) Q, comb (-vx / (2 * a)) P (-vy / (2 * a)) Q)
  let dYde : V3 × V3 :=
    (comb (-a - (y / fac) ^ 2 / r) P (x * y / (r * fac * fac)) Q,
     comb (vx * (2 * a * x + e * (y / fac) ^ 2) / (r * r)) P
       (n / fac * (a / r) ^ 2 * (x * x / r - (y / fac) ^ 2 / a)) Q)
  let dYdM : V3 × V3 :=
    ((comb vx P vy Q).smul (1 / n), (comb x P y Q).smul (-n * (a / r) ^ 3))
  let dMda := -(3 / 2) * (n / a) * dt
  ![(dYda.1.add (dYdM.1.smul dMda), dYda.2.add (dYdM.2.smul dMda)),
    dYde,
    (comb x dPdi y dQdi, comb vx dPdi vy dQdi),
    (comb x dPdO y dQdO, comb vx dPdO vy dQdO),
    (comb x dPdo y dQdo, comb vx dPdo vy dQdo),
    dYdM]

/-- `state_partials` (state_partials.cpp:5-80). -/
noncomputable def statePartials (GM : ℝ) (ele : Elements) (dt : ℝ) : Fin 6 → V3 × V3 :=
  statePartialsAt GM ele dt (elements2perifocal GM ele dt)

/-- Component `k` of a state as a vector of six numbers. -/
def comp (y : V3 × V3) : Fin 6 → ℝ := ![y.1.x, y.1.y, y.1.z, y.2.x, y.2.y, y.2.z]

/-- The columns as a 6x6 matrix (state_partials.cpp:70-79). -/
def ofCols (c : Fin 6 → V3 × V3) : Matrix (Fin 6) (Fin 6) ℝ := fun k j => comp (c j) k

/-- The Poisson brackets (propagate_state.cpp:58-70): `P_aM`, `P_eM`, `P_eo`, `P_io`, `P_iO`. -/
structure Brackets where
  aM : ℝ
  eM : ℝ
  eo : ℝ
  io : ℝ
  iO : ℝ

/-- propagate_state.cpp:58-70. -/
noncomputable def brackets (GM : ℝ) (ele : Elements) : Brackets :=
  let a := ele.a
  let e := ele.e
  let n := √(GM / (a * a * a))
  let sqe2 := √((1 - e) * (1 + e))
  let naa := n * a * a
  { aM := -2 / (n * a), eM := -(1 - e) * (1 + e) / (naa * e), eo := sqe2 / (naa * e),
    io := -1 / (naa * sqe2 * tan ele.i), iO := 1 / (naa * sqe2 * sin ele.i) }

/-- Rows of the partials of the elements with respect to the state (propagate_state.cpp:72-93):
for the columns `c` of the partials of the state, the six rows, position and velocity part. -/
noncomputable def elementRows (p : Brackets) (c : Fin 6 → V3 × V3) : Fin 6 → V3 × V3 :=
  ![((c 5).2.smul p.aM, (c 5).1.smul (-p.aM)),
    (comb p.eo (c 4).2 p.eM (c 5).2, comb (-p.eo) (c 4).1 (-p.eM) (c 5).1),
    (comb p.iO (c 3).2 p.io (c 4).2, comb (-p.iO) (c 3).1 (-p.io) (c 4).1),
    ((c 2).2.smul (-p.iO), (c 2).1.smul p.iO),
    (comb (-p.eo) (c 1).2 (-p.io) (c 2).2, comb p.eo (c 1).1 p.io (c 2).1),
    (comb (-p.aM) (c 0).2 (-p.eM) (c 1).2, comb p.aM (c 0).1 p.eM (c 1).1)]

/-- Rows as a 6x6 matrix. -/
def ofRows (c : Fin 6 → V3 × V3) : Matrix (Fin 6) (Fin 6) ℝ := fun k j => comp (c k) j

/-- The state transition matrix of `propagate_state` (propagate_state.cpp:52-96), for given elements
of the initial state and perifocal coordinates `s0` at the epoch, `s` after `dt`. -/
noncomputable def transitionAt (GM : ℝ) (ele : Elements) (dt : ℝ) (s0 s : V3 × V3) : Matrix (Fin 6) (Fin 6) ℝ :=
  ofCols (statePartialsAt GM ele dt s) *
    ofRows (elementRows (brackets GM ele) (statePartialsAt GM ele 0 s0))

/-- `propagate_state` with the state transition matrix (propagate_state.cpp:44-99): state and matrix. -/
noncomputable def propagateTransition (norm : ℝ → ℝ) (GM : ℝ) (r v : V3) (dt : ℝ) :
    (V3 × V3) × Matrix (Fin 6) (Fin 6) ℝ :=
  let ele := state2elements norm r v GM
  (propagateState GM ele dt,
    transitionAt GM ele dt (elements2perifocal GM ele 0) (elements2perifocal GM ele dt))

end Verif.Orbit
