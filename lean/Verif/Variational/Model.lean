import Verif.Forces.Model
import Mathlib.Algebra.BigOperators.Group.Finset.Basic
import Mathlib.Algebra.Order.Floor.Ring
import Mathlib.Data.Real.Archimedean

/-!
Model of the variational equations (src/variational_equations.cpp), the third-body wrapper
(src/sunmoon.cpp) and the Jason-3 macro model (src/satellites/jason3.hpp).

Simplifications: real numbers stand for `double`; the precession-nutation matrix, the rotation
angle and the polar motion (`gcrs2itrs`), the gravity field, the positions of Sun and Moon (SPICE
kernels), the attitude quaternion, the number of leap seconds and the atmospheric density are
parameters.  The calls wrapped in `assert` are taken to be executed (with `NDEBUG` they are not).
-/
namespace Verif.Variational

open Verif.Astro Verif.Forces Finset

/-! ### Attitude and projected area -/

/-- `Eigen::Quaternion<double>`. -/
structure Quat where
  w : ℝ
  v : V3

/-- `q.conjugate()`. -/
def Quat.conj (q : Quat) : Quat := ⟨q.w, q.v.smul (-1)⟩

/-- `q.norm()`. -/
noncomputable def Quat.norm (q : Quat) : ℝ := √(q.w * q.w + q.v.dot q.v)

/-- `q.normalized()`: the zero quaternion stays as it is. -/
noncomputable def Quat.normalized (q : Quat) : Quat :=
  open Classical in
  if q.w * q.w + q.v.dot q.v > 0 then ⟨q.w / q.norm, q.v.smul (1 / q.norm)⟩ else q

/-- `q * v` (Eigen's `_transformVector`): with `t = 2 q.vec × v`, the vector `v + w t + q.vec × t`. -/
def Quat.apply (q : Quat) (x : V3) : V3 :=
  let t := (q.v.cross x).smul 2
  (x.add (t.smul q.w)).add (q.v.cross t)

/-- The members of `MacroModelComponent` used here (src/satellites.hpp 30-35). -/
structure Plate where
  surf : ℝ
  normal : V3

/-- The loop over the plates (variational_equations.cpp:118-125), from the sum so far. -/
noncomputable def areaLoop (q : Quat) (vr : V3) : List Plate → ℝ → ℝ
  | [], a => a
  | p :: ps, a =>
    let rv := q.conj.normalized.apply p.normal
    let ctheta := rv.dot vr
    open Classical in
    areaLoop q vr ps (if ctheta > 0 then a + p.surf * ctheta else a)

/-- `ProjArea` (variational_equations.cpp:109-125). -/
noncomputable def projArea (w : ℝ) (q : Quat) (plates : List Plate) (r v : V3) : ℝ :=
  areaLoop q (normalized (relVel w r v)) plates 0

/-- `MacroModel<SATELLITE::Jason3>::mmcomponents`: surfaces and normals (src/satellites/jason3.hpp 110-121). -/
noncomputable def jason3 : List Plate :=
  [⟨783 / 1000, ⟨-1, 0, 0⟩⟩, ⟨783 / 1000, ⟨1, 0, 0⟩⟩, ⟨2040 / 1000, ⟨0, -1, 0⟩⟩, ⟨2040 / 1000, ⟨0, 1, 0⟩⟩,
    ⟨3105 / 1000, ⟨0, 0, -1⟩⟩, ⟨3105 / 1000, ⟨0, 0, 1⟩⟩, ⟨9800 / 1000, ⟨1, 0, 0⟩⟩, ⟨9800 / 1000, ⟨-1, 0, 0⟩⟩]

/-! ### UTC date for the atmosphere -/

/-- The day and the seconds of day handed to `update_params` (variational_equations.cpp:126-139) for a
date `cmjd ≥ 0` (TAI), `leap` leap seconds and `eid` extra seconds in the day. -/
noncomputable def utcDate (cmjd : ℝ) (leap eid : ℤ) : ℤ × ℝ :=
  let imjd := ⌊cmjd⌋
  let f := Int.fract cmjd - leap / (86400 + eid)
  let (f, imjd) :=
    open Classical in
    if f > 1 then (f - 1, imjd + 1) else if f < 1 then (f + 1, imjd - 1) else (f, imjd)
  (imjd, f * 86400)

/-! ### Sun and Moon -/

/-- The TT Julian date for which positions are taken (sunmoon.cpp:13-20). -/
noncomputable def sunMoonJd (mjdTai : ℝ) : ℝ :=
  let ttf := Int.fract mjdTai + 32184 / 1000 / 86400
  (⌊mjdTai⌋ + ttf) + 2400000.5

/-- `SunMoon` (sunmoon.cpp:5-41): accelerations by Sun and Moon, position of the Sun, partials.  The
positions `rsun`, `rmon` are in km, `GMSun`, `GMMon` in km³/s². -/
noncomputable def sunMoon (GMSun GMMon : ℝ) (rsun rmon rsat : V3) : V3 × V3 × V3 × M3 :=
  let sunAcc := pointMass GMSun (rsat.smul (1 / 1000)) rsun
  let sunAcc := sunAcc.smul (1 / 1000)
  let (monAcc, partials) := pointMassPartials (GMMon * 10 ^ 9) rsat (rmon.smul 1000)
  (sunAcc, monAcc, rsun.smul 1000, partials)

/-! ### The derivative -/

/-- What is fixed at an epoch. -/
structure Env where
  /-- Earth-fixed gravity and its partials (`grav_potential_accel`) -/
  g : V3 → V3
  G : V3 → M3
  rc2i : M3
  era : ℝ
  rpom : M3
  /-- gravitational parameters in km³/s² and positions in km -/
  GMSun : ℝ
  GMMon : ℝ
  rsun : V3
  rmon : V3
  /-- rotation of the Earth -/
  w : ℝ
  q : Quat
  plates : List Plate
  mass : ℝ
  /-- density for a position -/
  dens : V3 → ℝ

/-- The acceleration (variational_equations.cpp:50-75, 94-95, 143, 183-185, 237-238) for the drag
coefficient `C`. -/
noncomputable def accel (E : Env) (r v : V3) (C : ℝ) : V3 :=
  let gacc := (gravityInertial E.g E.G (c2t E.rc2i E.era E.rpom) r).1
  let sm := sunMoon E.GMSun E.GMMon E.rsun E.rmon r
  let drag := drag E.w r v (projArea E.w E.q E.plates r v) C E.mass (E.dens r)
  ((gacc.add sm.1).add sm.2.1).add drag

/-- `dfdy.block<3,3>(3,0)` (variational_equations.cpp:223). -/
noncomputable def dadr (E : Env) (r v : V3) (C : ℝ) : M3 :=
  let gp := (gravityInertial E.g E.G (c2t E.rc2i E.era E.rpom) r).2
  let tb := (sunMoon E.GMSun E.GMMon E.rsun E.rmon r).2.2.2
  let dr := dragDR E.w r v (projArea E.w E.q E.plates r v) C E.mass (E.dens r) (densityGradient E.dens r)
  (gp.add tb).add dr

/-- `dfdy.block<3,3>(3,3)` (variational_equations.cpp:224). -/
noncomputable def dadv (E : Env) (r v : V3) (C : ℝ) : M3 :=
  dragDV E.w r v (projArea E.w E.q E.plates r v) C E.mass (E.dens r)

/-- `ddragdC` (variational_equations.cpp:230). -/
noncomputable def dadC (E : Env) (r v : V3) : V3 :=
  dragDC E.w r v (projArea E.w E.q E.plates r v) E.mass (E.dens r)

/-- Components of a vector and rows of a matrix by index. -/
def comp (v : V3) : Nat → ℝ
  | 0 => v.x
  | 1 => v.y
  | _ => v.z

def row (m : M3) : Nat → V3
  | 0 => m.r0
  | 1 => m.r1
  | _ => m.r2

/-- The 6x6 matrix `dfdy` (variational_equations.cpp:220-224). -/
def dfdy (A B : M3) (i j : Nat) : ℝ :=
  if i < 3 then (if j < 3 then 0 else if j = i + 3 then 1 else 0)
  else if j < 3 then comp (row A (i - 3)) j else comp (row B (i - 3)) (j - 3)

/-- The 6x7 matrix `dfdS` (variational_equations.cpp:229-230). -/
def dfdS (c : V3) (i j : Nat) : ℝ := if 3 ≤ i ∧ j = 6 then comp c (i - 3) else 0

/-- The matrix `Phi` (variational_equations.cpp:213): read column by column behind the state. -/
def phi (y : Nat → ℝ) (i j : Nat) : ℝ := y (6 + (6 * j + i))

/-- Three consecutive numbers of a vector (`block<3,1>(n,0)`). -/
def vec (y : Nat → ℝ) (n : Nat) : V3 := ⟨y n, y (n + 1), y (n + 2)⟩

/-- The 6x8 matrix `yPhip` (variational_equations.cpp:233-238). -/
noncomputable def yPhip (E : Env) (C : ℝ) (y : Nat → ℝ) (i j : Nat) : ℝ :=
  let r := vec y 0
  let v := vec y 3
  if j = 0 then (if i < 3 then comp v i else comp (accel E r v C) (i - 3))
  else (∑ l ∈ range 6, dfdy (dadr E r v C) (dadv E r v C) i l * phi y l (j - 1)) + dfdS (dadC E r v) i (j - 1)

/-- `VariationalEquations` (variational_equations.cpp:9-245): the entries 0 to 47 of the derivative, the
matrix written column by column (variational_equations.cpp:241-242). -/
noncomputable def derivative (E : Env) (C : ℝ) (y : Nat → ℝ) (n : Nat) : ℝ := yPhip E C y (n % 6) (n / 6)

end Verif.Variational
