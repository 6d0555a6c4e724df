import Verif.Forces.Model
import Verif.Sgode.DriverModel
import Mathlib.Data.Matrix.Mul
import Mathlib.Data.Matrix.Reflection
import Mathlib.Analysis.SpecialFunctions.Trigonometric.Basic

/-!
Model of the programs that repeat textbook exercises: test/test_exc32.cpp, test/test_exc52.cpp, test/test_exc71.cpp,
test/test_exc83.cpp and test/test_ode_example.cpp (with its older copy var/ode_solvers/ode_example.cpp).

Simplifications: real numbers stand for `double`.  The integrator is the driver of `Verif.Sgode` with any step routine; the
gravity field, the matrices of precession-nutation and polar motion, the rotation to the local frame, the orbit propagation and
the number of leap seconds are parameters.  `std::atoi` is a parameter.
-/
namespace Verif.Exc

open Verif.Sgode

/-! ### test_exc71.cpp and test_ode_example.cpp: the loops around the integrator -/

section Loops

variable {K : Type} [Field K] [LinearOrder K] {n : Nat}

/-- One line of output: the time and the values that are printed, and the return value of the integrator. -/
structure Row (K : Type) (n : Nat) where
  t : K
  y : Vec K n
  ret : Int

/-- The loop of test_exc71.cpp:177-190 for `m` passes; `y i` is the vector passed as initial values in pass `i` (in the code it is
the same one, `yPhi`, in all of them). -/
def passes (e : DExt K n) (step : K) (y : Nat → Vec K n) : Nat → Nat → Drv K n → K → Vec K n → List (Row K n)
  | 0, _, _, _, _ => []
  | m + 1, i, d, t, sol =>
    let tout := t + step
    let o := de e d t tout (y i) sol
    ⟨o.t, o.yout, o.ret⟩ :: passes e step y m (i + 1) o.drv tout o.yout

/-- The condition of the loop (test_exc71.cpp:177) after each pass: the number of passes until it fails, at most `fuel`. -/
def passCount (tend step : K) : Nat → K → Nat
  | 0, _ => 0
  | fuel + 1, t => if t < tend then passCount tend step fuel (t + step) + 1 else 0

/-- A pass of the loop of test_ode_example.cpp:95-117 to the target `tout`: what is printed, and the state for the next pass
unless the program ends. -/
def odePass (e : DExt K n) (d : Drv K n) (t tout : K) (y yy : Vec K n) : Row K n × Option (Drv K n × K × Vec K n × Vec K n) :=
  let o := de e d t tout y yy
  (⟨o.t, o.yout, o.ret⟩,
   if o.drv.iflag = 4 ∨ o.drv.iflag = 5 then none else some (o.drv, o.t, o.yout, o.yout))

end Loops

/-- The right-hand side of test_ode_example.cpp:8-17. -/
noncomputable def elliptic (y : ℝ × ℝ × ℝ) : ℝ × ℝ × ℝ :=
  (y.2.1 * y.2.2, -y.1 * y.2.2, -0.51 * y.1 * y.2.1)

/-! ### test_exc71.cpp -/

/-- Degree and order from the command line (test_exc71.cpp:109-123), `none` for the usage message. -/
def args (atoi : String → Int) (argv : List String) : Option (Int × Int) :=
  if argv.length < 2 ∨ argv.length > 4 then none
  else some (if argv.length ≥ 3 then atoi (argv.getD 2 "") else 20, if argv.length = 4 then atoi (argv.getD 3 "") else 20)

/-- The assertion of test_exc71.cpp:32; the coefficients have been allocated for the degree. -/
def asserted (fileDegree : Int) (a : Int × Int) : Bool := a.1 ≤ fileDegree && a.2 ≤ a.1

/-- `dfdy` (test_exc71.cpp:85-89). -/
def dfdy (G : Nat → Nat → ℝ) (i j : Nat) : ℝ :=
  if i < 3 then (if j = i + 3 then 1 else 0) else if j < 3 then G (i - 3) j else 0

/-- `Phi` (test_exc71.cpp:78): Eigen stores by columns. -/
def Phi (y : Nat → ℝ) (i j : Nat) : ℝ := y (6 + (i + 6 * j))

/-- `yPhip` (test_exc71.cpp:93-98), 6 by 7. -/
noncomputable def yPhip (acc : (Nat → ℝ) → Nat → ℝ) (G : (Nat → ℝ) → Nat → Nat → ℝ) (y : Nat → ℝ) (i j : Nat) : ℝ :=
  if j = 0 then (if i < 3 then y (3 + i) else acc y (i - 3))
  else ∑ k ∈ Finset.range 6, dfdy (G y) i k * Phi y k (j - 1)

/-- `variational_equations` (test_exc71.cpp:49-106): the 42 derivatives; acceleration and its partials depend on the position,
the first three entries. -/
noncomputable def variational (acc : (Nat → ℝ) → Nat → ℝ) (G : (Nat → ℝ) → Nat → Nat → ℝ) (y : Nat → ℝ) (n : Nat) : ℝ :=
  yPhip acc G y (n % 6) (n / 6)

/-- The start (test_exc71.cpp:157-163): state and unit matrix, by columns. -/
def start (y0 : Nat → ℝ) (n : Nat) : ℝ :=
  if n / 6 = 0 then y0 (n % 6) else if n % 6 = n / 6 - 1 then 1 else 0

/-! ### test_exc52.cpp -/

/-- Times of test_exc52.cpp:41-53 in seconds, from GPS time in seconds and the number of leap seconds: UTC, TT. -/
def times (gps leap : ℚ) : ℚ × ℚ :=
  let tai := gps + 19
  (tai - leap, tai + 32184 / 1000)

/-- `dat` (test_exc52.cpp:17). -/
def dat : Int := 13

/-- The test of test_exc52.cpp:44. -/
def warns (leap : Int) : Bool := leap ≠ dat

/-- 3 by 3 matrices. -/
abbrev Mat := Matrix (Fin 3) (Fin 3) ℝ

/-- `Mat3x3::RotZ`, as `RzMat` (test_exc52.cpp:29-33). -/
noncomputable def rotZ (a : ℝ) : Mat := !![Real.cos a, Real.sin a, 0; -Real.sin a, Real.cos a, 0; 0, 0, 1]

/-- `data` of a `Mat3x3` (by rows). -/
def rowData (m : Mat) (k : Nat) : ℝ := m (Fin.ofNat 3 (k / 3)) (Fin.ofNat 3 (k % 3))

/-- An Eigen matrix from such data (by columns; test_exc52.cpp:78, 85). -/
def colMajor (data : Nat → ℝ) : Mat := fun i j => data (i + 3 * j)

/-- `t2c` (test_exc52.cpp:74-78), printed as `U` (test_exc52.cpp:99-105). -/
noncomputable def t2c (rpom rc2i : Mat) (era : ℝ) : Mat := colMajor (rowData (rpom * rotZ era * rc2i))

/-- `dt2c` (test_exc52.cpp:82-85) for the rotation rate `ω`. -/
noncomputable def dt2c (ω : ℝ) (rpom rc2i : Mat) (era : ℝ) : Mat :=
  colMajor (rowData (rpom * (!![0, ω, 0; -ω, 0, 0; 0, 0, 0] * rotZ era) * rc2i))

/-! ### test_exc32.cpp -/

/-- The acceleration of test_exc32.cpp:52: `r` in km, the constant is written in the call. -/
noncomputable def moonAccel (sat r : Astro.V3) : Astro.V3 := Forces.pointMass 3.986004418e14 sat (r.smul 1e3)

/-! ### test_exc83.cpp -/

/-- Seconds from `t0` of observation `i` (test_exc83.cpp:49). -/
def obsTime (i : Nat) : ℚ := 1200 * (i + 1)

/-- The time that the filter holds before pass `i` (test_exc83.cpp:98, 144). -/
def filterTime : Nat → ℚ
  | 0 => 0
  | i + 1 => obsTime i

/-- `dt` (test_exc83.cpp:127). -/
def passDt (i : Nat) : ℚ := obsTime i - filterTime i

/-- `Ytrue` (test_exc83.cpp:147) for any propagation. -/
def yTrue {Y : Type} (propagate : Y → ℚ → Y) (y0 : Y) (i : Nat) : Y := propagate y0 (passDt i)

/-- East, north, up of a position (test_exc83.cpp:150-151): `car2top` is the rotation `L` of the difference to the site. -/
def enu (L Rz : Mat) (site r : Fin 3 → ℝ) : Fin 3 → ℝ := L.mulVec (Rz.mulVec r - site)

/-- The partials of a measurement with respect to the position (test_exc83.cpp:155, 172, 189). -/
def dY (L Rz : Mat) (g : Fin 3 → ℝ) : Fin 3 → ℝ := Matrix.vecMul (Matrix.vecMul g L) Rz

/-- The partials of the range with respect to east, north, up (test_exc83.cpp:186). -/
noncomputable def dRange (e : Fin 3 → ℝ) : Fin 3 → ℝ := fun i => e i / Real.sqrt (e ⬝ᵥ e)

/-- The residual that `observation_update` gets for the azimuth (test_exc83.cpp:160, ekf.hpp:67). -/
def residual (z g : ℝ) : ℝ := z - g

end Verif.Exc
