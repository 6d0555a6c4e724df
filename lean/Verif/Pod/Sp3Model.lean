import Verif.Pod.OrbitModel

/-
Model of three test programs that propagate the records of an SP3 file: test/test_sp3_integrator.cpp,
test/test_sp3_fit_state.cpp and test/rinex_interpolator.cpp.

Epochs are whole nanoseconds, all other numbers real.  The integrator, the rotation of the Earth and the SP3
reader (a library) are parameters.  The equations of motion of the first program are those of
src/variational_equations.cpp (`Verif/Variational`) without drag; those of the second differ in the
accelerations by Sun and Moon (`fitSunMoon`).
-/
namespace Verif.Pod.Sp3

open Verif.Astro Verif.Forces Verif.Variational Verif.Pod

/-- A record of an SP3 file: epoch, whether there is a position, position in km, velocity in dm/s. -/
structure Block where
  t : ℤ
  ok : Bool
  r : V3
  v : V3

/-- What the programs call.  `mjd`: `as_mjd` of an epoch; `ulong`: what the conversion of a number outside of the
range of `unsigned long` gives. -/
structure Ext where
  w : ℝ
  rc2i : ℝ → M3
  era : ℝ → ℝ
  rpom : ℝ → M3
  de : ℝ → (Nat → ℝ) → ℝ → ℝ × (Nat → ℝ)
  mjd : ℤ → ℝ
  ulong : ℝ → ℤ

/-- The celestial state of a terrestrial one (test/test_sp3_integrator.cpp:170-223, 611-618,
test/rinex_interpolator.cpp:37-50). -/
noncomputable def Ext.toCel (X : Ext) (mjd : ℝ) (y : V3 × V3) : V3 × V3 :=
  yter2cel X.w id y (X.rc2i mjd) (X.era mjd) (X.rpom mjd)

/-- The terrestrial state of a celestial one (test/test_sp3_integrator.cpp:664-667,
test/rinex_interpolator.cpp:98-105). -/
noncomputable def Ext.toTer (X : Ext) (mjd : ℝ) (y : V3 × V3) : V3 × V3 :=
  ycel2ter X.w id y (X.rc2i mjd) (X.era mjd) (X.rpom mjd)

/-- `r0_geo` (test/test_sp3_integrator.cpp:606-608, test/rinex_interpolator.cpp:249-254). -/
noncomputable def Block.state (b : Block) : V3 × V3 := (b.r.smul 1000, b.v.smul (1 / 10))

/-- The loop over columns and rows (test/test_sp3_integrator.cpp:626-631, test/rinex_interpolator.cpp:58-63): six
columns of six rows, one index after the other from 6 on. -/
def identityLoop (y : Nat → ℝ) : Nat → ℝ :=
  (((List.range' 1 6).flatMap fun col => (List.range 6).map fun row => (col, row)).foldl
    (fun ky cr => (ky.1 + 1, set ky.2 ky.1 (if cr.1 - 1 = cr.2 then 1 else 0))) (6, y)).2

/-- `yPhi` (test/test_sp3_integrator.cpp:624-631). -/
def initial (y : V3 × V3) : Nat → ℝ :=
  identityLoop fun n =>
    match n with
    | 0 => y.1.x | 1 => y.1.y | 2 => y.1.z | 3 => y.2.x | 4 => y.2.y | 5 => y.2.z | _ => 0

/-- `static_cast<unsigned long>(t * 1e9)` (test/test_sp3_integrator.cpp:660): towards zero; not defined outside of
the range. -/
noncomputable def Ext.nanos (X : Ext) (t : ℝ) : ℤ :=
  open Classical in if 0 ≤ t * 10 ^ 9 ∧ t * 10 ^ 9 < 2 ^ 64 then ⌊t * 10 ^ 9⌋ else X.ulong (t * 10 ^ 9)

/-- A line printed: epoch and terrestrial state. -/
abbrev Line := ℤ × (V3 × V3)

/-- The line for a record (test/test_sp3_integrator.cpp:605-672, test/test_sp3_fit_state.cpp:423-484, without the
part of the vector behind the state). -/
noncomputable def Ext.line (X : Ext) (step : ℝ) (b : Block) : Line :=
  let y0 := X.toCel (X.mjd b.t) b.state
  let r := X.de (X.mjd b.t) (initial y0) step
  let epoch := b.t + X.nanos r.1
  (epoch, X.toTer (X.mjd epoch) (vec r.2 0, vec r.2 3))

/-- The end of a program: lines printed, the number of records and the value returned. -/
structure Ended (α : Type) where
  lines : List α
  count : Option Nat
  code : Int
  deriving DecidableEq

/-- The loop over the records (test/test_sp3_integrator.cpp:588-709, test/test_sp3_fit_state.cpp:405-522).  `reads`:
status and block after every call of the reader, which at the end of the file (-1) may leave what it finds in the
block; `line`: the line of a record with its epoch; `epoch`: the last one.  `none`: there are no more calls in the
list. -/
def loop {α β : Type} (ok : β → Bool) (line : β → ℤ × α) (t0 : ℤ) :
    List (Int × β) → ℤ → Nat → List (ℤ × α) → Option (Ended (ℤ × α))
  | [], _, _, _ => none
  | (e, b) :: rest, epoch, n, out =>
    if e > 0 then some ⟨out, none, 1⟩
    else
      let l := line b
      let epoch' := if ok b then l.1 else epoch
      let n' := if ok b then n + 1 else n
      let out' := if ok b then out ++ [l] else out
      if epoch' - t0 > 12 * 3600 * 1000000000 then some ⟨out', some n', if e = -1 then 1 else 0⟩
      else if e = 0 ∧ n' < 1000 then loop ok line t0 rest epoch' n' out'
      else some ⟨out', some n', if e = -1 then 1 else 0⟩

/-- Accelerations by Sun and Moon in test/test_sp3_fit_state.cpp:222-256, 292 with the function of
src/egravity.hpp:39-46: positions `rsun`, `rmon` in km, `GMe` of the Earth in m³/s². -/
noncomputable def fitSunMoon (GMe : ℝ) (rsun rmon rsat : V3) : V3 × V3 :=
  (pointMass GMe rsat (rsun.smul 1000), pointMass GMe rsat (rmon.smul 1000))

/-! ### rinex_interpolator -/

/-- `SatelliteState` (test/rinex_interpolator.cpp:30-33). -/
structure Sv where
  mjd : ℝ
  state : V3 × V3
  Phi : Nat → Nat → ℝ

/-- `integrate` (test/rinex_interpolator.cpp:52-113): code and new state. -/
noncomputable def Ext.integrate (X : Ext) (s : Sv) (target : ℝ) : Nat × Sv :=
  let yPhi := initial (X.toCel s.mjd s.state)
  let r := X.de s.mjd yPhi ((target - s.mjd) * 86400)
  let tout := s.mjd + r.1 / 86400
  open Classical in
  if |tout - target| > 1e-12 then (1, s)
  else (0, ⟨tout, X.toTer tout (vec r.2 0, vec r.2 3), fun i j => yPhi (6 * (j + 1) + i)⟩)

/-- The loop over the blocks of observations (test/rinex_interpolator.cpp:231-273): `next` gives, for every call,
the status and the epoch; `goto`: the record of the SP3 file for an epoch, with its own date.  The value returned
and the lines printed; `none`: no more calls in the list. -/
noncomputable def Ext.interpolate (X : Ext) (goto : ℤ → Option Block) : List (Int × ℤ) → (Nat → Nat → ℝ) → List Line →
    Option (Int × List Line)
  | [], _, _ => none
  | (e, t) :: rest, Phi, out =>
    if e ≠ 0 then some (0, out)
    else
      match goto t with
      | none => some (1, out)
      | some b =>
        let r := X.integrate ⟨X.mjd b.t, b.state, Phi⟩ (X.mjd t)
        if r.1 ≠ 0 then some (1, out)
        else X.interpolate goto rest r.2.Phi (out ++ [(t, r.2.state)])

end Verif.Pod.Sp3
