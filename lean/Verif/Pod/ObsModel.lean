import Verif.Astro.Vec
import Verif.Filters.LayoutModel
import Verif.SystemInfo.Model
import Mathlib.Analysis.SpecialFunctions.Trigonometric.Basic

/-
Model of the observation equation of the orbit determination program (test/rinex_pod.cpp), over the
real numbers.  `C` is the speed of light; frequencies in Hz; phases in cycles; lengths in metres.
-/
namespace Verif.Pod

open Verif.Astro Verif.Filters

/-- What is known of one end of a count: phase, ionospheric correction in cycles, relativistic
correction, zenith delay and mapping factors, vector from beacon to satellite in the local frame
(test/rinex_pod.cpp:65-95). -/
structure End where
  L1 : ℝ
  diono : ℝ
  drel : ℝ
  lhz : ℝ
  mfh : ℝ
  mfw : ℝ
  s : V3

/-- A count: previous and present end, interval of proper time in seconds, nominal frequency of the
beacon, frequency of the receiver, local frame of the beacon. -/
structure Count where
  C : ℝ
  feN : ℝ
  frT : ℝ
  dt : ℝ
  prev : End
  cur : End
  R : M3

/-- `NdopDt` (test/rinex_pod.cpp:883-886). -/
noncomputable def Count.ndopDt (k : Count) : ℝ := (k.cur.L1 - k.prev.L1) / k.dt

/-- `Dion` (test/rinex_pod.cpp:895-898). -/
noncomputable def Count.dion (k : Count) : ℝ := k.C / k.feN * (k.cur.diono - k.prev.diono) / k.dt

/-- `TropoDetails::sum(Lwz_)` (test/rinex_pod.cpp:69). -/
def End.tropo (e : End) (lwz : ℝ) : ℝ := e.lhz * e.mfh + lwz * e.mfw

/-- `Uobs` (test/rinex_pod.cpp:909-911, 929-930). -/
noncomputable def Count.uobs (k : Count) : ℝ :=
  k.C / k.feN * (k.feN - k.frT - k.ndopDt) + k.dion + (k.cur.drel - k.prev.drel) / k.dt

/-- `Utheo` for the wet zenith delay `lwz` and the relative offset `df` of the emitter
(test/rinex_pod.cpp:901-906, 932-934). -/
noncomputable def Count.utheo (k : Count) (lwz df : ℝ) : ℝ :=
  1 / k.dt * (k.cur.s.norm - k.prev.s.norm) + (k.cur.tropo lwz - k.prev.tropo lwz) / k.dt
    - k.C / k.feN * (k.ndopDt + k.frT) * df

/-- `oc` (test/rinex_pod.cpp:936). -/
noncomputable def Count.oc (k : Count) (lwz df : ℝ) : ℝ := k.uobs + k.utheo lwz df

/-- `rfoff_estimate(beacon, t)` with a linear clock, `el` seconds after the reference epoch
(src/filters/filters.hpp:117-127). -/
noncomputable def rfoffLinear (x : Nat → ℝ) (b : Nat) (el : ℝ) : ℝ :=
  x (rfoffIndex .linear 1 b) + el * x (rfoffIndex .linear 1 b + 1)

/-- Assigning one entry. -/
def set (v : Nat → ℝ) (i : Nat) (a : ℝ) : Nat → ℝ := fun j => if j = i then a else v j

/-- The position part of `dHdX` before the change of sign (test/rinex_pod.cpp:952-956). -/
noncomputable def Count.dpos (k : Count) : V3 :=
  (k.R.transpose.mulVec ((k.cur.s.smul (1 / k.cur.s.norm)).sub (k.prev.s.smul (1 / k.prev.s.norm)))).smul
    (1 / k.dt)

/-- The entries common to both clock models (test/rinex_pod.cpp:951-959). -/
noncomputable def Count.base (k : Count) : Nat → ℝ :=
  let v : Nat → ℝ := fun _ => 0
  let v := set (set (set v 0 k.dpos.x) 1 k.dpos.y) 2 k.dpos.z
  set v dragIndex 1

/-- `dHdX` with a linear clock (test/rinex_pod.cpp:951-959, 965-978); `b` is the number of the beacon. -/
noncomputable def Count.design (k : Count) (b : Nat) (el : ℝ) : Nat → ℝ :=
  let v := set k.base (rfoffIndex .linear 1 b) (-(k.C / k.feN * (k.ndopDt + k.frT)))
  let v := set v (rfoffIndex .linear 1 b + 1) (-el * (k.C / k.feN) * (k.ndopDt + k.frT))
  let v := set v (tropoIndex .linear 1 b) ((k.cur.mfw - k.prev.mfw) / k.dt)
  fun j => v j * -1

/-- `dHdX` with the constant clock, compiled with `RANDOM_RFO` (test/rinex_pod.cpp:951-963,
973-978). -/
noncomputable def Count.designRandom (k : Count) (b : Nat) : Nat → ℝ :=
  let v := set k.base (rfoffIndex .none 1 b) (k.C / k.feN * (k.ndopDt + k.frT))
  let v := set v (tropoIndex .none 1 b) ((k.cur.mfw - k.prev.mfw) / k.dt)
  fun j => v j * -1

/-- The standard deviation given to the filter (test/rinex_pod.cpp:983-984). -/
noncomputable def obsSigma (sigma el : ℝ) : ℝ := sigma / Real.cos el

end Verif.Pod
