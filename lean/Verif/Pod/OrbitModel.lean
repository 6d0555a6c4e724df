import Verif.Variational.Model
import Verif.Filters.EkfModel
import Verif.Pod.ObsModel

/-
Model of the propagation step of the orbit determination program (test/rinex_pod.cpp): the state of
the satellite between epochs and the time update of the filter.

The integrator, the rotation of the Earth and the attitude are functions of the environment; the
attitude is taken as a function of time (the reader of quaternions is the subject of C31).
-/
namespace Verif.Pod

open Verif.Astro Verif.Forces Verif.Variational Verif.Filters

/-- What the propagation step calls: `rc2i`, `era`, `rpom`, `lod` from `gcrs2itrs`; the attitude
(`none`: not found); the integrator `de` started at a date with initial values and an end in
seconds, giving the time reached and the solution; centre of gravity and antenna in the frame of the
satellite.  `tmp`: see `c2tRate`. -/
structure Ext where
  w0 : ℝ
  tmp : M3 → M3
  rc2i : ℝ → M3
  era : ℝ → ℝ
  rpom : ℝ → M3
  lod : ℝ → ℝ
  quat : ℝ → Option Quat
  de : ℝ → (Nat → ℝ) → ℝ → ℝ × (Nat → ℝ)
  cog : V3
  arp : V3

/-- `SatelliteState` and the call counter (test/rinex_pod.cpp:128-141, 166). -/
structure Sv where
  mjd : ℝ
  state : V3 × V3
  Phi : Nat → Nat → ℝ
  S : Nat → Nat → ℝ
  calls : Nat

/-- `celestial` (test/rinex_pod.cpp:143-150). -/
noncomputable def Ext.toCel (X : Ext) (mjd : ℝ) (y : V3 × V3) : V3 × V3 :=
  yter2cel (omegaEarth X.w0 (X.lod mjd)) X.tmp y (X.rc2i mjd) (X.era mjd) (X.rpom mjd)

/-- The transformation back (test/rinex_pod.cpp:251-256). -/
noncomputable def Ext.toTer (X : Ext) (mjd : ℝ) (y : V3 × V3) : V3 × V3 :=
  ycel2ter (omegaEarth X.w0 (X.lod mjd)) X.tmp y (X.rc2i mjd) (X.era mjd) (X.rpom mjd)

/-- `eccentricity` (test/rinex_pod.cpp:152-160). -/
noncomputable def Ext.ecc (X : Ext) (q : Quat) : V3 := q.conj.normalized.apply (X.cog.sub X.arp)

/-- The initial state of the integration (test/rinex_pod.cpp:174-190): on the first call the state
is that of the centre of gravity, later that of the antenna.  `none`: no attitude for the date. -/
noncomputable def Ext.start (X : Ext) (s : Sv) : Option (V3 × V3) :=
  let y := X.toCel s.mjd s.state
  if s.calls = 0 then some y
  else (X.quat s.mjd).map fun q => (y.1.add (X.ecc q), y.2)

/-- The loop that writes the initial transition matrix (test/rinex_pod.cpp:196-201): columns 1 to 5,
rows 0 to 5, one index after the other from 6 on. -/
def identityLoop (y : Nat → ℝ) : Nat → ℝ :=
  (((List.range' 1 5).flatMap fun col => (List.range 6).map fun row => (col, row)).foldl
    (fun ky cr => (ky.1 + 1, set ky.2 ky.1 (if cr.1 - 1 = cr.2 then 1 else 0))) (6, y)).2

/-- `yPhi` at the start of the integration (test/rinex_pod.cpp:171-205). -/
def initial (y : V3 × V3) : Nat → ℝ :=
  identityLoop fun n =>
    match n with
    | 0 => y.1.x | 1 => y.1.y | 2 => y.1.z | 3 => y.2.x | 4 => y.2.y | 5 => y.2.z | _ => 0

/-- `integrate` (test/rinex_pod.cpp:162-272): `none` if there is no attitude (assertion), otherwise
the returned code and the new state.  The last lines read `yPhi`, the initial values. -/
noncomputable def Ext.integrate (X : Ext) (s : Sv) (target : ℝ) : Option (Nat × Sv) :=
  match X.start s with
  | none => none
  | some y0 =>
    let yPhi := initial y0
    let tout := (target - s.mjd) * 86400
    let r := X.de s.mjd yPhi tout
    let tout_mjd := s.mjd + r.1 / 86400
    open Classical in
    if |tout_mjd - target| > 1e-12 then some (1, s)
    else
      match X.quat tout_mjd with
      | none => none
      | some q =>
        let sol := r.2
        some (0, {
          mjd := tout_mjd
          state := X.toTer tout_mjd ((vec sol 0).sub (X.ecc q), vec sol 3)
          Phi := fun i j => yPhi (6 * (j + 1) + i)
          S := fun i j => yPhi (6 * (j + 1) + 36 + i)
          calls := s.calls + 1 })

/-- `PhiP` (test/rinex_pod.cpp:688-689): the identity with the transition matrix in the corner. -/
def bigPhi (n : Nat) (phi : Nat → Nat → ℝ) : Matrix (Fin n) (Fin n) ℝ :=
  fun i j => if i.val < 6 ∧ j.val < 6 then phi i j else if i = j then 1 else 0

/-- A component of position and velocity. -/
def stateComp (y : V3 × V3) : Nat → ℝ
  | 0 => y.1.x | 1 => y.1.y | 2 => y.1.z | 3 => y.2.x | 4 => y.2.y | _ => y.2.z

/-- The time update of an epoch (test/rinex_pod.cpp:688-692). -/
def epochUpdate {T : Type} {n : Nat} (f : Ekf T n) (t : T) (s : Sv) : Ekf T n :=
  f.timeUpdate t (fun i => if i.val < 6 then stateComp s.state i else f.x i) (bigPhi n s.Phi)

/-- The observations of an epoch: value, prediction, standard deviation, design vector
(test/rinex_pod.cpp:983-984). -/
noncomputable def observe {T : Type} {n : Nat} (f : Ekf T n) (obs : List (ℝ × ℝ × ℝ × (Fin n → ℝ))) : Ekf T n :=
  obs.foldl (fun f o => f.observationUpdate o.1 o.2.1 o.2.2.1 o.2.2.2) f

end Verif.Pod
