import Verif.Astro.Vec
import Verif.SystemInfo.Model
import Verif.Corrections.Model
import Mathlib.Analysis.SpecialFunctions.Trigonometric.Basic

/-
Model of the reference points used by the orbit determination program (test/rinex_pod.cpp): antennas
of the beacons, phase centre and centre of gravity of the satellites (src/satellites/jason3.hpp,
src/satellites/cryosat2.hpp), zenith angle of the troposphere.

`local p` is `topocentric_matrix(car2ell<grs80>(p))`, rows east, north, up.
-/
namespace Verif.Pod

open Verif.Astro Verif.SystemInfo

/-- Four-character station identifier. -/
abbrev Id4 := Char × Char × Char × Char

/-- `BeaconCoordinates` (src/doris_utils.hpp:13-17). -/
structure Site where
  id : Id4
  pos : V3

/-- An entry of the beacon information table: identifier and height (src/beacon_tbl.hpp:11-16). -/
abbrev Height := Id4 × ℝ

/-- The new position of a site (test/rinex_pod.cpp:1174-1191). -/
def antennaPoint (loc : V3 → M3) (p : V3) (h : ℝ) : V3 := p.add ((loc p).transpose.mulVec ⟨0, 0, h⟩)

/-- `prepare_beacon_coordinates` (test/rinex_pod.cpp:1147-1195) with the entries of the table: the
returned code and the sites, those before a missing one already moved. -/
def prepare (loc : V3 → M3) (tbl : List Height) : List Site → Nat × List Site
  | [] => (0, [])
  | s :: l =>
    match tbl.find? (·.1 == s.id) with
    | none => (1, s :: l)
    | some e =>
      let r := prepare loc tbl l
      (r.1, { s with pos := antennaPoint loc s.pos e.2 } :: r.2)

/-- `beacon_coordinates` (test/rinex_pod.cpp:1098-1108); `none`: assertion. -/
def beaconCoordinates (sites : List Site) (id : Id4) : Option V3 := (sites.find? (·.id == id)).map Site.pos

/-- `beacon_arp2ion` (test/rinex_pod.cpp:1137-1145); `none`: the antenna type is not known (the
program terminates). -/
noncomputable def arp2ion (loc : V3 → M3) (p : V3) (id : Id4) : Option V3 :=
  (ionoFreePhaseCenter id.2.2.2).map fun c => p.add ((loc p).transpose.mulVec ⟨c 0, c 1, c 2⟩)

/-! ### Satellites -/

/-- `SATELLITE` (src/satellites.hpp:37). -/
inductive Sat where
  | jason3
  | cryosat2

/-- `InitialMass` (src/satellites/jason3.hpp:40, src/satellites/cryosat2.hpp:17). -/
def Sat.mass : Sat → ℚ
  | .jason3 => 509.6
  | .cryosat2 => 724.6

/-- `initial_center_of_gravity` (src/satellites/jason3.hpp:46-49, src/satellites/cryosat2.hpp:23-26). -/
def Sat.cog : Sat → ℚ × ℚ × ℚ
  | .jason3 => (1.0023, 0, -0.0021)
  | .cryosat2 => (1.6312, 0.0112, 0.0137)

/-- `mass_cog` (src/satellites/jason3.hpp:69-93, src/satellites/cryosat2.hpp:46-70) from the outcome
of the corrections: code, mass, centre of gravity; `none`: undefined behaviour in the
corrections. -/
def massCog (sat : Sat) (o : Corrections.Out) (mass : ℚ) (cog : ℚ × ℚ × ℚ) : Option (Nat × ℚ × (ℚ × ℚ × ℚ)) :=
  match o with
  | .stale => none
  | .ret status cor =>
    if status ≠ 0 then some (1, mass, cog)
    else some (0, sat.mass + cor.getD 0 0,
      (sat.cog.1 + cor.getD 1 0, sat.cog.2.1 + cor.getD 2 0, sat.cog.2.2 + cor.getD 3 0))

/-- `pco` (src/satellites/jason3.hpp:99-107, src/satellites/cryosat2.hpp:76-84): phase centres of 2
GHz and 400 MHz. -/
noncomputable def Sat.pco : Sat → V3 × V3
  | .jason3 => (⟨2.4128, -0.1325, 0.9235⟩, ⟨2.4128, -0.1325, 0.7555⟩)
  | .cryosat2 => (⟨1.848, -0.200, -0.751⟩, ⟨1.832, -0.200, -0.598⟩)

/-- `l3_pco` (test/rinex_pod.cpp:494). -/
noncomputable def l3pco (l1 l2 : V3) : V3 := l1.add ((l2.sub l1).smul (1 / (gamma - 1)))

/-! ### Troposphere -/

/-- `get_tropo_vmf` (test/rinex_pod.cpp:1250-1292): `meteo` are the interpolated zenith delays of the
site (`none`: no data), `vmf3` (an external library) the mapping functions of the angle it is given
(`none`: failure).  The assertion `0 ≤ zd ≤ π/2` (line 1258) is a hypothesis where needed.
The result is `(Lhz, mfh, Lwz, mfw)`. -/
noncomputable def tropoVmf (meteo : Option (ℝ × ℝ)) (vmf3 : ℝ → Option (ℝ × ℝ)) (zd : ℝ) : Option (ℝ × ℝ × ℝ × ℝ) :=
  match meteo with
  | none => none
  | some (zhd, zwd) =>
    match vmf3 (zd * Real.pi / 180) with
    | none => none
    | some (mfh, mfw) => some (zhd, mfh, zwd, mfw)

/-- `get_tropo` (test/rinex_pod.cpp:1197-1248): the same with the zenith delays of the
gridded model and `vmf3_ht`; its call is commented out (lines 815-818). -/
def tropoGpt (gpt3 : Option (ℝ × ℝ)) (vmf3 : ℝ → Option (ℝ × ℝ)) (zd : ℝ) : Option (ℝ × ℝ × ℝ × ℝ) :=
  match gpt3 with
  | none => none
  | some (zhd, zwd) =>
    match vmf3 zd with
    | none => none
    | some (mfh, mfw) => some (zhd, mfh, zwd, mfw)

end Verif.Pod
