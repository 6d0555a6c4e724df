import Mathlib.Algebra.Order.Ring.Rat
import Mathlib.Analysis.Real.Sqrt
import Verif.SystemInfo.Model

/-!
Model of the Doppler counts printed by test/test_one_pass.cpp and test/test_rinex_extract.cpp.

Both programs go through a RINEX file and print, beacon by beacon, the difference of two phases.  They differ
in two switches and in one line, `Config`.

Simplifications: numbers are rational, so a difference of phases is exact; epochs are whole nanoseconds.  The
distance between the satellite and a beacon is a parameter `range` of the position and of the beacon's code
(`beacon_sv_distance` itself is `svDistance` below), so is the position of the satellite at an epoch.
Troposphere, frequencies and phase centre corrections are printed beside the values modelled here and do not
take part in the loop; their failures (a grid point that cannot be found) are left out.  A failed
interpolation is taken to leave the position as it was.
-/
namespace Verif.Pod.OnePass

/-- The three characters of a beacon in the file. -/
abbrev Code := Char × Char × Char

/-- What a program sees of an observation: code of the beacon, phases at 2 GHz and 400 MHz, second flags of the
two phases (test/test_one_pass.cpp:347, 371-376). -/
structure Obs where
  code : Code
  l1 : ℚ
  l2 : ℚ
  flag1 : Char
  flag2 : Char
deriving DecidableEq

/-- One block of the file: epoch, result of the interpolation of the satellite's orbit, observations
(test/test_one_pass.cpp:334-345). -/
structure Block (P : Type) where
  t : Int
  pos : Option P
  obs : List Obs

/-- The two switches (test/test_one_pass.cpp:12-13; test/test_rinex_extract.cpp:13-14), and whether the stored
correction is replaced when a count is printed (test/test_one_pass.cpp:472; commented out in
test/test_rinex_extract.cpp:431). -/
structure Config where
  applyIono : Bool
  newArc : Bool
  keepCorr : Bool
deriving DecidableEq

/-- test/test_one_pass.cpp:12-13, 472. -/
def onePass : Config := ⟨true, true, true⟩

/-- test/test_rinex_extract.cpp:13-14, 431. -/
def extract : Config := ⟨false, false, false⟩

/-- A station of the header: internal code and four-character name. -/
structure Station where
  code : Code
  name : Code × Char
deriving DecidableEq

/-- An observation with what is computed from it before the stored data are looked at: epoch, distance,
ionospheric correction (test/test_one_pass.cpp:339-373). -/
structure Rec where
  obs : Obs
  t : Int
  rho : ℚ
  iono : ℚ
deriving DecidableEq

/-- `discontinuity` (test/test_one_pass.cpp:376). -/
def Rec.disc (r : Rec) : Bool := r.obs.flag1 == '1' || r.obs.flag2 == '1'

/-- `iono_correction` (test/test_one_pass.cpp:147-153), with the ratio `g` of the frequencies. -/
def corr (g l1 l2 : ℚ) : ℚ := (l1 - g * l2) / (g * g - 1)

/-- `LatestBeaconData` (test/test_one_pass.cpp:17-23). -/
structure Latest where
  obs : Obs
  t : Int
  rho : ℚ
  iono : ℚ
  newArc : Bool
deriving DecidableEq

/-- The new entry of an observation (test/test_one_pass.cpp:381-383). -/
def Latest.of (r : Rec) : Latest := ⟨r.obs, r.t, r.rho, r.iono, false⟩

/-- A printed line: code, epoch, Doppler count, interval, change of distance (divided by the interval in the
program) (test/test_one_pass.cpp:474-481). -/
structure Line where
  code : Code
  t : Int
  ndop : ℚ
  dt : Int
  drho : ℚ
deriving DecidableEq

/-- What is added to a phase (test/test_one_pass.cpp:406-407). -/
def Config.value (c : Config) (l1 iono : ℚ) : ℚ := l1 + (if c.applyIono then 1 else 0) * iono

/-- `match_beacon` and a change of the entry found (test/test_one_pass.cpp:136-145). -/
def change (k : Code) (f : Latest → Latest) : List Latest → List Latest
  | [] => []
  | e :: l => if e.obs.code = k then f e :: l else e :: change k f l

/-- The entry found by `match_beacon` (test/test_one_pass.cpp:136-145). -/
def entry (k : Code) (l : List Latest) : Option Latest := l.find? (fun e => e.obs.code = k)

/-- What the loop does with the stored data (test/test_one_pass.cpp:379-482): the new data, the line printed,
and whether the observation counts as missed. -/
def step (c : Config) (l : List Latest) (r : Rec) : List Latest × Option Line × Bool :=
  match entry r.obs.code l with
  | none =>
    if !c.newArc || (c.newArc && !r.disc) then (l ++ [Latest.of r], none, false) else (l, none, true)
  | some e =>
    if c.newArc && r.disc then (change r.obs.code (fun e => { e with newArc := true }) l, none, true)
    else if c.newArc && !r.disc && e.newArc then
      (change r.obs.code (fun _ => Latest.of r) l, none, false)
    else
      (change r.obs.code
        (fun e => { e with obs := r.obs, t := r.t, rho := r.rho, iono := if c.keepCorr then r.iono else e.iono }) l,
        some ⟨r.obs.code, r.t, c.value r.obs.l1 r.iono - c.value e.obs.l1 e.iono, r.t - e.t, r.rho - e.rho⟩,
        false)

/-- The lines printed for a sequence of observations. -/
def lines (c : Config) : List Latest → List Rec → List Line
  | _, [] => []
  | l, r :: rs => (step c l r).2.1.toList ++ lines c (step c l r).1 rs

/-- `beacon_internal_id2id` (src/rinex/doris_rinex.cpp:45-56): the name of the first station with the code. -/
def nameOf (sts : List Station) (k : Code) : Option (Code × Char) := (sts.find? (fun s => s.code = k)).map (·.name)

/-- Index of the first station with a name (test/test_one_pass.cpp:29-34). -/
def indexOf (sts : List Station) (n : Code × Char) : Nat := sts.findIdx (fun s => s.name = n)

/-- The counter an observation belongs to (test/test_one_pass.cpp:351-352).  `none`: no station has the code,
the name is a null pointer. -/
def slot (sts : List Station) (k : Code) : Option Nat := (nameOf sts k).map (indexOf sts)

/-- `update_beacon_obs` and `update_missed_beacon_obs` (test/test_one_pass.cpp:25-50) for all observations of
a sequence: number of observations and of missed ones of the station with index `i`. -/
def tally (c : Config) (sts : List Station) (i : Nat) : List Latest → List Rec → Nat × Nat
  | _, [] => (0, 0)
  | l, r :: rs =>
    let x := tally c sts i (step c l r).1 rs
    if slot sts r.obs.code = some i then (x.1 + 1, x.2 + if (step c l r).2.2 then 1 else 0) else x

/-- The observations in the order of the loops, with the position of the satellite kept when it cannot be
interpolated (test/test_one_pass.cpp:334-373). -/
def records {P : Type} (g : ℚ) (range : P → Code → ℚ) : P → List (Block P) → List Rec
  | _, [] => []
  | p, b :: bs =>
    b.obs.map (fun o => ⟨o, b.t, range (b.pos.getD p) o.code, corr g o.l1 o.l2⟩) ++
      records g range (b.pos.getD p) bs

/-- The main program (test/test_one_pass.cpp:324-485; test/test_rinex_extract.cpp:330-453): the lines printed
for the blocks of a file.  The block read first is not used.  `none`: a beacon is not in the header, so its name
is a null pointer that `strncmp` reads. -/
def program {P : Type} (c : Config) (g : ℚ) (range : P → Code → ℚ) (sts : List Station) (p0 : P)
    (bs : List (Block P)) : Option (List Line) :=
  if (records g range p0 (bs.drop 1)).all (fun r => (slot sts r.obs.code).isSome) then
    some (lines c [] (records g range p0 (bs.drop 1)))
  else none

/-- The summary of a station (test/test_one_pass.cpp:491-495): observations, missed ones, and the percentage.
`none`: 0 divided by 0. -/
def summary (n : Nat × Nat) : Nat × Nat × Option ℚ :=
  (n.1, n.2, if n.1 = 0 then none else some ((n.2 : ℚ) * 100 / (n.1 : ℚ)))

/-- `beacon_sv_distance` (test/test_one_pass.cpp:64-97) for the coordinates `b` of a beacon. -/
noncomputable def svDistance (s b : Fin 3 → ℝ) : ℝ :=
  Real.sqrt ((s 0 - b 0 * 1000) * (s 0 - b 0 * 1000) + (s 1 - b 1 * 1000) * (s 1 - b 1 * 1000) +
    (s 2 - b 2 * 1000) * (s 2 - b 2 * 1000))

/-- One component of `starec_iono_free_pco` (test/test_one_pass.cpp:155-176): offsets at 2 GHz and 400 MHz. -/
noncomputable def ionoFreePco (o1 o2 : ℝ) : ℝ := o1 + (o2 - o1) / (SystemInfo.gamma - 1)

end Verif.Pod.OnePass
