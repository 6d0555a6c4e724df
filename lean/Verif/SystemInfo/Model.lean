import Verif.Text.Model
import Mathlib.Data.Real.Basic
import Mathlib.Data.Fin.VecNotation

/-
Model of src/doris_system_info.hpp, src/doris/doris_system_info.cpp and
src/doris_observation_equations.hpp.
-/
namespace Verif.SystemInfo
open Verif.Text

/-- `ObservationType` (src/doris_system_info.hpp:60-70). -/
inductive ObsType where
  | phase
  | pseudorange
  | powerLevel
  | frequencyOffset
  | groundPressure
  | groundTemperature
  | groundHumidity
deriving DecidableEq, Repr

/-- `ObservationType_to_char` (src/doris/doris_system_info.cpp:6-26). -/
def toChar : ObsType → Char
  | .phase => 'L'
  | .pseudorange => 'C'
  | .powerLevel => 'W'
  | .frequencyOffset => 'F'
  | .groundPressure => 'P'
  | .groundTemperature => 'T'
  | .groundHumidity => 'H'

/-- `char_to_observationType` (src/doris/doris_system_info.cpp:28-48); `none`: throws. -/
def ofChar (c : Char) : Option ObsType :=
  match c with
  | 'L' => some .phase
  | 'C' => some .pseudorange
  | 'W' => some .powerLevel
  | 'F' => some .frequencyOffset
  | 'P' => some .groundPressure
  | 'T' => some .groundTemperature
  | 'H' => some .groundHumidity
  | _ => none

/-- `observationType_has_frequency` (src/doris/doris_system_info.cpp:56-69). -/
def hasFrequency : ObsType → Bool
  | .phase => true
  | .pseudorange => true
  | .powerLevel => true
  | .frequencyOffset => false
  | .groundPressure => false
  | .groundTemperature => false
  | .groundHumidity => false

/-- `ObservationCode` (src/doris_system_info.hpp:104-106). -/
structure ObsCode where
  type : ObsType
  freq : Int
deriving DecidableEq, Repr

/-- Constructor (src/doris/doris_system_info.cpp:77-86): the argument is first converted to
`int_fast8_t`; `none`: throws. -/
def ObsCode.make (type : ObsType) (freq : Int) : Option ObsCode :=
  let f := toInt8 freq
  if hasFrequency type then
    if f < 1 ∨ f > 2 then none else some ⟨type, f⟩
  else some ⟨type, 0⟩

/-- `operator==` (src/doris_system_info.hpp:118-120). -/
def ObsCode.eq (a b : ObsCode) : Bool := a.type == b.type && a.freq == b.freq

/-- `%1d` of a single non-negative digit. -/
def digitChar (n : Int) : Char := Char.ofNat ('0'.toNat + n.toNat)

/-- `ObservationCode::to_str` (src/doris/doris_system_info.cpp:134-138), for frequencies
`0 .. 9` (the code asserts `< 10`; negative values cannot be constructed). -/
def ObsCode.toStr (a : ObsCode) : List Char := [toChar a.type, digitChar a.freq]

/-! ### Frequencies -/

/-- `DORIS_FREQ1_MHZ` (src/doris_system_info.hpp:24). -/
noncomputable def freq1MHz : ℝ := 2036.25
/-- `DORIS_FREQ2_MHZ` (src/doris_system_info.hpp:27). -/
noncomputable def freq2MHz : ℝ := 401.25
/-- `GAMMA_FACTOR_SQRT` (src/doris_system_info.hpp:31). -/
noncomputable def gammaSqrt : ℝ := freq1MHz / freq2MHz
/-- `GAMMA_FACTOR` (src/doris_system_info.hpp:35). -/
noncomputable def gamma : ℝ := gammaSqrt * gammaSqrt
/-- `USO_F0` (src/doris_system_info.hpp:38). -/
noncomputable def usoF0 : ℝ := 5e6

/-- `beacon_nominal_frequency` (src/doris_system_info.hpp:46-56): `(s1, u2)` in Hz. -/
noncomputable def beaconNominalFrequency (k : Int) : ℝ × ℝ :=
  let two26 : ℝ := (2 : ℝ) ^ 26
  let fac1 := usoF0 * 0.75
  let fac2 := (usoF0 * (87 * (k : ℝ))) / (5 * two26)
  (543 * fac1 + 543 * fac2, 107 * fac1 + 107 * fac2)

/-- `carrier_iono_correction` (src/doris_observation_equations.hpp:16-19). -/
noncomputable def carrierIonoCorrection (l1 l2 : ℝ) : ℝ :=
  (l1 - gammaSqrt * l2) / (gamma - 1)

/-! ### Beacons -/

/-- `GroundAntennaType` (src/antenna_pcv.hpp:18). -/
inductive AntType where
  | alcatel
  | starecB
  | starecC
deriving DecidableEq, Repr

/-- The `offset` member of `AntennaOffsetTraits<T, Freq>` in mm: east, north, up
(src/antenna_pcv.hpp:32, 70, 86, 123, 138, 175). `second` selects frequency 2. -/
noncomputable def pco : AntType → (second : Bool) → Fin 3 → ℝ
  | .alcatel, false => ![0, 0, 510]
  | .alcatel, true => ![0, 0, 335]
  | .starecB, false => ![0, 0, 487]
  | .starecB, true => ![0, 0, 0]
  | .starecC, false => ![0, 0, 487]
  | .starecC, true => ![0, 0, 0]

/-- `BeaconStation::type` from the fourth character of the station id
(src/doris/doris_system_info.cpp:140-152); `none`: throws. -/
def antennaType (c : Char) : Option AntType :=
  match c with
  | 'A' => some .alcatel
  | 'B' => some .starecB
  | 'C' => some .starecC
  | _ => none

/-- Boolean as a factor. -/
noncomputable def b2r (b : Bool) : ℝ := if b then 1 else 0

/-- `BeaconStation::iono_free_phase_center` in metres (src/doris_system_info.hpp:162-179).
`none`: `type()` throws inside a `noexcept` function (program termination). -/
noncomputable def ionoFreePhaseCenter (idChar : Char) : Option (Fin 3 → ℝ) :=
  (antennaType idChar).map fun t =>
    let r2 := fun i => pco .alcatel false i * b2r (t == .alcatel)
      + pco .starecB false i * b2r (t == .starecB || t == .starecC)
    let r4 := fun i => pco .alcatel true i * b2r (t == .alcatel)
      + pco .starecB true i * b2r (t == .starecB || t == .starecC)
    fun i => (r2 i + (r2 i - r4 i) / (gamma - 1)) * 1e-3

/-- `BeaconStation` (src/doris_system_info.hpp:138-150). -/
structure Beacon where
  internalCode : List Char
  stationId : List Char
  name : List Char
  domes : List Char
  type : Int
  shift : Int
deriving DecidableEq, Repr

/-- The trimming loop (src/doris/doris_system_info.cpp:118-123): trailing blanks become NUL,
but the first character is never touched.  The array is returned with the NULs removed, i.e.
as its significant prefix. -/
def trimKeepFirst (s : List Char) : List Char :=
  match s with
  | [] => []
  | c :: t => c :: (t.reverse.dropWhile (· == ' ')).reverse

/-- `BeaconStation::set_from_rinex_line` (src/doris/doris_system_info.cpp:98-126) with a clean
`errno` on entry; `.error s` is the returned status. -/
def Beacon.setFromRinexLine (line : List Char) : Except Int Beacon :=
  if line.length < 60 then .error 1
  else
    match strtol (line.drop 50) with
    | none => .error 2
    | some ty =>
      if ty.erange then .error 2
      else
        match strtol (line.drop 52) with
        | none => .error 3
        | some sh =>
          if sh.erange then .error 3
          else .ok
            { internalCode := field line 0 3
              stationId := field line 5 4
              name := trimKeepFirst (field line 10 30)
              domes := trimKeepFirst (field line 40 10)
              type := toInt8 ty.value
              shift := toInt32 sh.value }

end Verif.SystemInfo
