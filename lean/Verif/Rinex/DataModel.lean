import Verif.Rinex.HeaderModel

/-
Model of the data part of a DORIS RINEX file: src/rinex/doris_rinex.cpp,
src/rinex/rnx_datablock_iterator.cpp and the inline members of src/doris_rinex.hpp.

`double` values are rationals; the two "missing" sentinels are `DBL_MIN = 2^-1022`.
The reader's static line buffer is a parameter that is threaded through.
-/
namespace Verif.Rinex
open Verif.Text Verif.SystemInfo

/-- `OBSERVATION_VALUE_MISSING`, `RECEIVER_CLOCK_OFFSET_MISSING`
(src/doris_system_info.hpp:15-21). -/
def missing : Rat := mkRat 1 (2 ^ 1022)

/-- `RinexObservationValue` (src/doris_rinex.hpp:55-67). -/
structure ObsValue where
  value : Rat
  flag1 : Char
  flag2 : Char
deriving DecidableEq, Repr

/-- `BeaconObservations` (src/doris_rinex.hpp:69-88). -/
structure BeaconObs where
  id : List Char
  values : List ObsValue
deriving DecidableEq, Repr

/-- One observation field of the current line (src/rinex/doris_rinex.cpp:166-193): column
`k < 5`, scale factor `f`.  The 14 characters are copied to a zeroed buffer. -/
def readField (e : Ext) (b : Buf) (k : Nat) (f : Int) : Except Nat ObsValue :=
  let str := ((b.drop (3 + k * 16)).take 14).takeWhile (· != '\x00')
  let flag1 := at' b (3 + k * 16 + 14)
  let flag2 := at' b (3 + k * 16 + 15)
  if str.all isSpace then
    if str = [] then .error 2 else .ok ⟨missing / f, flag1, flag2⟩
  else
    match e.strtod str with
    | none => .error 2
    | some v => .ok ⟨(if v = 0 then missing else v) / f, flag1, flag2⟩

/-- The inner loop (src/rinex/doris_rinex.cpp:150-195): one value per scale factor, i.e. per
observation code; a new line is read every five values.  `cur` is `curobs`. -/
def readObs (e : Ext) : List Int → Nat → Stream → Buf → List Char →
    Except Nat (List Char × List ObsValue × Stream × Buf)
  | [], _, s, b, id => .ok (id, [], s, b)
  | f :: fs, cur, s, b, id =>
    let sb := if cur % 5 = 0 then getline 124 s b else (s, b)
    if cur = 0 ∧ at' sb.2 0 ≠ 'D' then .error 1
    else
      let id' := if cur = 0 then sb.2.take 3 else id
      match readField e sb.2 (cur % 5) f with
      | .error x => .error x
      | .ok v =>
        match readObs e fs (cur + 1) sb.1 sb.2 id' with
        | .error x => .error x
        | .ok (i, vs, s', b') => .ok (i, v :: vs, s', b')

/-- `read_data_block` (src/rinex/doris_rinex.cpp:132-206) for `n` stations. -/
def readBlock (e : Ext) (sf : List Int) : Nat → Stream → Buf →
    Except Nat (List BeaconObs × Stream × Buf)
  | 0, s, b => .ok ([], s, b)
  | n + 1, s, b =>
    match readObs e sf 0 s b [] with
    | .error x => .error x
    | .ok (id, vs, s1, b1) =>
      match readBlock e sf n s1 b1 with
      | .error x => .error x
      | .ok (l, s2, b2) => .ok (⟨id, vs⟩ :: l, s2, b2)

/-- `lines_per_beacon` (src/doris_rinex.hpp:163-166). -/
def linesPerBeacon (codes : Nat) : Int :=
  let obs : Int := codes
  1 + (if obs % 5 = 0 then obs / 5 - 1 else obs / 5)

/-- `n` calls of `getline`. -/
def skipLines : Nat → Stream → Buf → Stream
  | 0, s, _ => s
  | n + 1, s, b => skipLines n (getline 124 s b).1 (getline 124 s b).2

/-- `skip_data_block` (src/rinex/doris_rinex.cpp:69-76); `b` is its uninitialised buffer. -/
def skipBlock (codes : Nat) (numStations : Int) (s : Stream) (b : Buf) : Stream :=
  skipLines (numStations * linesPerBeacon codes).toNat s b

/-- `RinexDataRecordHeader` (src/doris_rinex.hpp:35-53). -/
structure RecHdr where
  epoch : Int
  clockOffset : Rat
  numStations : Int
  flag : Int
  clockFlag : Int
deriving DecidableEq, Repr

/-- `strtol` on a three-character copy. -/
def int3 (b : Buf) (k : Nat) : Option Int :=
  match strtol (((b.drop k).take 3).takeWhile (· != '\x00')) with
  | none => none
  | some r => if r.erange then none else some r.value

/-- `resolve_data_epoch` (src/rinex/doris_rinex.cpp:239-304).  All fields are tried; the first
failing one determines the status.  `int_fast16_t` has at least 16 bits and three characters
always fit. -/
def resolveEpoch (e : Ext) (b : Buf) : Except Nat RecHdr :=
  if at' b 0 ≠ '>' then .error 1
  else
    match e.strptime (cstr b 2) with
    | none => .error 2
    | some t =>
      match int3 b 31 with
      | none => .error 3
      | some fl =>
        match int3 b 34 with
        | none => .error 4
        | some n =>
          match (if (List.range 13).any (fun i => at' b (43 + i) != ' ') then e.strtod (cstr b 43)
            else some missing) with
          | none => .error 5
          | some off =>
            match strtol (cstr b 56) with
            | none => .error 6
            | some r =>
              if r.erange then .error 6
              else .ok ⟨t, off, n, toInt8 fl, toInt8 r.value⟩

/-- Outcome of one iteration step. -/
inductive Next where
  /-- status 0 -/
  | block (hdr : RecHdr) (obs : List BeaconObs)
  /-- any other status; -1 is end of file -/
  | stop (status : Int)
deriving DecidableEq, Repr

/-- `RinexDataBlockIterator::next` (src/rinex/rnx_datablock_iterator.cpp:3-33).  `stack` is the
uninitialised local line, `b` the static line of `read_data_block`. -/
def next (e : Ext) (sf : List Int) (stack : Buf) (s : Stream) (b : Buf) : Next × Stream × Buf :=
  let sb := getline 124 s stack
  if sb.1.fail then (.stop (if sb.1.eof then -1 else 1), sb.1, b)
  else
    match resolveEpoch e sb.2 with
    | .error _ => (.stop 2, sb.1, b)
    | .ok hdr =>
      match readBlock e sf hdr.numStations.toNat sb.1 b with
      | .error _ => (.stop 3, sb.1, b)
      | .ok (obs, s', b') => (.block hdr obs, s', b')

/-- The client loop: call `next` until it is not 0 (at most `fuel` times). -/
def iterate (e : Ext) (sf : List Int) (stack : Buf) :
    Nat → Stream → Buf → List (RecHdr × List BeaconObs) × Option Int
  | 0, _, _ => ([], none)
  | fuel + 1, s, b =>
    match next e sf stack s b with
    | (.stop st, _, _) => ([], some st)
    | (.block h o, s', b') =>
      let (l, st) := iterate e sf stack fuel s' b'
      ((h, o) :: l, st)

/-! ### Lookups -/

/-- `get_observation_code_index` (src/rinex/doris_rinex.cpp:37-43). -/
def codeIndex (codes : List ObsCode) (a : ObsCode) : Int :=
  if codes.any (fun o => o.eq a) then codes.findIdx (fun o => o.eq a) else -1

/-- `beacon_internal_id2id` (src/rinex/doris_rinex.cpp:45-55). -/
def internalId2Id (st : List Beacon) (inid : List Char) : Option (List Char) :=
  (st.find? fun s => strncmpEq 3 inid s.internalCode).map Beacon.stationId

/-- `beacon_id2internal_id` (src/rinex/doris_rinex.cpp:57-67). -/
def id2InternalId (st : List Beacon) (id : List Char) : Option (List Char) :=
  (st.find? fun s => strncmpEq 4 id s.stationId).map Beacon.internalCode

/-- Comparison of three characters (src/doris_rinex.hpp:266-268, 289-291, 369-371). -/
def same3 (a b : List Char) : Bool :=
  a.getD 0 '\x00' == b.getD 0 '\x00' && a.getD 1 '\x00' == b.getD 1 '\x00' &&
    a.getD 2 '\x00' == b.getD 2 '\x00'

/-- `beacon_internal_id2BeaconStation` (src/doris_rinex.hpp:262-270). -/
def internalId2Station (st : List Beacon) (inid : List Char) : Option Beacon :=
  st.find? fun s => same3 inid s.internalCode

/-- `beacon_shift_factor` (src/doris_rinex.hpp:286-298); `none`: returns 1. -/
def shiftFactor (st : List Beacon) (id : List Char) : Option Int :=
  (st.find? fun s => same3 s.internalCode id).map Beacon.shift

/-- `contains_beacon` (src/doris_rinex.hpp:365-373). -/
def containsBeacon (block : List BeaconObs) (id : List Char) : Option BeaconObs :=
  block.find? fun o => same3 o.id id

/-! ### Epochs -/

/-- `static_cast` of a `double` to a (64-bit) integer: truncation toward zero. -/
def truncInt (x : Rat) : Int := x.num.tdiv x.den

/-- `corrected_l1_epoch()` (src/doris_rinex.hpp:391-404), in nanoseconds. -/
def l1Epoch (applied : Bool) (h : RecHdr) : Int :=
  if applied then h.epoch
  else
    let off : Rat := (if h.clockOffset ≠ missing then 1 else 0) * h.clockOffset
    h.epoch + truncInt (off * 10 ^ 9)

/-- `l21_date_offset` (src/doris_rinex.hpp:306-312): microseconds to whole nanoseconds. -/
def l21Offset (us : Rat) : Int := truncInt (us * 10 ^ 3)

/-- `corrected_l1_epoch(tl2)` (src/rinex/rnx_datablock_iterator.cpp:35-54): L1 and L2 epochs. -/
def l1l2Epochs (applied : Bool) (us : Rat) (h : RecHdr) : Int × Int :=
  let t := if applied then h.epoch else h.epoch + truncInt (h.clockOffset * 10 ^ 9)
  (t, t + l21Offset us)

end Verif.Rinex
