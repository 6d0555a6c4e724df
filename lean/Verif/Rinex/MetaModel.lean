import Verif.Rinex.WriteSpec

/-!
Model of what the RINEX reader prints: `BeaconStation::to_str` (src/doris/doris_system_info.cpp), `print_metadata` and the
debugging loop `read` (src/rinex/doris_rinex.cpp).

Bytes are characters.  `%.Nf` is a parameter.  Members that no header line has set are indeterminate in the code, and the empty
text in `Hdr`: a header line never sets the empty text.  Reading such a member, reading beyond an object and writing beyond a
buffer are undefined; the outcome is then `none`.
-/
namespace Verif.Rinex.Meta
open Verif.Text Verif.SystemInfo Verif.Rinex Verif.Rinex.Write

/-! ### A beacon as text -/

/-- An array of `n` characters holding a text. -/
def padNul (n : Nat) (s : List Char) : List Char := s ++ List.replicate (n - s.length) '\x00'

/-- A byte. -/
def byte (n : Nat) : Char := Char.ofNat (n % 256)

/-- The bytes of a `BeaconStation` from `m_station_name` on (src/doris_system_info.hpp:144-150): name, DOMES number, type, and,
at a multiple of four, the four bytes of the shift factor, lowest first. -/
def nameOn (b : Beacon) : List Char :=
  padNul 30 b.name ++ (padNul 10 b.domes ++ byte (b.type % 256).toNat ::
    (List.range 4).map fun i => byte ((b.shift % 2 ^ 32).toNat / 256 ^ i))

/-- `%s`: the characters before the first NUL; `none`: there is none in the object. -/
def scan (m : List Char) : Option (List Char) :=
  if '\x00' ∈ m then some (m.takeWhile (· != '\x00')) else none

/-- `%.Ns`: at most `n` characters. -/
def upTo (n : Nat) (m : List Char) : List Char := (m.take n).takeWhile (· != '\x00')

/-- `BeaconStation::to_str` (src/doris/doris_system_info.cpp:128-132) into a buffer of `cap` characters. -/
def toStr (cap : Nat) (b : Beacon) : Option (List Char) :=
  match scan (nameOn b) with
  | none => none
  | some nm =>
    let t := '[' :: (upTo 3 b.internalCode ++ '/' :: (upTo 4 b.stationId ++ '_' :: (upTo 9 (padNul 10 b.domes) ++
      ']' :: '(' :: (nm ++ [')']))))
    if t.length < cap then some t else none

/-! ### The header -/

/-- `%s` of a member of the header. -/
def shown (t : List Char) : Option (List Char) := if t = [] then none else some (t.takeWhile (· != '\x00'))

/-- `[%.3f, %.3f, %.3f]`; `none`: never set. -/
def three (fixed : Nat → Rat → List Char) : List Rat → Option (List Char)
  | [x, y, z] => some ('[' :: (fixed 3 x ++ ',' :: ' ' :: (fixed 3 y ++ ',' :: ' ' :: (fixed 3 z ++ [']']))))
  | _ => none

/-- `[...]`. -/
def bracket (s : List Char) : List Char := '[' :: (s ++ [']'])

/-- `print_metadata` (src/rinex/doris_rinex.cpp:306-334): the lines printed. -/
def metadata (fixed : Nat → Rat → List Char) (fn : List Char) (h : Hdr) : Option (List (List Char)) := do
  let sat ← shown h.satName
  let cospar ← shown h.cospar
  let chain ← shown h.recChain
  let rtype ← shown h.recType
  let rversion ← shown h.recVersion
  let atype ← shown h.antType
  let anumber ← shown h.antNumber
  let approx ← three fixed h.approx
  let centre ← three fixed h.centerMass
  let beacons ← h.stations.mapM (toStr 64)
  pure (["RINEX filename: ".toList ++ fn, "RINEX version : ".toList ++ fixed 2 h.version,
    "Satellite Name: ".toList ++ sat, "COSPAR NR     : ".toList ++ cospar, "Recvr Chain   : ".toList ++ chain,
    "Recvr Type    : ".toList ++ rtype, "Recvr Version : ".toList ++ rversion, "Antenna Type  : ".toList ++ atype,
    "Antenna Number: ".toList ++ anumber, "Apprx Position: ".toList ++ approx, "Mass Center   : ".toList ++ centre,
    "Obs. Codes    : (".toList ++ (natText h.codes.length ++ ") ".toList ++ (h.codes.map fun c => bracket c.toStr).flatten),
    "Scale Factors : (".toList ++ (natText h.scale.length ++ ") ".toList ++
      (h.scale.map fun s => bracket (padL 2 (intText s))).flatten),
    "Beacons       : (".toList ++ (natText h.stations.length ++ ")".toList)] ++ beacons.map fun s => '\t' :: s)

/-! ### The epochs -/

/-- `apply_clock_offset` (src/doris_rinex.hpp:48-52). -/
def applyOffset (h : RecHdr) : RecHdr := { h with epoch := h.epoch + truncInt (h.clockOffset * 10 ^ 9) }

/-- `seekg(m_end_of_head)` (src/rinex/doris_rinex.cpp:80): a stream that has failed stays as it is. -/
def seek (data : List Line) (s : Stream) : Stream := if s.fail then s else Stream.open data

/-- The loop (src/rinex/doris_rinex.cpp:86-110): epochs and differences printed, and the stream at the end.  `line` is the buffer
of the function, `b` that of `read_data_block`, `last` the epoch before. -/
def readLoop (e : Ext) (sf : List Int) : Nat → Stream → Buf → Buf → Int → List (Int × Int) × Stream
  | 0, s, _, _, _ => ([], s)
  | fuel + 1, s, line, b, last =>
    if s.fail then ([], s)
    else
      let sb := getline 124 s line
      if sb.1.fail then ([], sb.1)
      else if sb.1.eof then ([], sb.1)
      else
        match resolveEpoch e sb.2 with
        | .error _ => ([], sb.1)
        | .ok hdr =>
          let t := (applyOffset hdr).epoch
          match readBlock e sf (applyOffset hdr).numStations.toNat sb.1 b with
          | .error _ => ([(t, (t - last).tdiv (10 ^ 9))], sb.1)
          | .ok (_, s', b') =>
            let r := readLoop e sf fuel s' sb.2 b' t
            ((t, (t - last).tdiv (10 ^ 9)) :: r.1, r.2)

/-- `read` (src/rinex/doris_rinex.cpp:79-113); `t0` is the epoch of a new `datetime`. -/
def read (e : Ext) (sf : List Int) (data : List Line) (t0 : Int) (line b : Buf) (s : Stream) : List (Int × Int) × Stream :=
  readLoop e sf (data.length + 1) (seek data s) line b t0

end Verif.Rinex.Meta
