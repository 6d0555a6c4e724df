import Verif.Rinex.Stream
import Verif.SystemInfo.Model

/-
Model of `DorisObsRinex::read_header` (src/rinex/read_rnx_header.cpp).

External calls are parameters: `strtof`/`strtod` (value, or `none` for "no conversion or range
error") and the date reader `strptime_ymd_hms` (nanoseconds, or `none` when it throws).
`errno` is taken to be 0 whenever a branch starts.  Informational output is not modelled.
-/
namespace Verif.Rinex
open Verif.Text Verif.SystemInfo

/-- External functions. -/
structure Ext where
  strtod : List Char → Option Rat
  strtof : List Char → Option Rat
  strptime : List Char → Option Int

/-- How reading ends before its regular end. -/
inductive Stop where
  /-- `return n` -/
  | status (n : Int)
  /-- a failed `assert` -/
  | abort
  /-- an access outside the line buffer -/
  | ub
deriving DecidableEq, Repr

/-- The recognised labels, in the order they are tested (src/rinex/read_rnx_header.cpp:61-340). -/
inductive Label where
  | satelliteName | cosparNumber | markerType | observerAgency | receiver | antenna
  | approxPosition | centerOfMass | obsTypes | firstObs | dcbs | scaleFactor | l12Offset
  | numStations | stationReference | numTimeRef | timeRefStation | timeRefDate | rcvClock
  | endOfHeader
deriving DecidableEq, Repr

/-- The literal compared at column 60. -/
def Label.text : Label → List Char
  | .satelliteName => "SATELLITE NAME".toList
  | .cosparNumber => "COSPAR NUMBER".toList
  | .markerType => "MARKER TYPE".toList
  | .observerAgency => "OBSERVER / AGENCY".toList
  | .receiver => "REC # / TYPE / VERS".toList
  | .antenna => "ANT # / TYPE".toList
  | .approxPosition => "APPROX POSITION XYZ".toList
  | .centerOfMass => "CENTER OF MASS: XYZ".toList
  | .obsTypes => "SYS / # / OBS TYPES".toList
  | .firstObs => "TIME OF FIRST OBS".toList
  | .dcbs => "SYS / DCBS APPLIED".toList
  | .scaleFactor => "SYS / SCALE FACTOR".toList
  | .l12Offset => "L2 / L1 DATE OFFSET".toList
  | .numStations => "# OF STATIONS".toList
  | .stationReference => "STATION REFERENCE".toList
  | .numTimeRef => "# TIME REF STATIONS".toList
  | .timeRefStation => "TIME REF STATION".toList
  | .timeRefDate => "TIME REF STAT DATE".toList
  | .rcvClock => "RCV CLOCK OFFS APPL".toList
  | .endOfHeader => "END OF HEADER".toList

/-- Test order of the `if … else if` chain. -/
def Label.order : List Label :=
  [.satelliteName, .cosparNumber, .markerType, .observerAgency, .receiver, .antenna,
   .approxPosition, .centerOfMass, .obsTypes, .firstObs, .dcbs, .scaleFactor, .l12Offset,
   .numStations, .stationReference, .numTimeRef, .timeRefStation, .timeRefDate, .rcvClock,
   .endOfHeader]

/-- `!strncmp(line + 60, text, strlen(text))`. -/
def labelAt (b : Buf) (text : List Char) : Bool := (b.drop 60).take text.length == text

/-- The first label of a list that matches. -/
def dispatch (labels : List Label) (b : Buf) : Option Label :=
  labels.find? fun l => labelAt b l.text

/-- `TimeReferenceStation` (src/doris_rinex.hpp:21-29). -/
structure RefStation where
  code : List Char
  bias : Rat
  shift : Rat
deriving DecidableEq, Repr

/-- Members filled by `read_header` plus its local counters. -/
structure Hdr where
  version : Rat := 0
  satName : List Char := []
  cospar : List Char := []
  recChain : List Char := []
  recType : List Char := []
  recVersion : List Char := []
  antNumber : List Char := []
  antType : List Char := []
  approx : List Rat := []
  centerMass : List Rat := []
  codes : List ObsCode := []
  scale : List Int := []
  firstObs : Int := 0
  l12 : Rat := 0
  stations : List Beacon := []
  refs : List RefStation := []
  refDate : Int := 0
  rcvApplied : Bool := false
  numStations : Int := 0
  numRef : Int := 0
  obsTypesNum : Int := 0

/-- `count_length_reverse(line + off, from)` (src/rinex/read_rnx_header.cpp:19-23), counting
down from `from`.  The loop reads the byte before testing the index, so when all bytes are
blanks it also reads `line[off - 1]`: outside the array for `off = 0`. -/
def countLengthReverse (b : Buf) (off : Nat) : Nat → Option Nat
  | 0 =>
    if at' b off == ' ' then (if off = 0 then none else some 0) else some 1
  | n + 1 => if at' b (off + n + 1) == ' ' then countLengthReverse b off n else some (n + 2)

/-- A text field of at most `from + 1` characters at `off`, rejected with `err` when empty or
of length `≥ lim`. -/
def textField (b : Buf) (off from_ lim : Nat) (err : Int) : Except Stop (List Char) :=
  match countLengthReverse b off from_ with
  | none => .error .ub
  | some n => if n < 1 ∨ n ≥ lim then .error (.status err) else .ok ((b.drop off).take n)

/-- The three-number records (src/rinex/read_rnx_header.cpp:122-146). -/
def threeNumbers (e : Ext) (b : Buf) (err : Int) : Except Stop (List Rat) :=
  match e.strtof (cstr b 0) with
  | none => .error (.status err)
  | some x =>
    match e.strtof (cstr b 14) with
    | none => .error (.status (err + 1))
    | some y =>
      match e.strtof (cstr b 28) with
      | none => .error (.status (err + 2))
      | some z => .ok [x, y, z]

/-- `strtol` followed by the usual check; converted to `int`. -/
def intAt (b : Buf) (k : Nat) : Option Int :=
  match strtol (cstr b k) with
  | none => none
  | some r => if r.erange then none else some (toInt32 r.value)

/-- One observation code (src/rinex/read_rnx_header.cpp:162-178 and 223-236): skip blanks, one
type character, then the frequency number.  `errNum` is returned for a bad number, `errExc` for
an exception; `zeroBad` makes frequency 0 an error (line 231). -/
def parseCode (b : Buf) (pos : Nat) (zeroBad : Bool) (errNum errExc : Int) :
    Except Stop ObsCode :=
  match (b.drop pos).dropWhile (· == ' ') with
  | [] => .error .ub
  | c :: rest =>
    match ofChar c with
    | none => .error (.status errExc)
    | some t =>
      if hasFrequency t then
        match strtol (rest.takeWhile (· != '\x00')) with
        | none => .error (.status errNum)
        | some r =>
          if r.erange then .error (.status errNum)
          else
            let f := toInt32 r.value
            if zeroBad && f == 0 then .error (.status errNum)
            else
              match ObsCode.make t f with
              | none => .error (.status errExc)
              | some a => .ok a
      else
        match ObsCode.make t 0 with
        | none => .error (.status errExc)
        | some a => .ok a

/-- The loop over announced codes (src/rinex/read_rnx_header.cpp:161-179): `n` codes left,
`code` done. -/
def parseCodes (b : Buf) (code : Nat) : Nat → Except Stop (List ObsCode)
  | 0 => .ok []
  | n + 1 =>
    match parseCode b (6 + code * 4) false 113 114 with
    | .error e => .error e
    | .ok a =>
      match parseCodes b (code + 1) n with
      | .error e => .error e
      | .ok l => .ok (a :: l)

/-- `SYS / # / OBS TYPES` (src/rinex/read_rnx_header.cpp:148-179). -/
def onObsTypes (b : Buf) (h : Hdr) : Except Stop Hdr :=
  if at' b 0 ≠ 'D' then .error (.status 111)
  else
    match intAt b 1 with
    | none => .error (.status 112)
    | some n =>
      if n = 0 then .error (.status 112)
      else if ¬ n < 13 then .error .abort
      else
        match parseCodes b 0 n.toNat with
        | .error e => .error e
        | .ok l => .ok { h with obsTypesNum := n, codes := l }

/-- The loop over scaled codes (src/rinex/read_rnx_header.cpp:222-248). -/
def applyFactors (b : Buf) (codes : List ObsCode) (factor : Int) (code : Nat) :
    Nat → List Int → Except Stop (List Int)
  | 0, sf => .ok sf
  | n + 1, sf =>
    match parseCode b (10 + code * 4) true 144 146 with
    | .error e => .error e
    | .ok a =>
      if codes.any (fun o => o.eq a) then
        applyFactors b codes factor (code + 1) n
          (sf.set (codes.findIdx fun o => o.eq a) factor)
      else .error (.status 145)

/-- `SYS / SCALE FACTOR` (src/rinex/read_rnx_header.cpp:196-248). -/
def onScaleFactor (b : Buf) (h : Hdr) : Except Stop Hdr :=
  if at' b 0 ≠ 'D' then .error (.status 141)
  else
    let sf := List.replicate h.codes.length (1 : Int)
    match intAt b 2 with
    | none => .error (.status 142)
    | some factor =>
      if factor = 0 then .error (.status 142)
      else if at' b 8 = at' b 9 ∧ at' b 8 = ' ' then
        match applyFactors b h.codes factor 0 sf.length sf with
        | .error e => .error e
        | .ok sf' => .ok { h with scale := sf' }
      else
        match intAt b 8 with
        | none => .error (.status 143)
        | some n =>
          if n = 0 ∨ n > (sf.length : Int) then .error (.status 143)
          else
            match applyFactors b h.codes factor 0 n.toNat sf with
            | .error e => .error e
            | .ok sf' => .ok { h with scale := sf' }

/-- `TIME REF STATION` (src/rinex/read_rnx_header.cpp:292-317). -/
def onTimeRefStation (e : Ext) (b : Buf) (h : Hdr) : Except Stop Hdr :=
  match e.strtod (cstr b 5) with
  | none => .error (.status 191)
  | some bias =>
    match e.strtod (cstr b 19) with
    | none => .error (.status 192)
    | some shift =>
      let r : RefStation := ⟨b.take 3, bias, shift⟩
      if h.stations.any (fun s => strncmpEq 3 s.internalCode r.code) then
        .ok { h with refs := h.refs ++ [r] }
      else .error (.status 193)

/-- One recognised line (src/rinex/read_rnx_header.cpp:61-338). `endOfHeader` is handled by the
loop. -/
def onLabel (e : Ext) (b : Buf) (h : Hdr) : Label → Except Stop Hdr
  | .satelliteName =>
    match textField b 0 59 59 30 with
    | .error s => .error s
    | .ok t => .ok { h with satName := t }
  | .cosparNumber =>
    match textField b 0 59 20 40 with
    | .error s => .error s
    | .ok t => .ok { h with cospar := t }
  | .markerType => if b.take 10 = "SPACEBORNE".toList then .ok h else .error (.status 50)
  | .observerAgency => .ok h
  | .receiver =>
    match textField b 0 19 19 71 with
    | .error s => .error s
    | .ok t1 =>
      match textField b 20 19 19 72 with
      | .error s => .error s
      | .ok t2 =>
        match textField b 40 19 19 73 with
        | .error s => .error s
        | .ok t3 => .ok { h with recChain := t1, recType := t2, recVersion := t3 }
  | .antenna =>
    match textField b 0 19 19 81 with
    | .error s => .error s
    | .ok t1 =>
      match textField b 20 19 19 82 with
      | .error s => .error s
      | .ok t2 =>
        if t1.takeWhile (· != '\x00') = "DORIS".toList ∧
            t2.takeWhile (· != '\x00') = "STAREC".toList then
          .ok { h with antNumber := t1, antType := t2 }
        else .error (.status 84)
  | .approxPosition =>
    match threeNumbers e b 90 with
    | .error s => .error s
    | .ok l => .ok { h with approx := l }
  | .centerOfMass =>
    match threeNumbers e b 100 with
    | .error s => .error s
    | .ok l => .ok { h with centerMass := l }
  | .obsTypes => onObsTypes b h
  | .firstObs =>
    if (b.drop 48).take 3 = "DOR".toList then
      match e.strptime (cstr b 0) with
      | none => .error (.status 122)
      | some t => .ok { h with firstObs := t }
    else .error (.status 121)
  | .dcbs => .error (.status 130)
  | .scaleFactor => onScaleFactor b h
  | .l12Offset =>
    if at' b 0 ≠ 'D' then .error (.status 151)
    else
      match e.strtod (cstr b 3) with
      | none => .error (.status 152)
      | some x => .ok { h with l12 := x }
  | .numStations =>
    match intAt b 0 with
    | none => .error (.status 161)
    | some n => if n = 0 then .error (.status 161) else .ok { h with numStations := n }
  | .stationReference =>
    match Beacon.setFromRinexLine (cstr b 0) with
    | .error _ => .error (.status 171)
    | .ok s => .ok { h with stations := h.stations ++ [s] }
  | .numTimeRef =>
    match intAt b 0 with
    | none => .error (.status 181)
    | some n => if n = 0 then .error (.status 181) else .ok { h with numRef := n }
  | .timeRefStation => onTimeRefStation e b h
  | .timeRefDate =>
    match e.strptime (cstr b 0) with
    | none => .error (.status 201)
    | some t => .ok { h with refDate := t }
  | .rcvClock =>
    match intAt b 0 with
    | none => .error (.status 210)
    | some n => if n < 0 ∨ n > 1 then .error (.status 210) else .ok { h with rcvApplied := n == 1 }
  | .endOfHeader => .ok h

/-- The reading loop (src/rinex/read_rnx_header.cpp:60-349) over the remaining lines; `fuel` is
the number of lines left plus one.  Returns the header and whether END OF HEADER was found
with the stream still good. -/
def headerLoop (e : Ext) : Nat → Stream → Buf → Hdr → Except Stop (Hdr × Stream)
  | 0, _, _, _ => .error (.status (-2))
  | fuel + 1, s, b, h =>
    if s.fail then .error (.status (-2))
    else
      let (s', b') := getline 81 s b
      if s'.fail then .error (.status (-2))
      else
        match dispatch Label.order b' with
        | none => headerLoop e fuel s' b' h
        | some .endOfHeader => if s'.good then .ok (h, s') else .error (.status (-2))
        | some l =>
          match onLabel e b' h l with
          | .error x => .error x
          | .ok h' => headerLoop e fuel s' b' h'

/-- Final checks (src/rinex/read_rnx_header.cpp:355-361). -/
def finalChecks (h : Hdr) : Bool :=
  h.codes.length == h.scale.length && h.obsTypesNum == (h.codes.length : Int) &&
  h.numStations == (h.stations.length : Int) && decide (h.refs.length < h.stations.length)

/-- `read_header` (src/rinex/read_rnx_header.cpp:28-364) on a freshly opened file; `b0` is the
uninitialised content of the line buffer. -/
def readHeader (e : Ext) (b0 : Buf) (s : Stream) : Except Stop (Hdr × Stream) :=
  if s.good = false then .error (.status (-1))
  else
    let (s1, b1) := getline 81 s b0
    if labelAt b1 "RINEX VERSION / TYPE".toList = false then .error (.status 10)
    else
      match e.strtof (cstr b1 0) with
      | none => .error (.status 11)
      | some v =>
        if at' b1 20 ≠ 'O' ∨ at' b1 40 ≠ 'D' then .error (.status 11)
        else
          let (s2, b2) := getline 81 s1 b1
          if labelAt b2 "PGM / RUN BY / DATE".toList = false then .error (.status 20)
          else
            match headerLoop e (s2.lines.length + 1) s2 b2 { version := v } with
            | .error x => .error x
            | .ok (h, s3) => if finalChecks h then .ok (h, s3) else .error (.status (-3))

end Verif.Rinex
