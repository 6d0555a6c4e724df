import Verif.Rinex.DataModel
import Verif.Text.Lemmas

/-!
C147: what a DORIS RINEX file looks like, as a writer.  Nothing here is code of the library; the columns are those of the format
(DORIS RINEX 3.0, sections 5 and 6).  Numbers are written with a fixed number of decimals, right-justified; text left-justified.
-/
namespace Verif.Rinex.Write
open Verif.Text Verif.SystemInfo

/-! ### Numbers and text -/

/-- A digit. -/
def dig (n : Nat) : Char := Char.ofNat (48 + n)

/-- Decimal digits without leading zeros. -/
def natTextF : Nat → Nat → List Char
  | 0, n => [dig (n % 10)]
  | f + 1, n => if n < 10 then [dig (n % 10)] else natTextF f (n / 10) ++ [dig (n % 10)]

/-- Decimal digits without leading zeros. -/
def natText (n : Nat) : List Char := natTextF n n

/-- The last `d` decimal digits. -/
def fracText : Nat → Nat → List Char
  | 0, _ => []
  | d + 1, n => fracText d (n / 10) ++ [dig (n % 10)]

/-- The sign of a number. -/
def signText (z : Int) : List Char := if z < 0 then ['-'] else []

/-- A whole number. -/
def intText (z : Int) : List Char := signText z ++ natText z.natAbs

/-- The number `z / 10 ^ d` with `d` decimals. -/
def fixText (d : Nat) (z : Int) : List Char :=
  signText z ++ (natText (z.natAbs / 10 ^ d) ++ '.' :: fracText d (z.natAbs % 10 ^ d))

/-- A number that may be left out. -/
def optText (d : Nat) : Option Int → List Char
  | none => []
  | some z => fixText d z

/-- Left-justified in `n` columns. -/
def padR (n : Nat) (s : List Char) : List Char := s ++ List.replicate (n - s.length) ' '

/-- Right-justified in `n` columns. -/
def padL (n : Nat) (s : List Char) : List Char := List.replicate (n - s.length) ' ' ++ s

/-- `k` blanks. -/
def blanks (k : Nat) : List Char := List.replicate k ' '

/-- A code in four columns. -/
def codeText (c : ObsCode) : List Char :=
  [' ', toChar c.type, if hasFrequency c.type then dig c.freq.toNat else ' ', ' ']

/-! ### Header -/

/-- One line of the header, after the first two. -/
inductive Item where
  | comment (t : List Char)
  | satName (t : List Char)
  | cospar (t : List Char)
  | marker
  | agency (t : List Char)
  | receiver (chain type version : List Char)
  | antenna
  /-- in units of 0.0001 -/
  | approx (x y z : Int)
  | center (x y z : Int)
  | codes (cs : List ObsCode)
  | first (date : List Char) (t : Int)
  | scale (f : Nat) (named : List ObsCode)
  /-- in units of 0.001 microseconds -/
  | l12 (z : Int)
  | numStations (n : Nat)
  | station (b : Beacon)
  | numRefs (n : Nat)
  /-- bias and shift in units of 0.001 -/
  | ref (code : List Char) (bias shift : Int)
  | refDate (date : List Char) (t : Int)
  | clock (applied : Bool)

/-- The label of a line, columns 61-80. -/
def Item.label : Item → String
  | .comment _ => "COMMENT             "
  | .satName _ => "SATELLITE NAME      "
  | .cospar _ => "COSPAR NUMBER       "
  | .marker => "MARKER TYPE         "
  | .agency _ => "OBSERVER / AGENCY   "
  | .receiver _ _ _ => "REC # / TYPE / VERS "
  | .antenna => "ANT # / TYPE        "
  | .approx _ _ _ => "APPROX POSITION XYZ "
  | .center _ _ _ => "CENTER OF MASS: XYZ "
  | .codes _ => "SYS / # / OBS TYPES "
  | .first _ _ => "TIME OF FIRST OBS   "
  | .scale _ _ => "SYS / SCALE FACTOR  "
  | .l12 _ => "L2 / L1 DATE OFFSET "
  | .numStations _ => "# OF STATIONS       "
  | .station _ => "STATION REFERENCE   "
  | .numRefs _ => "# TIME REF STATIONS "
  | .ref _ _ _ => "TIME REF STATION    "
  | .refDate _ _ => "TIME REF STAT DATE  "
  | .clock _ => "RCV CLOCK OFFS APPL "

/-- The fields of a line, one after the other. -/
def Item.fields : Item → List (List Char)
  | .comment t => [t]
  | .satName t => [t]
  | .cospar t => [t]
  | .marker => ["SPACEBORNE".toList]
  | .agency t => [t]
  | .receiver a b c => [padR 20 a, padR 20 b, c]
  | .antenna => [padR 20 "DORIS".toList, "STAREC".toList]
  | .approx x y z => [padL 14 (fixText 4 x), padL 14 (fixText 4 y), padL 14 (fixText 4 z)]
  | .center x y z => [padL 14 (fixText 4 x), padL 14 (fixText 4 y), padL 14 (fixText 4 z)]
  | .codes cs => [['D'], padL 5 (natText cs.length), (cs.map codeText).flatten]
  | .first d _ => [padR 48 d, "DOR".toList]
  | .scale f cs => [['D', ' '], padL 4 (natText f), blanks 2, padL 2 (natText cs.length), (cs.map codeText).flatten]
  | .l12 z => [['D', ' ', ' '], padL 14 (fixText 3 z)]
  | .numStations n => [padL 6 (natText n)]
  | .station b =>
    [b.internalCode, blanks 2, b.stationId, blanks 1, padR 30 b.name, padR 10 b.domes, intText b.type, blanks 1,
      padL 3 (intText b.shift)]
  | .numRefs n => [padL 6 (natText n)]
  | .ref c b s => [c, blanks 2, padL 14 (fixText 3 b), padL 14 (fixText 3 s)]
  | .refDate d _ => [d]
  | .clock a => [padL 6 (natText (if a then 1 else 0))]

/-- A line from fields and label. -/
def textOf (ps : List (List Char)) (label : String) : List Char :=
  (ps ++ [blanks (60 - ps.flatten.length), label.toList]).flatten

/-- The line. -/
def Item.line (i : Item) : Line := ⟨textOf i.fields i.label, true⟩

/-- What the line says; numbers are rounded by `rd` (`double`) and `rf` (`float`). -/
def Item.apply (rd rf : Rat → Rat) (h : Hdr) : Item → Hdr
  | .comment _ => h
  | .satName t => { h with satName := t }
  | .cospar t => { h with cospar := t }
  | .marker => h
  | .agency _ => h
  | .receiver a b c => { h with recChain := a, recType := b, recVersion := c }
  | .antenna => { h with antNumber := "DORIS".toList, antType := "STAREC".toList }
  | .approx x y z => { h with approx := [rf (x / 10 ^ 4), rf (y / 10 ^ 4), rf (z / 10 ^ 4)] }
  | .center x y z => { h with centerMass := [rf (x / 10 ^ 4), rf (y / 10 ^ 4), rf (z / 10 ^ 4)] }
  | .codes cs => { h with obsTypesNum := cs.length, codes := cs }
  | .first _ t => { h with firstObs := t }
  | .scale f cs => { h with scale := h.codes.map fun c => if c ∈ cs then (f : Int) else 1 }
  | .l12 z => { h with l12 := rd (z / 10 ^ 3) }
  | .numStations n => { h with numStations := n }
  | .station b => { h with stations := h.stations ++ [b] }
  | .numRefs n => { h with numRef := n }
  | .ref c b s => { h with refs := h.refs ++ [⟨c, rd (b / 10 ^ 3), rd (s / 10 ^ 3)⟩] }
  | .refDate _ t => { h with refDate := t }
  | .clock a => { h with rcvApplied := a }

/-- A text of at most `n` characters that can be recovered from its columns. -/
structure Text (n : Nat) (t : List Char) : Prop where
  some : t ≠ []
  most : t.length ≤ n
  last : t.getLast? ≠ .some ' '
  nul : '\x00' ∉ t

/-- A code that exists. -/
def CodeOk (c : ObsCode) : Prop := if hasFrequency c.type then c.freq = 1 ∨ c.freq = 2 else c.freq = 0

/-- A date that the date reader understands as `t`, whatever follows after a blank. -/
structure Date (e : Ext) (n : Nat) (d : List Char) (t : Int) : Prop where
  most : d.length ≤ n
  nul : '\x00' ∉ d
  reads : ∀ r : List Char, e.strptime (d ++ ' ' :: r) = some t

/-- A beacon that fits its line. -/
structure BeaconOk (b : Beacon) : Prop where
  code : b.internalCode.length = 3 ∧ '\x00' ∉ b.internalCode
  id : b.stationId.length = 4 ∧ '\x00' ∉ b.stationId
  name : Text 30 b.name
  domes : Text 10 b.domes
  type : 0 ≤ b.type ∧ b.type ≤ 9
  shift : -99 ≤ b.shift ∧ b.shift ≤ 999

/-- The line fits its columns and follows lines that it refers to; codes and factors are given once. -/
def Item.Ok (e : Ext) (h : Hdr) : Item → Prop
  | .comment t => t.length ≤ 60 ∧ '\x00' ∉ t
  | .satName t => Text 58 t
  | .cospar t => Text 19 t
  | .marker => True
  | .agency t => t.length ≤ 60 ∧ '\x00' ∉ t
  | .receiver a b c => Text 18 a ∧ Text 18 b ∧ Text 18 c
  | .antenna => True
  | .approx x y z => (fixText 4 x).length ≤ 13 ∧ (fixText 4 y).length ≤ 13 ∧ (fixText 4 z).length ≤ 13
  | .center x y z => (fixText 4 x).length ≤ 13 ∧ (fixText 4 y).length ≤ 13 ∧ (fixText 4 z).length ≤ 13
  | .codes cs => cs ≠ [] ∧ cs.length ≤ 12 ∧ (∀ c ∈ cs, CodeOk c) ∧ h.codes = []
  | .first d t => Date e 47 d t
  | .scale f cs => 0 < f ∧ f < 10000 ∧ cs ≠ [] ∧ cs.length ≤ 12 ∧ cs.length ≤ h.codes.length ∧ h.codes.Nodup ∧
      (∀ c ∈ cs, c ∈ h.codes ∧ CodeOk c) ∧ h.scale = []
  | .l12 z => (fixText 3 z).length ≤ 14
  | .numStations n => 0 < n ∧ n < 1000000
  | .station b => BeaconOk b
  | .numRefs n => 0 < n ∧ n < 1000000
  | .ref c b s => c.length = 3 ∧ '\x00' ∉ c ∧ (fixText 3 b).length ≤ 14 ∧ (fixText 3 s).length ≤ 13 ∧
      ∃ x ∈ h.stations, x.internalCode = c
  | .refDate d t => Date e 59 d t
  | .clock _ => True

/-- All lines are in order, one after the other. -/
def ItemsOk (e : Ext) (rd rf : Rat → Rat) : Hdr → List Item → Prop
  | _, [] => True
  | h, i :: l => i.Ok e h ∧ ItemsOk e rd rf (i.apply rd rf h) l

/-- The header: version in units of 0.01, program text, the lines, end. -/
def headerLines (version : Int) (pgm : List Char) (items : List Item) : List Line :=
  ⟨textOf [padL 9 (fixText 2 version), blanks 11, ['O'], blanks 19, ['D']] "RINEX VERSION / TYPE", true⟩ ::
  ⟨textOf [pgm] "PGM / RUN BY / DATE ", true⟩ ::
  (items.map Item.line ++ [⟨textOf [] "END OF HEADER       ", true⟩])

/-- What the header says. -/
def headerOf (rd rf : Rat → Rat) (version : Int) (items : List Item) : Hdr :=
  items.foldl (Item.apply rd rf) { version := rf (version / 10 ^ 2) }

/-! ### Data -/

/-- An observation: value in units of 0.001 or nothing, and two flags. -/
structure Obs where
  value : Option Int
  flag1 : Char
  flag2 : Char

/-- The sixteen columns of an observation. -/
def Obs.text (o : Obs) : List Char :=
  padL 14 (optText 3 o.value) ++ [o.flag1, o.flag2]

/-- The observations of a beacon. -/
structure Record where
  id : List Char
  obs : List Obs

/-- Line `j` of a record: the name or blanks, five observations. -/
def Record.lineAt (r : Record) (j : Nat) : Line :=
  ⟨(if j = 0 then r.id else blanks 3) ++ (((r.obs.drop (5 * j)).take 5).map Obs.text).flatten, true⟩

/-- The lines of a record. -/
def Record.lines (r : Record) : List Line := (List.range ((r.obs.length + 4) / 5)).map r.lineAt

/-- A block of data. -/
structure Block where
  date : List Char
  epoch : Int
  flag : Nat
  /-- in units of 1e-9 s -/
  offset : Option Int
  clockFlag : Nat
  records : List Record

/-- The line of the epoch. -/
def Block.epochText (b : Block) : List Char :=
  [['>', ' '], b.date, padL 3 (natText b.flag), padL 3 (natText b.records.length), blanks 6,
    padL 13 (optText 9 b.offset), blanks 1, natText b.clockFlag, blanks 1].flatten

/-- The lines of a block. -/
def Block.lines (b : Block) : List Line := ⟨b.epochText, true⟩ :: b.records.flatMap Record.lines

/-- The value of an observation: blank and zero mean that there is none. -/
def Obs.meaning (rd : Rat → Rat) (o : Obs) (f : Int) : ObsValue :=
  ⟨(match o.value with
    | none => missing
    | some z => if rd (z / 10 ^ 3) = 0 then missing else rd (z / 10 ^ 3)) / f, o.flag1, o.flag2⟩

/-- What a record says, with a scale factor for each code. -/
def Record.meaning (rd : Rat → Rat) (sf : List Int) (r : Record) : BeaconObs :=
  ⟨r.id, List.zipWith (Obs.meaning rd) r.obs sf⟩

/-- What the line of the epoch says. -/
def Block.header (rd : Rat → Rat) (b : Block) : RecHdr :=
  ⟨b.epoch, (match b.offset with | none => missing | some z => rd (z / 10 ^ 9)), b.records.length, b.flag, b.clockFlag⟩

/-- The observation fits its columns. -/
def Obs.Ok (o : Obs) : Prop := (∀ z, o.value = some z → (fixText 3 z).length ≤ 14) ∧ o.flag1 ≠ '\x00' ∧ o.flag2 ≠ '\x00'

/-- The record fits its lines: `k` observations. -/
structure Record.Ok (k : Nat) (r : Record) : Prop where
  id : r.id.length = 3 ∧ '\x00' ∉ r.id ∧ r.id.head? = some 'D'
  count : r.obs.length = k
  obs : ∀ o ∈ r.obs, o.Ok

/-- The block fits its lines. -/
structure Block.Ok (e : Ext) (k : Nat) (b : Block) : Prop where
  date : b.date.length = 29 ∧ Date e 29 b.date b.epoch
  flag : b.flag < 10
  offset : ∀ z, b.offset = some z → (fixText 9 z).length ≤ 13
  clockFlag : b.clockFlag < 10
  records : b.records.length < 100 ∧ ∀ r ∈ b.records, r.Ok k

/-! ### The functions of the C library -/

/-- `s` begins with the decimal number `v`. -/
def Decimal (s : List Char) (v : Rat) : Prop :=
  ∃ b sg sign ds fs rest, s = b ++ (sg ++ (ds ++ '.' :: (fs ++ rest))) ∧ (∀ c ∈ b, c = ' ') ∧ Sign sg sign ∧ ds ≠ [] ∧
    (∀ c ∈ ds, DigitCode c.toNat) ∧ (∀ c ∈ fs, DigitCode c.toNat) ∧ (rest = [] ∨ rest.head? = some ' ') ∧
    v = sign * ((decimal ds : Rat) + (decimal fs : Rat) / 10 ^ fs.length)

/-- `strtod` and `strtof` read decimal numbers with the roundings `rd`, `rf`. -/
structure Honest (e : Ext) (rd rf : Rat → Rat) : Prop where
  d : ∀ s v, Decimal s v → e.strtod s = some (rd v)
  f : ∀ s v, Decimal s v → e.strtof s = some (rf v)

end Verif.Rinex.Write
