import Verif.Rinex.Stream
import Verif.Harmonic.Model
import Mathlib.Algebra.Order.Ring.Rat

/-
Model of the ICGEM gravity-model reader (src/icgemio.hpp, src/gravity/icgemio_rdhead.cpp,
src/gravity/icgemio_rddata.cpp).

`double` values are rationals; `strtod` is a parameter.
-/
namespace Verif.Icgem

open Verif.Rinex Verif.Text

/-- `strtod`: value and remaining characters; `none`: no conversion. -/
abbrev Strtod := List Char → Option (ℚ × List Char)

/-! ### Number of coefficients -/

/-- `coeffs_nr(l, m)` (src/gravity/icgemio_rddata.cpp:17-27), for `l, m ≥ 0`. -/
def coeffsNr (l m : Nat) : Nat :=
  if l = m then
    let n := l + 1
    (n * (n - 1)) / 2 + n
  else ((List.range (l + 1)).map fun i => if i > m then m + 1 else i + 1).sum

/-! ### Data section -/

/-- A line of the data section. -/
inductive Item where
  /-- not a `gfc` line -/
  | skip
  /-- degree or order cannot be read (lines 90-106) -/
  | bad
  /-- degree, order, and the two coefficients if they can be read -/
  | coeff (ll mm : Int) (v : Option (ℚ × ℚ))
deriving DecidableEq, Repr

/-- The two coefficients (lines 112-130). -/
def twoDoubles (strtod : Strtod) (s : List Char) : Option (ℚ × ℚ) :=
  match strtod s with
  | none => none
  | some (c, r) =>
    match strtod r with
    | none => none
    | some (x, _) => some (c, x)

/-- What a line means (lines 84-130).  `long` results are converted to `int`. -/
def classify (strtod : Strtod) (text : List Char) : Item :=
  let s := text.takeWhile (· != '\x00')
  if strncmpEq 4 "gfc ".toList s then
    match strtol (s.drop 4) with
    | none => .bad
    | some r1 =>
      match strtol r1.rest with
      | none => .bad
      | some r2 => .coeff (toInt32 r1.value) (toInt32 r2.value) (twoDoubles strtod r2.rest)
  else .skip

/-- The lines on which the loop body runs (lines 81-82, 143): the stream is good after the line
was read, that is the line fits the buffer and ends with a newline. -/
def items (strtod : Strtod) : List Line → List Item
  | [] => []
  | l :: rest =>
    if l.text.length > 511 ∨ l.eol = false then []
    else classify strtod l.text :: items strtod rest

/-- Contents of the coefficient table by slot (see `Verif.Harmonic`). -/
abbrev Table := Nat × Nat → ℚ

def Table.set (t : Table) (a : Nat × Nat) (v : ℚ) : Table := fun b => if b = a then v else t b

/-- How `parse_data` ends. -/
inductive Out where
  | ret (status : Int) (t : Table)
  /-- a coefficient outside the table is addressed -/
  | outside
  /-- `assert(Slm == 0)` fails (line 136) -/
  | abort

/-- `C(ll, mm) = c` and `S(ll, mm) = s` (lines 133-139) for a table of degree `N`; `none`: the
slot is not in the table. -/
def assign (N : Nat) (t : Table) (ll mm : Int) (c s : ℚ) : Option Table :=
  if 0 ≤ ll ∧ ll ≤ N ∧ 0 ≤ mm ∧ mm ≤ N then
    let i := ll.toNat
    let j := mm.toNat
    let t1 := t.set (Harmonic.addrC N i j) c
    if j = 0 then some t1
    else
      let a := Harmonic.addrS N i j
      if a.1 ≤ N ∧ a.2 ≤ N then some (t1.set a s) else none
  else none

/-- The loop (lines 81-144), then the check for missing coefficients (lines 146-166). -/
def run (N l m : Nat) : List Item → Nat → Table → Out
  | is, read, t =>
    if read < coeffsNr l m then
      match is with
      | [] =>
        if coeffsNr l m - read = 2 ∧ t (Harmonic.addrC N 1 0) = t (Harmonic.addrC N 1 1) ∧
            t (Harmonic.addrC N 1 1) = -999 then
          .ret 0 ((t.set (Harmonic.addrC N 1 0) 0).set (Harmonic.addrC N 1 1) 0)
        else .ret 2 t
      | .skip :: is => run N l m is read t
      | .bad :: _ => .ret 1 t
      | .coeff ll mm v :: is =>
        if ll ≤ l ∧ mm ≤ m then
          match v with
          | none => .ret 1 t
          | some (c, s) =>
            match assign N t ll mm c s with
            | none => .outside
            | some t' => if mm = 0 ∧ s ≠ 0 then .abort else run N l m is (read + 1) t'
        else run N l m is read t
    else .ret 0 t

/-- `parse_data(l, m, coeffs)` (lines 31-167) for a table of degree `N`; `lines` is the data section
of the file, `none` if the file cannot be opened.  (The constants copied in lines 60-62 are left
out.) -/
def parseData (strtod : Strtod) (maxDegree : Int) (N l m : Nat) (lines : Option (List Line))
    (t : Table) : Out :=
  if (l : Int) > maxDegree ∨ m > l ∨ N < l then .ret 1 t
  else
    match lines with
    | none => .ret 1 t
    | some lines =>
      if N < 1 then .outside
      else run N l m (items strtod lines) 0
        ((t.set (Harmonic.addrC N 1 0) (-999)).set (Harmonic.addrC N 1 1) (-999))

/-! ### Header -/

/-- The header members (src/icgemio.hpp:30-38); the text members are character arrays. -/
structure Hdr where
  productType : Buf
  modelname : Buf
  tideSystem : Buf
  norm : Buf
  errors : Buf
  gm : ℚ
  radius : ℚ
  maxDegree : Int
deriving DecidableEq, Repr

/-- A character array of size `n` holding `s`. -/
def arr (n : Nat) (s : String) : Buf := s.toList ++ List.replicate (n - s.length) '\x00'

/-- The members of a new object (src/icgemio.hpp:30-38). -/
def Hdr.init : Hdr :=
  ⟨arr 64 "", arr 128 "", arr 64 "unknown", arr 64 "fully_normalized", arr 64 "", 0, 0, 0⟩

/-- `is_normalized` (src/icgemio.hpp:50-52). -/
def Hdr.isNormalized (h : Hdr) : Bool := cstr h.norm 0 == "fully_normalized".toList

/-- What happens on a line. -/
inductive Step where
  /-- members and `error` afterwards -/
  | ok (h : Hdr) (error : Nat)
  /-- bytes after the end of the line are used -/
  | stale
  /-- an assertion on the size fails -/
  | abort
deriving DecidableEq, Repr

/-- The keywords. -/
inductive Key where
  | productType | modelname | gm | radius | maxDegree | errors | tideSystem | norm
deriving DecidableEq, Repr

def Key.name : Key → List Char
  | .productType => "product_type".toList
  | .modelname => "modelname".toList
  | .gm => "earth_gravity_constant".toList
  | .radius => "radius".toList
  | .maxDegree => "max_degree".toList
  | .errors => "errors".toList
  | .tideSystem => "tide_system".toList
  | .norm => "norm".toList

/-- The order of the tests (src/gravity/icgemio_rdhead.cpp:97-221). -/
def Key.all : List Key :=
  [.productType, .modelname, .gm, .radius, .maxDegree, .errors, .tideSystem, .norm]

/-- The result of `resolve_header_keyword` (lines 50-71) when the keyword matches: the characters
from the argument on.  `none`: the position behind keyword and one more character is behind the
terminator. -/
def argument (k : Key) (line : List Char) : Option (List Char) :=
  if line.length < k.name.length + 1 then none
  else some ((line.drop (k.name.length + 1)).dropWhile (· == ' '))

/-- `strncpy(dst, keyword, keyword_size)` (lines 107, 120, …), with `keyword_size` the number of
characters of the argument plus one: the argument and the character behind it are copied. -/
def copyWord (dst : Buf) (arg : List Char) : Buf :=
  let w := arg.takeWhile (· != ' ')
  let stop := arg.getD w.length '\x00'
  w ++ stop :: dst.drop (w.length + 1)

/-- Store the argument of a text keyword; the assertions of lines 106, 119, 193, 206, 219. -/
def storeText (dst : Buf) (arg : List Char) (put : Buf → Hdr) (error : Nat) : Step :=
  if (arg.takeWhile (· != ' ')).length + 1 < dst.length then .ok (put (copyWord dst arg)) error
  else .abort

/-- What a matching keyword does (lines 97-221). -/
def onKey (strtod : Strtod) (h : Hdr) (error : Nat) (k : Key) (arg : List Char) : Step :=
  match k with
  | .productType => storeText h.productType arg (fun b => { h with productType := b }) error
  | .modelname => storeText h.modelname arg (fun b => { h with modelname := b }) error
  | .errors => storeText h.errors arg (fun b => { h with errors := b }) error
  | .tideSystem => storeText h.tideSystem arg (fun b => { h with tideSystem := b }) error
  | .norm => storeText h.norm arg (fun b => { h with norm := b }) error
  | .gm =>
    match strtod arg with
    | none => .ok { h with gm := 0 } 2
    | some (x, _) => .ok { h with gm := x } (if x = 0 then 2 else error)
  | .radius =>
    match strtod arg with
    | none => .ok { h with radius := 0 } 2
    | some (x, _) => .ok { h with radius := x } (if x = 0 then 2 else error)
  | .maxDegree =>
    match strtol arg with
    | none => .ok { h with maxDegree := 0 } 2
    | some r => .ok { h with maxDegree := toInt32 r.value } (if toInt32 r.value = 0 then 2 else error)

/-- The tests of one line (lines 95-221); `line` are its characters from the first non-blank on. -/
def onLine (strtod : Strtod) (line : List Char) : List Key → Hdr → Nat → Step
  | [], h, error => .ok h error
  | k :: ks, h, error =>
    if strncmpEq k.name.length line k.name then
      match argument k line with
      | none => .stale
      | some arg =>
        match onKey strtod h error k arg with
        | .ok h' error' => onLine strtod line ks h' error'
        | s => s
    else onLine strtod line ks h error

/-- How `parse_header` ends: status, members, stream. -/
inductive HOut where
  | ret (status : Nat) (h : Hdr) (s : Stream)
  | stale
  | abort
deriving DecidableEq, Repr

/-- The loop (lines 92-234); the first argument is the number of further lines that may be read
(`max_header_lines` is 1000). -/
def headerLoop (strtod : Strtod) : Nat → Stream → Buf → Hdr → HOut
  | n, s, b, h =>
    if strncmpEq 11 (cstr b 0) "end_of_head".toList then .ret 0 h s
    else
      match onLine strtod ((cstr b 0).dropWhile (· == ' ')) Key.all h 0 with
      | .stale => .stale
      | .abort => .abort
      | .ok h' error =>
        let (s', b') := getline 256 s b
        if error ≠ 0 then .ret error h' s'
        else
          match n with
          | 0 => .ret 1 h' s'
          | n + 1 => headerLoop strtod n s' b' h'

/-- `parse_header` (lines 76-238); `b` are the bytes of the uninitialised buffer. -/
def parseHeader (strtod : Strtod) (file : Option (List Line)) (b : Buf) : HOut :=
  match file with
  | none => .ret 1 Hdr.init (Stream.open [])
  | some lines =>
    let (s, b1) := getline 256 (Stream.open lines) b
    headerLoop strtod 1000 s b1 Hdr.init

end Verif.Icgem
