import Verif.Eop.C04Model

/-!
Model of the text side of script/fetch_iers_c04.py: extraction of the final values from a bulletin, merging
of its two sections, and the file that is written.

Simplifications: a file is a list of lines without their newline characters; white space is that of the
"C" locale.  `int()` and `float()` of Python are parameters.  A number to be written is given by its sign
and by its absolute value rounded to 4 and to 12 decimals (parameters: how Python rounds does not matter
here).  A failed assertion, an exception and `sys.exit` are one outcome (`none`).
-/
namespace Verif.Script.Bulletin

open Verif.Text

/-! ### Python's strings -/

/-- `str.split()`, with the characters of the word being read, last one first. -/
def wordsAux : List Char → List Char → List (List Char)
  | [], cur => if cur.isEmpty then [] else [cur.reverse]
  | c :: s, cur =>
    if isSpace c then (if cur.isEmpty then wordsAux s [] else cur.reverse :: wordsAux s [])
    else wordsAux s (c :: cur)

/-- `str.split()`. -/
def words (s : List Char) : List (List Char) := wordsAux s []

/-- `str.strip()`. -/
def strip (s : List Char) : List Char := ((s.dropWhile isSpace).reverse.dropWhile isSpace).reverse

/-- `' '.join(...)`. -/
def join : List (List Char) → List Char
  | [] => []
  | [w] => w
  | w :: ws => w ++ ' ' :: join ws

/-- `str.lower()` for ASCII. -/
def lower (s : List Char) : List Char := s.map Char.toLower

/-! ### Reading a bulletin -/

/-- A day of a section: date and values. -/
structure Row (V : Type) where
  year : Int
  month : Int
  day : Int
  mjd : Int
  vals : List V
deriving DecidableEq, Repr

/-- `int()` and `float()`. -/
structure Py (V : Type) where
  int : List Char → Option Int
  float : List Char → Option V

/-- A line of a section with `n` values (script/fetch_iers_c04.py:119-126 and 176-183). -/
def parseRow {V : Type} (py : Py V) (n : Nat) (l : List Char) : Option (Row V) :=
  match ((words l).take 4).mapM py.int, ((words l).drop 4).mapM py.float with
  | some [y, m, d, j], some vs => if vs.length = n then some ⟨y, m, d, j, vs⟩ else none
  | _, _ => none

/-- The loop up to the last line of the heading (script/fetch_iers_c04.py:98-105 and 155-162): the number of
heading lines met, and the lines after it; `none` at the end of the file. -/
def skipTo (mark : List Char → Bool) (wanted : List (List Char)) : List (List Char) → Nat →
    Option (Nat × List (List Char))
  | [], _ => none
  | l :: ls, k =>
    if mark l then some (k, ls)
    else skipTo mark wanted ls (if wanted.contains (join (words l)) then k + 1 else k)

/-- The rows up to an empty line or the end of the file (script/fetch_iers_c04.py:117-130 and 174-187). -/
def rows {V : Type} (py : Py V) (n : Nat) : List (List Char) → Option (List (Row V))
  | [] => some []
  | l :: ls =>
    if strip l = [] then some []
    else
      match parseRow py n l with
      | none => none
      | some r =>
        match rows py n ls with
        | none => none
        | some rs => some (r :: rs)

/-- After the heading: an empty line, then the rows (script/fetch_iers_c04.py:111-130 and 168-187). -/
def afterMark {V : Type} (py : Py V) (n : Nat) : List (List Char) → Option (List (Row V))
  | [] => some []
  | l :: ls => if strip l = [] then rows py n ls else none

/-- `c04_get_final_data_01` and `c04_get_final_data_03` (script/fetch_iers_c04.py:83-136 and 142-193). -/
def sectionData {V : Type} (py : Py V) (mark : List Char → Bool) (wanted : List (List Char)) (n : Nat)
    (lines : List (List Char)) : Option (List (Row V)) :=
  match skipTo mark wanted lines 0 with
  | none => none
  | some (k, rest) => if k = wanted.length then afterMark py n rest else none

/-- The last heading line of section 1 (script/fetch_iers_c04.py:156). -/
def mark1 (l : List Char) : Bool := "mean formal error".toList.isPrefixOf (lower (strip l))

/-- The last heading line of section 3 (script/fetch_iers_c04.py:99). -/
def mark3 (l : List Char) : Bool :=
  "(0 h utc)              ms       ms        mas/ms          mas/ms".toList.isPrefixOf (lower (strip l))

/-- Heading of section 1 (script/fetch_iers_c04.py:149-153). -/
def wanted1 : List (List Char) :=
  ["1 - DAILY FINAL VALUES OF x, y, UT1-UTC, dX, dY".toList,
   "DATE MJD x y UT1-UTC dX dY x err y err UT1 err dX err dY err".toList,
   "(0 h UTC) mas mas ms mas mas mas mas ms mas mas".toList]

/-- Heading of section 3 (script/fetch_iers_c04.py:90-96). -/
def wanted3 : List (List Char) :=
  ["3 - EARTH ANGULAR VELOCITY : DAILY FINAL VALUES OF LOD, OMEGA AT 0hUTC".toList,
   "LOD : Excess of the Length of day - 86400 s TAI".toList,
   "OMEGA : Earth angular velocity".toList,
   "DATE MJD LOD sigma OMEGA sigma".toList]

/-- A day of the merged data: a row of section 1, and the values of section 3. -/
structure Day (V : Type) extends Row V where
  extra : List V
deriving DecidableEq, Repr

/-- The merging loop (script/fetch_iers_c04.py:207-214): the first row of section 3 with that day number
(script/fetch_iers_c04.py:195-198); without one an exception is raised (`None` has no `pop`). -/
def merge {V : Type} (b3 : List (Row V)) : List (Row V) → Option (List (Day V))
  | [] => some []
  | r :: rs =>
    match b3.find? (fun q => q.mjd == r.mjd) with
    | none => none
    | some q =>
      match merge b3 rs with
      | none => none
      | some ds => some (⟨r, q.vals⟩ :: ds)

/-- `c04_get_final_data` (script/fetch_iers_c04.py:200-214). -/
def finalData {V : Type} (py : Py V) (lines : List (List Char)) : Option (List (Day V)) :=
  match sectionData py mark1 wanted1 10 lines with
  | none => none
  | some b1 =>
    match sectionData py mark3 wanted3 4 lines with
    | none => none
    | some b3 => merge b3 b1

/-! ### Writing -/

/-- A decimal digit. -/
def digit (n : Nat) : Char := Char.ofNat (48 + n)

/-- Decimal digits of `n`, if `k` is large enough. -/
def decF : Nat → Nat → List Char
  | 0, _ => []
  | k + 1, n => if n < 10 then [digit n] else decF k (n / 10) ++ [digit (n % 10)]

/-- Decimal digits of `n`. -/
def dec (n : Nat) : List Char := decF (n + 1) n

/-- Right-aligned in a field of `w` characters. -/
def padLeft (w : Nat) (s : List Char) : List Char := List.replicate (w - s.length) ' ' ++ s

/-- The last `p` digits of `n`, with leading zeros. -/
def frac : Nat → Nat → List Char
  | 0, _ => []
  | p + 1, n => frac p (n / 10) ++ [digit (n % 10)]

/-- A number with sign and `p` decimals: `n` counts units of the last decimal. -/
def fixed (p : Nat) (neg : Bool) (n : Nat) : List Char :=
  (if neg then '-' else '+') :: (dec (n / 10 ^ p) ++ '.' :: frac p n)

/-- `'{:d}'.format(...)`. -/
def intStr (z : Int) : List Char := if z < 0 then '-' :: dec z.natAbs else dec z.natAbs

/-- How numbers are rounded for printing: sign, and absolute value to 4 and 12 decimals. -/
structure Fmt (V : Type) where
  neg : V → Bool
  m4 : V → Nat
  m12 : V → Nat

/-- `'{:+10.4f}'` (script/fetch_iers_c04.py:257). -/
def val4 {V : Type} (f : Fmt V) (v : V) : List Char := padLeft 10 (fixed 4 (f.neg v) (f.m4 v))

/-- `'{:+15.12f} '` (script/fetch_iers_c04.py:262). -/
def val12 {V : Type} (f : Fmt V) (v : V) : List Char := padLeft 15 (fixed 12 (f.neg v) (f.m12 v)) ++ [' ']

/-- The date of a line (script/fetch_iers_c04.py:252). -/
def dateStr {V : Type} (r : Row V) : List Char :=
  padLeft 4 (intStr r.year) ++ (padLeft 4 (intStr r.month) ++ (padLeft 4 (intStr r.day) ++
    padLeft 8 (intStr r.mjd)))

/-- A line of the merged file (script/fetch_iers_c04.py:252-262). -/
def lineOf {V : Type} (f : Fmt V) (d : Day V) : List Char :=
  dateStr d.toRow ++ (d.vals.flatMap (val4 f) ++ ' ' :: d.extra.flatMap (val12 f))

/-- `header` (script/fetch_iers_c04.py:72-78). -/
def header : List (List Char) :=
  ["#1 - DAILY FINAL VALUES OF x, y, UT1-UTC, dX, dY".toList,
   "# Angular unit is milliarcsecond (mas), time unit is millisecond (ms). ".toList,
   "# Upgraded solution from March 1 2017 - consistent with ITRF 2014.".toList,
   "# ".toList,
   "#      DATE     MJD       x        y       UT1-UTC     dX        dY       x err     y err    UT1 err   dX err    dY err   LOD             sigma           OMEGA           sigma".toList,
   "#   (0 h UTC)            mas      mas        ms        mas       mas       mas       mas        ms       mas       mas      ms            ms              mas/ms          mas/ms".toList]

/-- The lines of one bulletin; only the very last line of the file lacks its newline
(script/fetch_iers_c04.py:264-267). -/
def fileLines {V : Type} (f : Fmt V) (lastFile : Bool) : List (Day V) → List Rinex.Line
  | [] => []
  | [d] => [⟨lineOf f d, !lastFile⟩]
  | d :: ds => ⟨lineOf f d, true⟩ :: fileLines f lastFile ds

/-- The lines of all bulletins (script/fetch_iers_c04.py:249-267). -/
def bodyLines {V : Type} (f : Fmt V) : List (List (Day V)) → List Rinex.Line
  | [] => []
  | [b] => fileLines f true b
  | b :: bs => fileLines f false b ++ bodyLines f bs

/-- `c04_cat` (script/fetch_iers_c04.py:244-271) for bulletins that can be read. -/
def cat {V : Type} (f : Fmt V) (bs : List (List (Day V))) : List Rinex.Line :=
  header.map (fun l => ⟨l, true⟩) ++ bodyLines f bs

end Verif.Script.Bulletin
