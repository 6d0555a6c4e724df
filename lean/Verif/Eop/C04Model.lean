import Verif.Rinex.Stream

/-
Model of `parse_iers_C04` (src/iers/parse_c04.cpp:33-125).

`std::from_chars` for doubles and the UTC to TT conversion of a day are parameters.  A record
written at index `sz` of the table is the `sz`-th element of a list; an index not below the size
of the table (`days`, after `resize(days)`, parse_c04.cpp:48) ends the run with outcome `outside`.
-/
namespace Verif.Eop.C04

open Verif.Text

/-- What the parser gets from outside. -/
structure Ext (V : Type) where
  /-- `std::from_chars` for `double`: value and remaining characters -/
  fromCharsD : List Char → Option (V × List Char)
  /-- TT date of 0h UTC of a day (parse_c04.cpp:81-85) -/
  ttOf : Int → V

/-- One row of the table. -/
structure Rec (V : Type) where
  mjd : V
  xp : V
  yp : V
  dut : V
  lod : V
  dx : V
  dy : V
deriving DecidableEq, Repr

/-- `next_num` (parse_c04.cpp:10-15) on the characters up to the terminator. -/
def nextNum (s : List Char) : List Char := s.dropWhile (· == ' ')

/-- `std::from_chars` for `long`: optional minus sign, digits, range check. -/
def fromCharsL (s : List Char) : Option (Int × List Char) :=
  let (neg, s1) := match s with
    | '-' :: t => (true, t)
    | _ => (false, s)
  let (v, n, rest) := scanDigits s1 0 0
  if n = 0 then none
  else
    let x : Int := if neg then -(v : Int) else v
    if x > longMax ∨ x < -longMax - 1 then none else some (x, rest)

/-- The six values (parse_c04.cpp:89-97). -/
def values {V : Type} (e : Ext V) : Nat → List Char → Option (List V)
  | 0, _ => some []
  | n + 1, s =>
    match e.fromCharsD (nextNum s) with
    | none => none
    | some (v, rest) =>
      match values e n rest with
      | none => none
      | some vs => some (v :: vs)

/-- The row of day `d` from the rest of its line (parse_c04.cpp:84-113); `none`: status 2. -/
def row {V : Type} (e : Ext V) (d : Int) (rest : List Char) : Option (Rec V) :=
  match values e 6 rest with
  | some [a, b, c, f, g, h] => some ⟨e.ttOf d, a, b, c, f, g, h⟩
  | _ => none

/-- What a line is. -/
inductive Item (V : Type) where
  /-- blank or comment (parse_c04.cpp:59) -/
  | skip
  /-- shorter than the 12 characters that are skipped (parse_c04.cpp:62): bytes after the terminator
  are used -/
  | short
  /-- no day number (parse_c04.cpp:65-71) -/
  | bad
  /-- a day and its row -/
  | day (d : Int) (r : Option (Rec V))
deriving DecidableEq, Repr

/-- Classification of a line (parse_c04.cpp:59-64). -/
def classify {V : Type} (e : Ext V) (text : List Char) : Item V :=
  let s := text.takeWhile (· != '\x00')
  match s with
  | [] => .skip
  | c :: _ =>
    if c == ' ' || c == '#' then .skip
    else if s.length < 12 then .short
    else
      match fromCharsL (nextNum (s.drop 12)) with
      | none => .bad
      | some (d, rest) => .day d (row e d rest)

/-- The lines that `getline(line, 256)` delivers: an over-long line ends reading, and so does a
last line without newline (after it has been used). -/
def items {V : Type} (e : Ext V) : List Rinex.Line → List (Item V)
  | [] => []
  | l :: rest =>
    if l.text.length > 255 then []
    else classify e l.text :: (if l.eol then items e rest else [])

/-- How the call ends. -/
inductive Outcome (V : Type) where
  /-- return value, and the rows stored -/
  | ret (status : Nat) (rows : List (Rec V))
  /-- a row was stored at an index not below the size of the table -/
  | outside
  /-- bytes after the end of a line were interpreted -/
  | stale
deriving DecidableEq, Repr

/-- The loop (parse_c04.cpp:55-121) and the final test (parse_c04.cpp:124). -/
def run {V : Type} (st en : Int) : List (Item V) → List (Rec V) → Outcome V
  | [], rows => .ret (if en - st = rows.length then 0 else 1) rows
  | .skip :: is, rows => run st en is rows
  | .short :: _, _ => .stale
  | .bad :: _, rows => .ret 1 rows
  | .day d r :: is, rows =>
    if st ≤ d ∧ d < en then
      if (rows.length : Int) ≥ en - st then .outside
      else
        match r with
        | none => .ret 2 rows
        | some r => run st en is (rows ++ [r])
    else if d ≥ en then .ret (if en - st = rows.length then 0 else 1) rows
    else run st en is rows

/-- `parse_iers_C04` (parse_c04.cpp:33-125); `none` for a file that cannot be opened. -/
def parseC04 {V : Type} (e : Ext V) (file : Option (List Rinex.Line)) (st en : Int) : Outcome V :=
  match file with
  | none => .ret 1 []
  | some lines => run st en (items e lines) []

end Verif.Eop.C04
