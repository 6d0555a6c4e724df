import Verif.Script.BulletinModel

/-!
Model of script/pydoris/pydoris/log/ids_log_parser.py: reading of the site logs of DORIS stations.

Simplifications: a file is the list of what `readline` returns, each line with its newline character; white
space is that of the "C" locale.  A regular expression that consists of characters, dots and groups only is
a list of atoms.  `float` and `strptime` are parameters.  An exception is the outcome `none`.
-/
namespace Verif.Script.Log

open Verif.Text
open Verif.Script.Bulletin (strip)

/-! ### Regular expressions -/

/-- A character, or any character but a newline. -/
inductive Atom where
  | lit (c : Char)
  | any
deriving DecidableEq, Repr

/-- What `re` makes of a text without other special characters: a dot is any character, and parentheses are a
group. -/
def compile (s : List Char) : List Atom :=
  (s.filter fun c => c != '(' && c != ')').map fun c => if c = '.' then .any else .lit c

/-- `re.match`: does the text begin so? -/
def matches? : List Atom → List Char → Bool
  | [], _ => true
  | _ :: _, [] => false
  | .lit a :: as, c :: s => a == c && matches? as s
  | .any :: as, c :: s => c != '\n' && matches? as s

/-! ### Blocks -/

/-- `IdsLogFileBlocks` (script/pydoris/pydoris/log/ids_log_parser.py:19-29). -/
def title : Nat → List Char
  | 0 => "0. Form".toList
  | 1 => "1. Site location information".toList
  | 2 => "2. DORIS antenna and reference point information".toList
  | 3 => "3. DORIS beacons information".toList
  | 4 => "4. ITRF coordinates and velocities of the current DORIS ref. point (YEMB)".toList
  | 5 => "5. IERS colocation information".toList
  | 6 => "6. Tide Gauge colocation information".toList
  | 7 => "7. Local site ties".toList
  | 8 => "8. Meteorological Instrumentation".toList
  | _ => "9. DORIS network contacts".toList

/-- The keys of that dictionary. -/
def blocks : List Nat := [0, 1, 2, 3, 4, 5, 6, 7, 8, 9]

/-- `line_is_block_header` (script/pydoris/pydoris/log/ids_log_parser.py:32-36). -/
def header? (l : List Char) : Option Nat := blocks.find? fun k => matches? (compile (title k)) (strip l)

/-- The condition `elif line_is_block_header(line)` (script/pydoris/pydoris/log/ids_log_parser.py:98): number
0 counts as false. -/
def endsBlock (l : List Char) : Bool :=
  match header? l with
  | none => false
  | some k => k != 0

/-- `go_to_block` (script/pydoris/pydoris/log/ids_log_parser.py:50-60): the lines after the heading. -/
def goTo (nr : Nat) : List (List Char) → Option (List (List Char))
  | [] => none
  | l :: ls => if matches? (compile (title nr)) l then some ls else goTo nr ls

/-- Heading of a part of the block (script/pydoris/pydoris/log/ids_log_parser.py:71): the number of the block,
any character, a digit. -/
def subHeader (nr : Nat) (l : List Char) : Bool :=
  match l with
  | a :: b :: c :: _ => a == digitChar nr && b != '\n' && isDigit c
  | _ => false
where
  /-- The number of a block is one digit. -/
  digitChar (n : Nat) : Char := Char.ofNat (48 + n)

/-- A dictionary, in the order in which its keys were added. -/
abbrev Dict := List (List Char × List Char)

/-- `d[k] = v`. -/
def put (k v : List Char) : Dict → Dict
  | [] => [(k, v)]
  | p :: d => if p.1 = k then (k, v) :: d else p :: put k v d

/-- `d[k] += v`. -/
def extend (k v : List Char) (d : Dict) : Dict := d.map fun p => if p.1 = k then (p.1, p.2 ++ v) else p

/-- Two blanks at the beginning. -/
def indented (l : List Char) : Bool := "  ".toList.isPrefixOf l

/-- A line that continues the value before it (script/pydoris/pydoris/log/ids_log_parser.py:94). -/
def continues (l : List Char) : Bool := decide (l.length > 10) && indented l && !l.contains ':'

/-- The text before and after the first colon. -/
def splitColon (l : List Char) : Option (List Char × List Char) :=
  if l.contains ':' then some (l.takeWhile (· != ':'), (l.dropWhile (· != ':')).drop 1) else none

/-- `parse_this_block` (script/pydoris/pydoris/log/ids_log_parser.py:62-107).  `key` is the key whose value the
inner loop (script/pydoris/pydoris/log/ids_log_parser.py:94-96) continues, if it is in that loop. -/
def parse (nr : Nat) : List (List Char) → List Dict → Dict → Option (List Char) → Option (List Dict)
  | [], ret, _, _ => some ret
  | l :: ls, ret, cdic, key =>
    if key.isSome && continues l then
      parse nr ls ret (extend (key.getD []) (' ' :: strip l) cdic) key
    else if subHeader nr l then
      if cdic.isEmpty then parse nr ls ret cdic none else parse nr ls (ret ++ [cdic]) [] none
    else if indented l then
      match splitColon l with
      | none => none
      | some (a, b) => parse nr ls ret (put (strip a) (strip b) cdic) (some (strip a))
    else if endsBlock l then some (ret ++ [cdic])
    else parse nr ls ret cdic none

/-- `parse_block_nr` (script/pydoris/pydoris/log/ids_log_parser.py:109-114). -/
def parseBlock (nr : Nat) (file : List (List Char)) : Option (List Dict) :=
  match goTo nr file with
  | none => none
  | some ls => parse nr ls [] [] none

/-! ### Antennas -/

/-- The ways of `[0-9]+`, longest first. -/
def someDigits (s : List Char) : List (List Char × List Char) :=
  (List.range (s.takeWhile isDigit).length).reverse.map fun k => (s.take (k + 1), s.drop (k + 1))

/-- The ways of `.[0-9]+` after the digits `a`. -/
def thenDigits (a : List Char) : List Char → List (List Char × List Char)
  | [] => []
  | c :: t => if c = '\n' then [] else (someDigits t).map fun q => (a ++ c :: q.1, q.2)

/-- The ways of `[0-9]+.[0-9]+`, in the order in which `re` tries them: text, and what follows it. -/
def numbers (s : List Char) : List (List Char × List Char) :=
  (someDigits s).flatMap fun p => thenDigits p.1 p.2

/-- `\s*m`. -/
def metres (s : List Char) : Bool :=
  match s.dropWhile isSpace with
  | [] => false
  | c :: _ => c == 'm'

/-- The text of the number in a height (script/pydoris/pydoris/log/ids_log_parser.py:124-139): with the unit if
possible, else without; `none` if there is no such number. -/
def heightText (s : List Char) : Option (List Char) :=
  match (numbers s).find? fun p => metres p.2 with
  | some p => some p.1
  | none => if metres s then none else (numbers s).head?.map Prod.fst

/-- What the program calls: `float` and `strptime`. -/
structure Py (V D : Type) where
  float : List Char → Option V
  zero : V
  date : List Char → Option D
  /-- `datetime.datetime.max` -/
  latest : D

/-- `d[k]`. -/
def get (d : Dict) (k : List Char) : Option (List Char) := (d.find? fun p => p.1 == k).map Prod.snd

/-- A line of the list of antennas: name, dates of installation and removal, height. -/
structure Antenna (V D : Type) where
  name : List Char
  installed : D
  removed : D
  height : V
deriving DecidableEq, Repr

/-- The height (script/pydoris/pydoris/log/ids_log_parser.py:139). -/
def heightOf {V D : Type} (py : Py V D) (s : List Char) : Option V :=
  match heightText s with
  | none => some py.zero
  | some t => py.float t

/-- The date of removal (script/pydoris/pydoris/log/ids_log_parser.py:142-143). -/
def removedOf {V D : Type} (py : Py V D) (s : List Char) : Option D :=
  if s = [] then some py.latest else py.date s

/-- One antenna (script/pydoris/pydoris/log/ids_log_parser.py:121-145). -/
def antenna {V D : Type} (py : Py V D) (d : Dict) : Option (Antenna V D) := do
  let name ← get d "Four character ID".toList
  let h ← heightOf py (← get d "Height above ground mark".toList)
  let i ← py.date (← get d "Date installed (dd/mm/yy)".toList)
  let r ← removedOf py (← get d "Date removed (dd/mm/yy)".toList)
  pure ⟨name, i, r, h⟩

/-- `dump_log_antenna_info` (script/pydoris/pydoris/log/ids_log_parser.py:117-145). -/
def antennas {V D : Type} (py : Py V D) (file : List (List Char)) : Option (List (Antenna V D)) := do
  (← parseBlock 2 file).mapM (antenna py)

/-- `parse_first_log_line` (script/pydoris/pydoris/log/ids_log_parser.py:7-16).  `found` tells whether the
pattern matches; the number of groups is that of its opening parentheses. -/
def firstLine (found : List Char → Option (List Char)) (l : List Char) : Option (List Char) :=
  if (found l).isNone ||
      ("\\s* [a-zA-Z_-]+ DORIS site description form\\s*".toList.filter (· == '(')).length != 1 then none
  else found l

end Verif.Script.Log
