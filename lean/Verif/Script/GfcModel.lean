import Verif.Script.BulletinModel

/-!
Model of script/gfc_fortran2c.py: numbers in Fortran notation in the data section of a file of gravity field
coefficients are rewritten.

Simplifications: a file is the list of what `readline` returns, each line with its newline character; white
space is that of the "C" locale.
-/
namespace Verif.Script.Gfc

open Verif.Text
open Verif.Script.Bulletin (strip)

/-- `[+-]?`: the sign, and what follows. -/
def optSign : List Char → List Char × List Char
  | [] => ([], [])
  | c :: s => if c = '+' ∨ c = '-' then ([c], s) else ([], c :: s)

/-- `[0-9]?`. -/
def optDigit : List Char → List Char × List Char
  | [] => ([], [])
  | c :: s => if isDigit c then ([c], s) else ([], c :: s)

/-- `([Dd])([+-]?[0-9]+)`: third group, and what follows. -/
def exponent : List Char → Option (List Char × List Char)
  | [] => none
  | c :: s =>
    if c = 'D' ∨ c = 'd' then
      let (sg, s1) := optSign s
      if s1.takeWhile isDigit = [] then none
      else some (sg ++ s1.takeWhile isDigit, s1.dropWhile isDigit)
    else none

/-- `\.[0-9]+`, then the exponent; `pre` is the text before the point. -/
def fraction (pre : List Char) : List Char → Option (List Char × List Char × List Char)
  | [] => none
  | c :: s =>
    if c = '.' ∧ s.takeWhile isDigit ≠ [] then
      (exponent (s.dropWhile isDigit)).map fun p => (pre ++ '.' :: s.takeWhile isDigit, p.1, p.2)
    else none

/-- The pattern (script/gfc_fortran2c.py:30) at the beginning of a text: first group, third group, and what
follows.  None of the parts can be matched in a second way: giving back a sign or digits leaves a character
that the next part does not accept. -/
def matchAt (s : List Char) : Option (List Char × List Char × List Char) :=
  let (sg, s1) := optSign s
  let (d, s2) := optDigit s1
  fraction (sg ++ d) s2

/-- `re.sub` for the first `k` characters and matches. -/
def subF : Nat → List Char → List Char
  | 0, s => s
  | _ + 1, [] => []
  | k + 1, c :: t =>
    match matchAt (c :: t) with
    | none => c :: subF k t
    | some (m, x, r) => m ++ 'e' :: (x ++ subF k r)

/-- `re.sub(r"([+-]?[0-9]?\.[0-9]+)([Dd])([+-]?[0-9]+)", r"\1e\3", line)` (script/gfc_fortran2c.py:30). -/
def sub (s : List Char) : List Char := subF s.length s

/-- The header loop (script/gfc_fortran2c.py:22-25), for `k` turns: the lines printed, and the lines left when
it ends.  At the end of the file `readline` goes on to return empty strings. -/
def header : Nat → List (List Char) → List (List Char) → List (List Char) × Option (List (List Char))
  | 0, _, out => (out, none)
  | k + 1, [], out => header k [] (out ++ [[]])
  | k + 1, l :: ls, out =>
    if "end_of_head".toList.isPrefixOf (l.dropWhile isSpace) then (out ++ [strip l], some ls)
    else header k ls (out ++ [strip l])

/-- The data loop (script/gfc_fortran2c.py:28-32). -/
def data (ls : List (List Char)) : List (List Char) := ls.map fun l => strip (sub l)

/-- The script, for `k` turns of its first loop: what is printed, line by line; `none` if that loop goes on. -/
def convert (k : Nat) (file : List (List Char)) : Option (List (List Char)) :=
  match header k file [] with
  | (_, none) => none
  | (out, some ls) => some (out ++ data ls)

end Verif.Script.Gfc
