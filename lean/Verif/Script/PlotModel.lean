import Mathlib.Data.List.Basic

/-!
Model of script/scatterplot.py: translation of the computation strings, reading of the columns, columns kept, time columns and
subplots.

Simplifications: strings are lists of characters; a line is given by whether it starts with `#` and by its fields (`str.split`);
`float` and `datetime.strptime` are parameters; what Python reports as an exception or a failed assertion is `none`.
-/
namespace Verif.Script.Plot

/-! ### Computation strings -/

/-- The rest of a string that begins with `p`. -/
def strip : List Char → List Char → Option (List Char)
  | [], s => some s
  | _ :: _, [] => none
  | a :: p, b :: s => if a = b then strip p s else none

/-- `[0-9]`. -/
def isDigit (c : Char) : Bool := '0' ≤ c && c ≤ '9'

/-- `re.sub(pre ++ "([0-9]+)", rep ++ "\1]", s)`: from left to right, the longest run of digits. -/
def subFuel (pre rep : List Char) : Nat → List Char → List Char
  | 0, s => s
  | _ + 1, [] => []
  | n + 1, c :: s =>
    match strip pre (c :: s) with
    | none => c :: subFuel pre rep n s
    | some r =>
      match r.takeWhile isDigit with
      | [] => c :: subFuel pre rep n s
      | d :: ds => rep ++ (d :: ds) ++ ']' :: subFuel pre rep n (r.dropWhile isDigit)

/-- The substitution in the whole string. -/
def sub (pre rep s : List Char) : List Char := subFuel pre rep s.length s

/-- The digit of a number below ten. -/
def digit (i : Nat) : Char := Char.ofNat (48 + i)

/-- `\${:}:` and `fcl[{:}][` for a file (scatterplot.py:76). -/
def filePre (i : Nat) : List Char := ['$', digit i, ':']

/-- The replacement up to the column. -/
def fileRep (i : Nat) : List Char := ['f', 'c', 'l', '[', digit i, ']', '[']

/-- The passes for the files `i`, `i+1`, … (scatterplot.py:75-76). -/
def passes : Nat → Nat → List Char → List Char
  | 0, _, s => s
  | m + 1, i, s => passes m (i + 1) (sub (filePre i) (fileRep i) s)

/-- `parse_computation_string` (scatterplot.py:60-77). -/
def parse (s : List Char) : List Char :=
  if ':' ∈ s then passes 10 0 s else sub ['$'] (fileRep 0) s

/-- The columns that `re.findall` finds for a file (scatterplot.py:161): at each position `fcl[k][` digits `]`; `k` is the text of
the number of the file. -/
def findCols (k : List Char) : List Char → List (List Char)
  | [] => []
  | c :: s =>
    match strip (['f', 'c', 'l', '['] ++ k ++ [']', '[']) (c :: s) with
    | none => findCols k s
    | some r =>
      match r.takeWhile isDigit, r.dropWhile isDigit with
      | d :: ds, ']' :: _ => (d :: ds) :: findCols k s
      | _, _ => findCols k s

/-! ### Columns of a file -/

/-- A line: `none` for a comment, else the fields (scatterplot.py:91, 102-103). -/
abbrev Line := Option (List String)

/-- `lines2column_dictionary` (scatterplot.py:79-107): the columns in order, keys 1, 2, …; `none` if the assertion fails or there
is no line that is not a comment. -/
def columns (ls : List Line) : Option (List (List String)) :=
  match ls.filterMap id with
  | [] => none
  | l :: rest =>
    if (l :: rest).all (fun x => x.length == l.length) then
      some ((List.range l.length).map fun i => (l :: rest).map fun x => x.getD i "")
    else none

/-- The conversion of a column (scatterplot.py:109-114): numbers, or the strings as they are. -/
def convert {F : Type} (float : String → Option F) (col : List String) : List F ⊕ List String :=
  match col with
  | [] => .inr []
  | x :: xs =>
    match float x, (x :: xs).mapM float with
    | some _, some v => .inl v
    | _, _ => .inr (x :: xs)

/-! ### Times -/

/-- What `strptime` does: a time, `unconverted data remains` of this length, or another `ValueError`. -/
inductive Parsed (T : Type) where
  | ok (t : T)
  | rest (n : Nat)
  | error

/-- `s[:-n]`: for `n = 0` this is `s[:0]`. -/
def clip (s : List Char) (n : Nat) : List Char := if n = 0 then [] else s.take (s.length - n)

/-- `' '.join([d, t])`. -/
def join (d t : List Char) : List Char := d ++ ' ' :: t

/-- The format and the clipping chosen from the first row (scatterplot.py:129-144); the formats are 0 (with fraction) and 1. -/
def choose {T : Type} (strp : Nat → List Char → Parsed T) (d t : List Char) : Option (Nat × Nat) :=
  match strp 0 (join d t) with
  | .ok _ => some (0, 0)
  | .rest n =>
    match strp 0 (join d (clip t n)) with
    | .ok _ => some (0, n)
    | _ => none
  | .error => some (1, 0)

/-- A row (scatterplot.py:145). -/
def rowTime {T : Type} (strp : Nat → List Char → Parsed T) (f n : Nat) (r : List Char × List Char) : Option T :=
  match strp f (join r.1 (clip r.2 n)) with
  | .ok t => some t
  | _ => none

/-- `column_dictionary2time` (scatterplot.py:117-147) for the rows of the two columns. -/
def times {T : Type} (strp : Nat → List Char → Parsed T) (rows : List (List Char × List Char)) : Option (List T) :=
  match rows with
  | [] => none
  | r :: rs => (choose strp r.1 r.2).bind fun p => (r :: rs).mapM (rowTime strp p.1 p.2)

/-! ### Files and subplots -/

/-- The time columns of the files `c`, `c+1`, … (scatterplot.py:204-217); `x i` is what `datetime_start_column` gives for the
`i`-th string, `n` the number of strings. -/
def timeColumns (x : Nat → Nat × Nat) (n : Nat) : Nat → Nat → Option (List Nat)
  | 0, _ => some []
  | m + 1, c =>
    let p := x (if n = 2 then 0 else c * 2)
    if p.1 = c then (timeColumns x n m (c + 1)).map (p.2 :: ·) else none

/-- The pairs of strings that are plotted (scatterplot.py:226-234). -/
def subplots {α : Type} : List α → List (α × α)
  | x :: y :: l => (x, y) :: subplots l
  | _ => []

end Verif.Script.Plot
