import Verif.Icgem.LoadModel

/-
The program test/test_icgem.cpp, which reads a gravity model and prints the coefficients asked for, with either of the two copies
of the reader: that of the library and the older one in var/icgem/src (var/icgem/test/test_icgem.cpp is the same program).

Simplifications: the input of the program is a list of words, a number or (`none`) not one; coefficients are given as numbers, not
as text; the parts for debugging are left out.
-/
namespace Verif.Icgem

open Verif.Rinex Verif.Text

/-! ### The older reader -/

/-- The tests of one line in the older reader (var/icgem/src/icgemio_rdhead.cpp:77-195): it returns at the first error. -/
def onLineOld (strtod : Strtod) (line : List Char) : List Key → Hdr → Step
  | [], h => .ok h 0
  | k :: ks, h =>
    if strncmpEq k.name.length line k.name then
      match argument k line with
      | none => .stale
      | some arg =>
        match onKey strtod h 0 k arg with
        | .ok h' 0 => onLineOld strtod line ks h'
        | s => s
    else onLineOld strtod line ks h

/-- Its loop (var/icgem/src/icgemio_rdhead.cpp:74-205). -/
def headerLoopOld (strtod : Strtod) : Nat → Stream → Buf → Hdr → HOut
  | n, s, b, h =>
    if strncmpEq 11 (cstr b 0) "end_of_head".toList then .ret 0 h s
    else
      match onLineOld strtod ((cstr b 0).dropWhile (· == ' ')) Key.all h with
      | .stale => .stale
      | .abort => .abort
      | .ok h' error =>
        if error ≠ 0 then .ret error h' s
        else
          let (s', b') := getline 256 s b
          match n with
          | 0 => .ret 1 h' s'
          | n + 1 => headerLoopOld strtod n s' b' h'

/-- `parse_header` (var/icgem/src/icgemio_rdhead.cpp:60-209). -/
def parseHeaderOld (strtod : Strtod) (file : Option (List Line)) (b : Buf) : HOut :=
  match file with
  | none => .ret 1 Hdr.init (Stream.open [])
  | some lines =>
    let (s, b1) := getline 256 (Stream.open lines) b
    headerLoopOld strtod 1000 s b1 Hdr.init

/-- `parse_data` (var/icgem/src/icgemio_rddata.cpp:31-159); from line 65 on the code is that of the library. -/
def parseDataOld (strtod : Strtod) (maxDegree : Int) (N l m : Nat) (lines : Option (List Line)) (t : Table) : Out :=
  if (l : Int) > maxDegree ∨ m > l then .ret 1 t
  else if N < l then .ret 1 t
  else
    match lines with
    | none => .ret 1 t
    | some lines =>
      if N < 1 then .outside
      else run N l m (items strtod lines) 0
        ((t.set (Harmonic.addrC N 1 0) (-999)).set (Harmonic.addrC N 1 1) (-999))

/-! ### The program -/

/-- What is printed for a question. -/
inductive Answer where
  /-- the message on a wrong degree or order -/
  | wrong
  /-- degree, order, `C` and `S` -/
  | values (n k : Int) (c s : ℚ)
deriving DecidableEq

/-- How the questions end. -/
inductive End where
  | left
  /-- a variable that was never set is used -/
  | indeterminate
deriving DecidableEq

/-- The loop over the questions (test/test_icgem.cpp:48-59).  `scanf` sets a variable for each number that it meets; a word that is
not a number, or the end of the input, stops it. -/
def session (N : Nat) (t : Table) : List (Option Int) → List Answer × End
  | some a :: some b :: rest =>
    if a < 0 ∨ b < 0 then ([], .left)
    else
      let r := session N t rest
      if a > N ∨ b > a then (.wrong :: r.1, r.2)
      else (.values a b (t (Harmonic.addrC N a.toNat b.toNat)) (t (Harmonic.addrS N a.toNat b.toNat)) :: r.1, r.2)
  | some a :: _ => ([], if a < 0 then .left else .indeterminate)
  | _ => ([], .indeterminate)

/-- How the program ends. -/
inductive Asked where
  /-- status 1 -/
  | failed
  /-- undefined, an assertion, or an exception -/
  | undefined
  /-- status 0, or questions without end -/
  | ran (answers : List Answer) (e : End)
deriving DecidableEq

/-- `main` (test/test_icgem.cpp:6-62) with the reader `head`, `data`; `t` is what the new table holds. -/
def askMain (head : Option (List Line) → Buf → HOut) (data : Int → Nat → Nat → Nat → Option (List Line) → Table → Out)
    (atoi : List Char → Int) (file : List Char → Option (List Line)) (b : Buf) (t : Table) (argv : List (List Char))
    (input : List (Option Int)) : Asked :=
  if argv.length ≠ 2 ∧ argv.length ≠ 3 then .failed
  else
    match head (file (argv.getD 1 [])) b with
    | .stale => .undefined
    | .abort => .undefined
    | .ret status h s =>
      if status ≠ 0 then .failed
      else
        let degree : Int := if argv.length = 3 then atoi (argv.getD 2 []) else h.maxDegree
        if degree < 0 then .undefined
        else
          let N := degree.toNat
          match data h.maxDegree N N N ((file (argv.getD 1 [])).map fun _ => dataLines s) t with
          | .outside => .undefined
          | .abort => .undefined
          | .ret status t' =>
            if status ≠ 0 then .failed
            else
              let r := session N t' input
              .ran r.1 r.2

end Verif.Icgem
