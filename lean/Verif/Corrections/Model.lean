import Verif.Rinex.Stream
import Mathlib.Algebra.Order.Field.Rat

/-
Model of `get_satellite_corrections` (src/satellites/satellite_corrections.cpp).

Numbers are rationals; `std::from_chars` for doubles is a parameter.
-/
namespace Verif.Corrections

open Verif.Rinex

/-- `std::from_chars` for doubles: value and what follows; `none`: no number. -/
abbrev FromChars := List Char → Option (ℚ × List Char)

/-- `while (*c++ == ' ');` (satellite_corrections.cpp:33, 42, 55): skips blanks *and the character after them*.
`none`: the pointer is behind the terminator. -/
def skipBlanks : List Char → Option (List Char)
  | [] => none
  | c :: r => if c = ' ' then skipBlanks r else some r

/-- What a line does. -/
inductive Step where
  /-- bytes behind the terminator are used -/
  | stale
  /-- `break`, with the number of errors -/
  | stop (errors : Nat)
  /-- corrections and number of errors after the line -/
  | next (d : List ℚ) (errors : Nat)
deriving DecidableEq, Repr

/-- The four corrections (satellite_corrections.cpp:54-61), `i` being the next one; `c` is `none` when the pointer is
behind the terminator. -/
def values (fc : FromChars) : Nat → Nat → Option (List Char) → List ℚ → Nat → Step
  | 0, _, _, d, err => .next d err
  | n + 1, i, c, d, err =>
    match c with
    | none => .stale
    | some c =>
      match skipBlanks c with
      | none => .stale
      | some r =>
        match fc r with
        | some (v, r') => values fc n (i + 1) (r'.tail?) (d.set i v) err
        | none => values fc n (i + 1) (r.tail?) d (err + 1)

/-- A date field and the blank behind it (satellite_corrections.cpp:36-41, 42-47): value (if there is one), rest (`none`
when behind the terminator), number of errors. -/
def dateField (fc : FromChars) (c : List Char) : Option (Option ℚ × Option (List Char) × Nat) :=
  match skipBlanks c with
  | none => none
  | some r =>
    match fc r with
    | some (v, r') => some (some v, r'.tail?, if r'.head? = some ' ' then 0 else 1)
    | none => some (none, r.tail?, 1)

/-- A line that is not a comment (satellite_corrections.cpp:29-61). -/
def onLine (fc : FromChars) (jd sec : ℚ) (text : List Char) (d : List ℚ) : Step :=
  match dateField fc text with
  | none => .stale
  | some (_, none, _) => .stale
  | some (cjd, some c1, e1) =>
    match dateField fc c1 with
    | none => .stale
    | some (csec, c2, e2) =>
      match cjd, csec with
      | some cjd, some csec =>
        if e1 + e2 ≠ 0 then .stop (e1 + e2)
        else if cjd ≥ jd ∧ csec ≥ sec then .stop 0
        else values fc 4 0 c2 d 0
      | _, _ => .stop (e1 + e2)

/-- How the function ends. -/
inductive Out where
  | stale
  | ret (status : Nat) (d : List ℚ)
deriving DecidableEq, Repr

/-- The loop (satellite_corrections.cpp:26-63).  A line too long for the buffer ends it, as does the last line. -/
def loop (fc : FromChars) (jd sec : ℚ) : List Line → List ℚ → Out
  | [], d => .ret 0 d
  | l :: rest, d =>
    if l.text.length > 255 then .ret 0 d
    else
      let s := l.text.takeWhile (· != '\x00')
      let cont := fun d' : List ℚ => if l.eol then loop fc jd sec rest d' else .ret 0 d'
      if s.head? = some 'C' ∨ s.head? = some '/' then cont d
      else
        match onLine fc jd sec s d with
        | .stale => .stale
        | .stop err => .ret err d
        | .next d' err => if err = 0 then cont d' else .ret err d'

/-- `get_satellite_corrections` (satellite_corrections.cpp:6-75); `none`: the file cannot be opened. -/
def corrections (fc : FromChars) (jd sec : ℚ) (file : Option (List Line)) (d : List ℚ) : Out :=
  match file with
  | none => .ret 1 d
  | some lines => loop fc jd sec lines [0, 0, 0, 0]

end Verif.Corrections
