import Verif.Rinex.Stream
import Mathlib.Algebra.Order.Field.Rat

/-
Model of the attitude reader `JasonQuaternionHunter` (src/satellites/jason3_quaternions.hpp,
src/satellites/jason3_quaternions.cpp).

Dates are rationals.  Parsing the fields of a line and the interpolation of quaternions (`slerp`)
are parameters.  The buffer of five records is uninitialised before the constructor fills two of
them; its contents then are a parameter.
-/
namespace Verif.Attitude

open Verif.Rinex

/-- `JasonBodyQuaternion` (src/satellites/jason3_quaternions.hpp:11-16). -/
structure Rec (Q : Type) where
  mjd : ℚ
  q : Q
deriving DecidableEq, Repr

/-- What `resolve_jason3_body_quaternion_line` (src/satellites/jason3_quaternions.cpp:12-79) does. -/
inductive Parsed (Q : Type) where
  | ok (r : Rec Q)
  /-- the date cannot be read: the record is left as it was (jason3_quaternions.cpp:20-26) -/
  | badDate
  /-- the date has been stored, the quaternion has not (jason3_quaternions.cpp:18-19, 59-65) -/
  | badQuat (mjd : ℚ)

/-- External functions. -/
structure Ext (Q : Type) where
  resolve : Buf → Parsed Q
  slerp : ℚ → Q → Q → Q
  /-- bytes of the uninitialised line buffer -/
  junk : Buf

/-- The loop skipping comments (src/satellites/jason3_quaternions.cpp:99-100, 115-116).  The first
argument bounds the number of lines that can still be read. -/
def skipComments : Nat → Stream → Buf → Stream × Buf
  | 0, s, b => (s, b)
  | n + 1, s, b =>
    if at' b 0 = '#' ∧ s.good = true then
      skipComments n (getline 256 s b).1 (getline 256 s b).2
    else (s, b)

/-- `get_next(record)` (src/satellites/jason3_quaternions.cpp:90-103): status, stream, record. -/
def getNext {Q : Type} (e : Ext Q) (s : Stream) (r : Rec Q) : Nat × Stream × Rec Q :=
  let (s1, b1) := getline 256 s e.junk
  if s1.fail = true then (2, s1, r)
  else
    let (s2, b2) := skipComments (s1.lines.length + 1) s1 b1
    match e.resolve b2 with
    | .ok r' => (0, s2, r')
    | .badDate => (1, s2, r)
    | .badQuat m => (1, s2, { r with mjd := m })

/-- State of a hunter: stream and the five buffered records. -/
structure Hunter (Q : Type) where
  s : Stream
  b0 : Rec Q
  b1 : Rec Q
  b2 : Rec Q
  b3 : Rec Q
  b4 : Rec Q

/-- The buffer by index. -/
def Hunter.at {Q : Type} (h : Hunter Q) : Nat → Rec Q
  | 0 => h.b0
  | 1 => h.b1
  | 2 => h.b2
  | 3 => h.b3
  | _ => h.b4

/-- `get_next(records, 2)` and the constructor (src/satellites/jason3_quaternions.cpp:81-88,
105-123): a record that cannot be resolved returns `i*10`, which is 0 for the first one.
`none`: the constructor throws. -/
def construct {Q : Type} (e : Ext Q) (lines : List Line) (g : Hunter Q) : Option (Hunter Q) :=
  match getNext e (Stream.open lines) g.b0 with
  | (2, _, _) => none
  | (0, s1, r0) =>
    match getNext e s1 g.b1 with
    | (0, s2, r1) => some { g with s := s2, b0 := r0, b1 := r1 }
    | _ => none
  | (_, s1, r0) => some { g with s := s1, b0 := r0 }

/-- `left_shift` followed by the assignment of the last slot
(src/satellites/jason3_quaternions.hpp:69-77, src/satellites/jason3_quaternions.cpp:153-154). -/
def Hunter.push {Q : Type} (h : Hunter Q) (r : Rec Q) : Hunter Q :=
  { h with b0 := h.b1, b1 := h.b2, b2 := h.b3, b3 := h.b4, b4 := r }

/-- Whether `t` lies between the records `i` and `i+1`. -/
def Hunter.between {Q : Type} (h : Hunter Q) (t : ℚ) (i : Nat) : Bool :=
  decide ((h.at i).mjd ≤ t) && decide (t < (h.at (i + 1)).mjd)

/-- `find_interval` (src/satellites/jason3_quaternions.hpp:79-95). -/
def Hunter.findInterval {Q : Type} (h : Hunter Q) (t : ℚ) : Int :=
  if h.between t 3 then 3
  else if h.between t 2 then 2
  else if h.between t 1 then 1
  else if h.between t 0 then 0
  else if t < h.b0.mjd then -1
  else if h.b4.mjd ≤ t then 6
  else -100

/-- The do-while loop (src/satellites/jason3_quaternions.cpp:173-181): error status, hunter.  The
first argument bounds the number of lines that can still be read. -/
def searchLoop {Q : Type} (e : Ext Q) (t : ℚ) : Nat → Hunter Q → Rec Q → Nat × Hunter Q
  | 0, h, _ => (2, h)
  | n + 1, h, tmp =>
    let (err, s, tmp') := getNext e h.s tmp
    let h' := { h.push tmp' with s := s }
    if err = 0 ∧ ¬ h'.between t 3 = true then searchLoop e t n h' tmp' else (err, h')

/-- How `set_at` ends. -/
inductive Out (Q : Type) where
  /-- `assert(index >= 0)` (src/satellites/jason3_quaternions.cpp:129) fails -/
  | abort
  | ret (status : Nat) (index : Nat) (h : Hunter Q)

/-- `set_at` (src/satellites/jason3_quaternions.cpp:125-193).  `tmp0` is the uninitialised local
record. -/
def setAt {Q : Type} (e : Ext Q) (tmp0 : Rec Q) (h : Hunter Q) (t : ℚ) : Out Q :=
  let idx := h.findInterval t
  if idx < 0 then .abort
  else if idx < 5 then .ret 0 idx.toNat h
  else
    match getNext e h.s tmp0 with
    | (0, s, tmp) =>
      if h.b4.mjd ≤ t ∧ t < tmp.mjd then .ret 0 3 { h.push tmp with s := s }
      else if t < h.b0.mjd then .ret 1 idx.toNat { h with s := s }
      else
        let h1 := { h.push tmp with s := s }
        let (err, h2) := searchLoop e t (s.lines.length + 1) h1 tmp
        .ret err (if err = 0 then 3 else idx.toNat) h2
    | (_, s, _) => .ret 1 idx.toNat { h with s := s }

/-- The interpolation parameter (src/satellites/jason3_quaternions.cpp:214-216). -/
def slerpParam {Q : Type} (h : Hunter Q) (t : ℚ) (i : Nat) : ℚ :=
  (t - (h.at i).mjd) / ((h.at (i + 1)).mjd - (h.at i).mjd)

/-- `get_at` (src/satellites/jason3_quaternions.cpp:195-225): quaternion (before `normalize`) and
hunter; `none` on status 99 or abort. -/
def getAt {Q : Type} (e : Ext Q) (tmp0 : Rec Q) (h : Hunter Q) (t : ℚ) : Option (Q × Hunter Q) :=
  match setAt e tmp0 h t with
  | .ret 0 i h' => some (e.slerp (slerpParam h' t i) (h'.at i).q (h'.at (i + 1)).q, h')
  | _ => none

end Verif.Attitude
