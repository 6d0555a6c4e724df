import Verif.Rinex.Stream
import Mathlib.Algebra.Order.Field.Rat

/-
Model of the beacon table reader: src/beacon_tbl.hpp, src/beacon_tbl/beacon_tbl.cpp.

Dates are integers (nanoseconds), heights are rationals.  Date and number parsing are parameters.
-/
namespace Verif.BeaconTable
open Verif.Rinex

/-- External functions. -/
structure Ext where
  /-- `dso::strptime_ymd_hms`; `none`: it throws -/
  strptime : List Char → Option Int
  /-- `strtod`; `none`: no conversion; the flag says that `errno` was set to `ERANGE` -/
  strtod : List Char → Option (Rat × Bool)
  /-- contents of the uninitialised line buffer -/
  junk : Buf

/-- `BeaconInformationTableEntry` (src/beacon_tbl.hpp:11-26). -/
structure Entry where
  name : List Char
  height : Rat
  from' : Int
  to' : Int
deriving DecidableEq, Repr

/-- Outcome of `load_to_memmory`. -/
inductive Outcome where
  /-- an exception leaves the function -/
  | throws
  | ok (v : List Entry)
deriving DecidableEq, Repr

/-- Fields of the current buffer (src/beacon_tbl/beacon_tbl.cpp:22-32).  `errno` tells whether
`errno` was already different from zero: it is tested but never reset. -/
def parseLine (e : Ext) (errno : Bool) (b : Buf) : Option Entry :=
  match e.strptime (cstr b 5) with
  | none => none
  | some f =>
    match e.strptime (cstr b 24) with
    | none => none
    | some t =>
      match e.strtod (cstr b 45) with
      | none => none
      | some (h, er) => if errno || er then none else some ⟨b.take 4, h, f, t⟩

/-- The record loop (src/beacon_tbl/beacon_tbl.cpp:21-36).  The first argument bounds the number
of lines that can still be read. -/
def loop (e : Ext) (errno : Bool) (t : Int) : Nat → Stream → Buf → List Entry → Outcome
  | 0, _, _, v => .ok v
  | n + 1, s, b, v =>
    if (getline 256 s b).1.fail = true then .ok v
    else
      match parseLine e errno (getline 256 s b).2 with
      | none => .throws
      | some r =>
        loop e errno t n (getline 256 s b).1 (getline 256 s b).2
          (if t ≥ r.from' ∧ t < r.to' then v ++ [r] else v)

/-- `load_to_memmory(t)` (src/beacon_tbl/beacon_tbl.cpp:4-39); `file = none`: the file cannot be
opened. -/
def load (e : Ext) (errno : Bool) (t : Int) (file : Option (List Line)) : Outcome :=
  match file with
  | none => .throws
  | some lines =>
    loop e errno t (lines.length + 1) (getline 256 (Stream.open lines) e.junk).1
      (getline 256 (Stream.open lines) e.junk).2 []

end Verif.BeaconTable
