import Mathlib.Algebra.Order.Field.Rat

/-
Model of var/flags.cc and var/compound_measurement.cc.  `uint_fast16_t` and `uint_fast32_t` have 64 bits (glibc,
x86-64), `int_fast8_t` has 8; doubles are rationals; random numbers are arguments.
-/
namespace Verif.Var

/-! ### var/flags.cc -/

/-- `Sp3Event` (var/flags.cc:8-21): the number of the event. -/
abbrev Event := Fin 12

/-- `1 << e`, converted to the type of the flag. -/
def bit (e : Event) : BitVec 64 := (1#64) <<< e.val

/-- `operator|` of two events (var/flags.cc:30-37). -/
def orEvents (e1 e2 : Event) : BitVec 64 := 0#64 ||| bit e1 ||| bit e2

/-- `operator|` of a combination and an event (var/flags.cc:39-47). -/
def orWrapper (w : BitVec 64) (e : Event) : BitVec 64 := w ||| bit e

/-- The expression `e1 | e2 | … | en` (var/flags.cc:91), from the left. -/
def combination (e1 e2 : Event) (rest : List Event) : BitVec 64 := rest.foldl orWrapper (orEvents e1 e2)

/-- `Sp3Flag::set` of an event (var/flags.cc:58-61). -/
def setEvent (f : BitVec 64) (e : Event) : BitVec 64 := f ||| bit e

/-- `Sp3Flag::set` of a combination (var/flags.cc:62-64). -/
def setWrapper (_f w : BitVec 64) : BitVec 64 := w

/-- `Sp3Flag::clear` (var/flags.cc:66-68). -/
def clearEvent (f : BitVec 64) (e : Event) : BitVec 64 := f &&& ~~~(bit e)

/-- `Sp3Flag::reset` (var/flags.cc:70). -/
def resetFlag (_f : BitVec 64) : BitVec 64 := 0#64

/-- `Sp3Flag::is_set` (var/flags.cc:72-74). -/
def isSet (f : BitVec 64) (e : Event) : Bool := ((f >>> e.val) &&& 1#64) != 0#64

/-- `Sp3Flag::is_clean` (var/flags.cc:76). -/
def isClean (f : BitVec 64) : Bool := f == 0#64

/-! ### var/compound_measurement.cc -/

/-- `Flag::get_flag1` (var/compound_measurement.cc:78-80). -/
def getFlag1 (f : Nat) : Nat := f &&& 0xFF

/-- `Flag::get_flag2` (var/compound_measurement.cc:81-83). -/
def getFlag2 (f : Nat) : Nat := (f >>> 8) &&& 0xFF

/-- `Flag::get_missing` (var/compound_measurement.cc:84-86). -/
def getMissing (f : Nat) : Nat := (f >>> 16) &&& 0xFF

/-- `Flag::set_flag1` (var/compound_measurement.cc:87-90). -/
def setFlag1 (f v : Nat) : Nat := (0 <<< 24) ||| (getMissing f <<< 16) ||| (getFlag2 f <<< 8) ||| v

/-- `Flag::set_flag2` (var/compound_measurement.cc:91-94). -/
def setFlag2 (f v : Nat) : Nat := (0 <<< 24) ||| (getMissing f <<< 16) ||| (v <<< 8) ||| getFlag1 f

/-- `Flag::set_missing` (var/compound_measurement.cc:95-98). -/
def setMissing (f v : Nat) : Nat := (0 <<< 24) ||| (v <<< 16) ||| (getFlag2 f <<< 8) ||| getFlag1 f

/-- `MISSING`, the least positive normal double (var/compound_measurement.cc:8). -/
def MISSING : ℚ := 1 / 2 ^ 1022

/-- An `int_fast8_t` from a number of 0 to 255 (var/compound_measurement.cc:29-30, 70-71). -/
def toInt8 (n : Nat) : Int := (n : Int).bmod 256

/-- The choice of the result by the flags (var/compound_measurement.cc:37-43, 56-62, 108-114). -/
def byFlags (val : ℚ) (f1 f2 : Int) : ℚ := if f1 > 16 then val + 1000 else if f2 < 16 then val - 1 / 1000 else val / 1000

/-- A measurement made of random numbers: value, missing or not, two flags of 0 to 255. -/
structure Meas where
  val : ℚ
  missing : Bool
  f1 : Nat
  f2 : Nat

/-- `rand_m1` and `foo1` of it (var/compound_measurement.cc:23-45). -/
def version1 (m : Meas) : ℚ :=
  if (if m.missing then 1 else 0) ≠ 0 then -99999 / 100 else byFlags m.val (toInt8 m.f1) (toInt8 m.f2)

/-- `rand_m2` and `foo1` of it (var/compound_measurement.cc:52-73). -/
def version2 (m : Meas) : ℚ :=
  let val := if m.missing then MISSING else m.val
  if val = MISSING then -99999 / 100 else byFlags val (toInt8 m.f1) (toInt8 m.f2)

/-- `rand_m3` (var/compound_measurement.cc:117-125): the flag. -/
def flag3 (m : Meas) : Nat := setFlag2 (setFlag1 (if m.missing then setMissing 0 1 else 0) m.f1) m.f2

/-- `foo1` of it (var/compound_measurement.cc:104-116). -/
def version3 (m : Meas) : ℚ :=
  if getMissing (flag3 m) ≠ 0 then -99999 / 100 else byFlags m.val (getFlag1 (flag3 m)) (getFlag2 (flag3 m))

/-- The missing measurements of `n` calls (var/compound_measurement.cc:24, 28, 66, 69, 118, 121): the counter before
and a list of the marks, and the counter after. -/
def marks : Nat → Nat → List Bool × Nat
  | 0, counter => ([], counter)
  | n + 1, counter =>
    let counter := counter + 1
    let (rest, last) := marks n counter
    ((counter / 33 == 0) :: rest, last)

/-- A pass of the loop of the main program (var/compound_measurement.cc:157-186), with `n` calls each: the marks of the
three versions. -/
def round (n counter : Nat) : (List Bool × List Bool × List Bool) × Nat :=
  let (m1, _) := marks n counter
  let (m2, _) := marks n 0
  let (m3, last) := marks n 0
  ((m1, m2, m3), last)

/-- The loop (var/compound_measurement.cc:157). -/
def rounds (n : Nat) : Nat → Nat → List (List Bool × List Bool × List Bool)
  | 0, _ => []
  | k + 1, counter =>
    let (r, last) := round n counter
    r :: rounds n k last

end Verif.Var
