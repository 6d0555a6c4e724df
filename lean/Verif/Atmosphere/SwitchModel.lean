import Mathlib.Data.Rat.Floor

/-
Model of the switch array of the atmosphere model: src/atmosphere/nrlmsise00.hpp:71-130 (`Switches`)
and the `InParamsCore` members acting on it (lines 212, 224, 227, 233).

The entries of the two arrays are `double`s that only ever receive small integers; they are modelled
as integers.  An index outside the array is undefined behaviour (the check is compiled in only under
`DEBUG`) and is modelled as `none`.
-/
namespace Verif.Atmosphere.Switches

/-- `Switches::dim` (src/atmosphere/nrlmsise00.hpp:72). -/
def dim : ℕ := 25

/-- The two arrays (src/atmosphere/nrlmsise00.hpp:73-74). -/
structure Sw where
  sw : Fin dim → ℤ
  swc : Fin dim → ℤ

/-- `sw[index] = a; swc[index] = b`, undefined outside the array. -/
def write (s : Sw) (i : ℤ) (a b : ℤ) : Option Sw :=
  if 0 ≤ i ∧ i < dim then
    some ⟨fun j => if (j : ℤ) = i then a else s.sw j, fun j => if (j : ℤ) = i then b else s.swc j⟩
  else none

/-- `set_switch(int, int)` (src/atmosphere/nrlmsise00.hpp:85-91).  `%` truncates towards zero. -/
def setSwitch (s : Sw) (i v : ℤ) : Option Sw :=
  write s i (v.tmod 2) (if v = 1 ∨ v = 2 then 1 else 0)

/-- `set_null` (src/atmosphere/nrlmsise00.hpp:96-109). -/
def setNull (s : Sw) (i : ℤ) : Option Sw :=
  if i < 0 then some ⟨fun _ => 0, fun _ => 0⟩ else write s i 0 0

/-- `set_on` (src/atmosphere/nrlmsise00.hpp:114-129). -/
def setOn (s : Sw) (i : ℤ) : Option Sw :=
  if i < 0 then some ⟨fun _ => 1, fun _ => 1⟩ else write s i 1 1

/-- The constructor (src/atmosphere/nrlmsise00.hpp:77): `set_on(-1)` on zeroed arrays. -/
def init : Option Sw := setOn ⟨fun _ => 0, fun _ => 0⟩ (-1)

/-- Conversion of a `double` to `int`: truncation, undefined outside the range of `int`. -/
def toInt (q : ℚ) : Option ℤ :=
  let t : ℤ := if 0 ≤ q then ⌊q⌋ else ⌈q⌉
  if -(2 ^ 31) ≤ t ∧ t < 2 ^ 31 then some t else none

/-- The calls a client can make on an `InParamsCore` that touch the switches
(src/atmosphere/nrlmsise00.hpp:212, 224, 227, 233 and the members of `Switches`). -/
inductive Op
  | set (i v : ℤ)
  | setD (i : ℤ) (v : ℚ)
  | null (i : ℤ)
  | on (i : ℤ)
  | useAp
  | allOff
  | allOn

def step (s : Sw) : Op → Option Sw
  | .set i v => setSwitch s i v
  | .setD i v => (toInt v).bind (setSwitch s i)
  | .null i => setNull s i
  | .on i => setOn s i
  | .useAp => setSwitch s 8 (-1)
  | .allOff => setNull s (-1)
  | .allOn => setOn s (-1)

/-- A sequence of calls on a new object. -/
def run (ops : List Op) : Option Sw := init.bind (fun s => ops.foldlM step s)

end Verif.Atmosphere.Switches
