/-
Model of `EnumBitset<FlagEnum>` (src/enum_bitset.hpp).

The underlying integer type `ft` (src/enum_bitset.hpp:16) is modelled as a bit vector of
arbitrary width `w`.  The C++ integer promotions in `|=`, `&=`, `&` (lines 35, 42, 49, 58)
widen and narrow again; on the `w` low bits they are the bitwise operations used here, and
the conversion of `_f & f` to `bool` is the test against zero.
-/
namespace Verif.EnumBitset

/-- The single data member `_f` (src/enum_bitset.hpp:19). -/
structure FlagSet (w : Nat) where
  bits : BitVec w
deriving DecidableEq, Repr

namespace FlagSet
variable {w : Nat}

/-- Default constructor (src/enum_bitset.hpp:23). -/
def empty : FlagSet w := ⟨0⟩

/-- Constructor from one enumerator (src/enum_bitset.hpp:28). -/
def ofFlag (f : BitVec w) : FlagSet w := ⟨f⟩

/-- Constructor from an initializer list (src/enum_bitset.hpp:33-37): the member starts at
zero and each listed enumerator is or-ed in, in list order. -/
def ofList (fs : List (BitVec w)) : FlagSet w :=
  ⟨fs.foldl (fun acc f => acc ||| f) 0⟩

/-- `set` (src/enum_bitset.hpp:41-44). -/
def set (s : FlagSet w) (f : BitVec w) : FlagSet w := ⟨s.bits ||| f⟩

/-- `clear(f)` (src/enum_bitset.hpp:48-51). -/
def clear (s : FlagSet w) (f : BitVec w) : FlagSet w := ⟨s.bits &&& ~~~f⟩

/-- `clear()` (src/enum_bitset.hpp:54). -/
def clearAll (_ : FlagSet w) : FlagSet w := ⟨0⟩

/-- `check` (src/enum_bitset.hpp:58). -/
def check (s : FlagSet w) (f : BitVec w) : Bool := s.bits &&& f != 0

/-- `is_clean` (src/enum_bitset.hpp:61). -/
def isClean (s : FlagSet w) : Bool := s.bits == 0

/-- `operator==` (src/enum_bitset.hpp:64). -/
def eq (s t : FlagSet w) : Bool := s.bits == t.bits

/-- `operator!=` (src/enum_bitset.hpp:67-69). -/
def ne (s t : FlagSet w) : Bool := !(s.eq t)

end FlagSet

/-- A mutating call a client can make, on enumerators of type `E`. -/
inductive Op (E : Type) where
  | set (e : E)
  | clear (e : E)
  | clearAll

/-- Effect of one call, given the integer value `val` of each enumerator
(the `static_cast<ft>(f)` of lines 42 and 49). -/
def step {w : Nat} {E : Type} (val : E → BitVec w) (s : FlagSet w) : Op E → FlagSet w
  | .set e => s.set (val e)
  | .clear e => s.clear (val e)
  | .clearAll => s.clearAll

/-- A history of calls on an initially empty flag set. -/
def run {w : Nat} {E : Type} (val : E → BitVec w) (ops : List (Op E)) : FlagSet w :=
  ops.foldl (step val) FlagSet.empty

end Verif.EnumBitset
