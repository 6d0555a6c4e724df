import Mathlib.Algebra.Ring.Nat
import Mathlib.Algebra.Ring.Defs

/-
Model of src/factorial.hpp.  The element type `T` is any commutative semiring: `ℚ`/`ℝ` for
the floating-point instantiations (without rounding), `ZMod (2^64)` or `BitVec 64` for the
wrap-around of `unsigned long`.
-/
namespace Verif.Factorial

variable (T : Type) [CommSemiring T]

/-- The constructor of `FactorialLookUpTable<T, N>` (src/factorial.hpp:5-8): `table[0]` and
`table[1]` are 1, then `table[i] = table[i-1] * i` for `i = 2 .. N`.  The list is the content
of `table[0 .. N]`, built in loop order; `k` loop passes have been done. -/
def tableLoop : Nat → List T
  | 0 => [1, 1]
  | k + 1 =>
    let t := tableLoop k
    t ++ [(t.getLastD 0) * ((k + 2 : Nat) : T)]

/-- `FactorialLookUpTable<T, N>::table` for `N ≥ 1` (for `N = 0` the initializer has too many
elements and the C++ does not compile). -/
def table (N : Nat) : List T := tableLoop T (N - 1)

/-- `factorial(i)` (src/factorial.hpp:10-12); `none`: index outside the table. -/
def factorial (N i : Nat) : Option T := (table T N)[i]?

/-- Boolean as C++ `int`. -/
def b2i (b : Bool) : Int := if b then 1 else 0

/-- `maxInt` (src/factorial.hpp:19-20, 31-32). -/
def maxInt (n d : Int) : Int := n * b2i (n ≥ d) + d * b2i (d > n)

/-- `minInt` (src/factorial.hpp:21-22, 33-34). -/
def minInt (n d : Int) : Int := n * b2i (n ≤ d) + d * b2i (d < n)

/-- The product loop `for (i = lo + 1; i <= hi; i++) fact *= i` (src/factorial.hpp:24-26,
36-38), run for `k` passes starting after `lo`. -/
def ratioLoop (T : Type) [CommRing T] (lo : Int) : Nat → T
  | 0 => 1
  | k + 1 => ratioLoop T lo k * (((lo + (k + 1 : Nat)) : Int) : T)

/-- `factorialRatio` (both overloads, src/factorial.hpp:17-39). -/
def factorialRatio (T : Type) [CommRing T] (n d : Int) : T :=
  ratioLoop T (minInt n d) (maxInt n d - minInt n d).toNat

end Verif.Factorial
