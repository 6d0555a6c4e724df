import Verif.Factorial.Model
import Mathlib.Data.Nat.Factorial.Basic
import Mathlib.Data.Nat.Cast.Basic
import Mathlib.Algebra.Field.Basic
import Mathlib.Algebra.CharZero.Defs
import Mathlib.Data.ZMod.Defs
import Mathlib.Data.Rat.Cast.CharZero
import Mathlib.Tactic.Push
import Mathlib.Tactic.Ring
import Mathlib.Tactic.NormNum

/-! C08: factorial table and factorial ratio. -/
namespace Verif.Factorial

theorem tableLoop_eq (T : Type) [CommSemiring T] (k : Nat) :
    tableLoop T k = (List.range (k + 2)).map fun i => ((Nat.factorial i : Nat) : T) := by
  induction k with
  | zero => simp [tableLoop, List.range_succ, Nat.factorial]
  | succ k ih =>
    rw [tableLoop, ih, List.range_succ (n := k + 2), List.map_append]
    congr 1
    rw [List.range_succ (n := k + 1), List.map_append]
    simp [Nat.factorial]
    ring

/-- **C08 (a)** For every table size `N ≥ 1` and every index `i ≤ N`, the table entry is `i!`
(in the element type), and there is no entry beyond `N`. -/
theorem factorial_eq (T : Type) [CommSemiring T] (N i : Nat) (hN : 1 ≤ N) :
    factorial T N i = if i ≤ N then some ((Nat.factorial i : Nat) : T) else none := by
  unfold factorial table
  rw [tableLoop_eq, List.getElem?_map]
  split
  · rw [List.getElem?_range (by omega)]; rfl
  · rw [List.getElem?_eq_none (by simp; omega)]; rfl

theorem maxInt_eq (n d : Int) : maxInt n d = max n d := by
  unfold maxInt b2i
  rcases lt_or_ge n d with h | h
  · simp [h, not_le.2 h, max_eq_right h.le]
  · simp [h, not_lt.2 h]

theorem minInt_eq (n d : Int) (h : n ≠ d) : minInt n d = min n d := by
  unfold minInt b2i
  rcases lt_or_ge n d with h' | h'
  · simp [h'.le, not_lt.2 h'.le]
  · have : d < n := lt_of_le_of_ne h' (Ne.symm h)
    simp [this, not_le.2 this, min_eq_right h']

theorem minInt_self (n : Int) : minInt n n = n := by simp [minInt, b2i]

theorem minInt_eq' (n d : Int) : minInt n d = min n d := by
  by_cases h : n = d
  · subst h; rw [minInt_self, min_self]
  · exact minInt_eq n d h

theorem ratioLoop_mul (T : Type) [CommRing T] (lo k : Nat) :
    ratioLoop T (lo : Int) k * ((Nat.factorial lo : Nat) : T) = ((Nat.factorial (lo + k) : Nat) : T) := by
  induction k with
  | zero => simp [ratioLoop]
  | succ k ih =>
    rw [ratioLoop, mul_right_comm, ih, ← Nat.add_assoc, Nat.factorial_succ]
    push_cast
    ring

/-- **C08 (b)** For all `n ≥ d ≥ 0`, `factorialRatio(n, d) * d! = n!` in every commutative
ring (in particular modulo 2^64). -/
theorem factorialRatio_mul (T : Type) [CommRing T] (n d : Nat) (h : d ≤ n) :
    factorialRatio T n d * ((Nat.factorial d : Nat) : T) = ((Nat.factorial n : Nat) : T) := by
  unfold factorialRatio
  have h' : (d : Int) ≤ n := by exact_mod_cast h
  rw [maxInt_eq, minInt_eq', max_eq_left h', min_eq_right h']
  have : ((n : Int) - d).toNat = n - d := by omega
  rw [this, ratioLoop_mul]
  congr 2; omega

/-- **C08 (c)** Over a field of characteristic zero: `factorialRatio(n, d) = n!/d!`. -/
theorem factorialRatio_eq_div (T : Type) [Field T] [CharZero T] (n d : Nat) (h : d ≤ n) :
    factorialRatio T n d = ((Nat.factorial n : Nat) : T) / ((Nat.factorial d : Nat) : T) := by
  rw [eq_div_iff (by exact_mod_cast Nat.factorial_ne_zero d)]
  exact factorialRatio_mul T n d h

/-- The function is symmetric in its arguments … -/
theorem factorialRatio_comm (T : Type) [CommRing T] (n d : Int) :
    factorialRatio T n d = factorialRatio T d n := by
  unfold factorialRatio
  rw [maxInt_eq, maxInt_eq, minInt_eq', minInt_eq', max_comm, min_comm]

/-- … so for `n < d` it returns `d!/n!`, not the documented `n!/d!`. -/
theorem factorialRatio_lt_counterexample :
    factorialRatio ℚ 2 3 ≠ ((Nat.factorial 2 : Nat) : ℚ) / ((Nat.factorial 3 : Nat) : ℚ) := by
  rw [factorialRatio_comm, show (3 : Int) = ((3 : Nat) : Int) from rfl,
    show (2 : Int) = ((2 : Nat) : Int) from rfl, factorialRatio_eq_div ℚ 3 2 (by decide)]
  norm_num [Nat.factorial]

/-- In a wrapping 64-bit unsigned type the table is exact up to 20! and wrong at 21!. -/
theorem factorial_wrap :
    (Nat.factorial 20 < 2 ^ 64) ∧ ¬ (Nat.factorial 21 < 2 ^ 64) := by decide

example : factorial ℕ 5 4 = some 24 := by rw [factorial_eq ℕ 5 4 (by decide)]; rfl
example : factorialRatio ℚ 5 3 = 20 := by
  have := factorialRatio_eq_div ℚ 5 3 (by decide)
  rw [show (5 : Int) = ((5 : Nat) : Int) from rfl, show (3 : Int) = ((3 : Nat) : Int) from rfl, this]
  norm_num [Nat.factorial]

end Verif.Factorial
