import Mathlib.Algebra.Order.Round
import Mathlib.Data.Int.Log
import Mathlib.Tactic.Linarith
import Mathlib.Tactic.Ring
import Mathlib.Tactic.NormNum
import Mathlib.Tactic.Positivity
import Mathlib.Tactic.FieldSimp
import Mathlib.Tactic.ByContra
import Mathlib.Algebra.Order.Field.Power

/-!
# Double-precision numbers

The other modules compute with exact numbers.  Here `double` is the IEEE 754 format *binary64*:
53 binary digits, least exponent -1074 (subnormal numbers included).  Not modelled: infinities,
NaN and overflow, that is, the format here has no largest number; results are only used where
they stay far below `2^1024`.

`Nearest rnd` says that `rnd` gives a nearest double.  It is what the standard requires of each
of `+ - * /`, of the square root and of conversions from decimal text in the default rounding
mode; which of two equally near doubles is taken is left open, so the theorems hold for either.
`rnd64` is the rounding with ties to even and shows that there is such a function.
-/

namespace Verif.Float

variable {K : Type} [Field K] [LinearOrder K] [IsStrictOrderedRing K]

/-- The numbers of the format: an integer of at most 53 binary digits times a power of two. -/
def IsDouble (x : K) : Prop := ∃ m e : ℤ, |m| < 2 ^ 53 ∧ -1074 ≤ e ∧ x = m * 2 ^ e

/-- Rounding to a nearest double. -/
structure Nearest (rnd : K → K) : Prop where
  /-- the result is a double -/
  mem : ∀ x, IsDouble (rnd x)
  /-- no double is nearer -/
  near : ∀ x y, IsDouble y → |rnd x - x| ≤ |y - x|

/-! ## Doubles -/

omit [LinearOrder K] [IsStrictOrderedRing K] in
theorem IsDouble.neg {x : K} (h : IsDouble x) : IsDouble (-x) := by
  obtain ⟨m, e, hm, he, rfl⟩ := h
  exact ⟨-m, e, by simpa using hm, he, by push_cast; ring⟩

/-- 53 digits, the last one included: `2^53` itself is a double as well. -/
theorem isDouble_of_le (m e : ℤ) (hm : |m| ≤ 2 ^ 53) (he : -1074 ≤ e) :
    IsDouble ((m : K) * 2 ^ e) := by
  rcases lt_or_eq_of_le hm with h | h
  · exact ⟨m, e, h, he, rfl⟩
  · have h2 : (2 : K) ^ (e + 1) = 2 * 2 ^ e := by
      rw [zpow_add₀ (by norm_num)]; ring
    rcases abs_eq (by norm_num : (0 : ℤ) ≤ 2 ^ 53) |>.1 h with h | h
    · refine ⟨2 ^ 52, e + 1, by norm_num, by omega, ?_⟩
      rw [h, h2]; push_cast; ring
    · refine ⟨-2 ^ 52, e + 1, by norm_num, by omega, ?_⟩
      rw [h, h2]; push_cast; ring

/-- Integers up to `2^53` are doubles. -/
theorem isDouble_int (m : ℤ) (hm : |m| ≤ 2 ^ 53) : IsDouble (m : K) := by
  have := isDouble_of_le (K := K) m 0 hm (by norm_num)
  simpa using this

theorem isDouble_zero : IsDouble (0 : K) := by
  have := isDouble_int (K := K) 0 (by norm_num)
  simpa using this

/-- Multiples of `2^e` below `2^(e+53)` are doubles. -/
theorem isDouble_multiple {x : K} (m e : ℤ) (he : -1074 ≤ e) (hx : x = m * 2 ^ e)
    (hb : |x| ≤ 2 ^ (e + 53)) : IsDouble x := by
  rw [hx]
  refine isDouble_of_le m e ?_ he
  rw [hx, abs_mul, abs_of_pos (zpow_pos (by norm_num : (0 : K) < 2) e),
    zpow_add₀ (by norm_num), mul_comm] at hb
  have h := le_of_mul_le_mul_left hb (zpow_pos (by norm_num : (0 : K) < 2) e)
  rw [show (2 : K) ^ (53 : ℤ) = ((2 ^ 53 : ℤ) : K) by norm_cast, ← Int.cast_abs] at h
  exact Int.cast_le.1 h

/-- A double times a power of two is a double, unless the result is too small. -/
theorem IsDouble.scale {x : K} (h : IsDouble x) (k : ℕ) : IsDouble (x * 2 ^ k) := by
  obtain ⟨m, e, hm, he, rfl⟩ := h
  refine ⟨m, e + k, hm, by omega, ?_⟩
  rw [zpow_add₀ (by norm_num), zpow_natCast]; ring

/-! ## Consequences of nearness -/

variable {rnd : K → K}

/-- Doubles are not changed. -/
theorem Nearest.exact (h : Nearest rnd) {x : K} (hx : IsDouble x) : rnd x = x := by
  have := h.near x x hx
  rw [sub_self, abs_zero] at this
  exact sub_eq_zero.1 (abs_nonpos_iff.1 this)

theorem Nearest.zero (h : Nearest rnd) : rnd 0 = 0 := h.exact isDouble_zero

/-- Rounding keeps the order. -/
theorem Nearest.mono (h : Nearest rnd) {x y : K} (hxy : x ≤ y) : rnd x ≤ rnd y := by
  by_contra hc
  push Not at hc
  have h1 := h.near x (rnd y) (h.mem y)
  have h2 := h.near y (rnd x) (h.mem x)
  rcases eq_or_lt_of_le hxy with e | hlt
  · rw [e] at hc; exact lt_irrefl _ hc
  have a1 : rnd x + rnd y ≤ 2 * x := by
    rcases abs_cases (rnd x - x) with ⟨e1, _⟩ | ⟨e1, _⟩ <;>
      rcases abs_cases (rnd y - x) with ⟨e2, _⟩ | ⟨e2, _⟩ <;> rw [e1, e2] at h1 <;> linarith
  have a2 : 2 * y ≤ rnd x + rnd y := by
    rcases abs_cases (rnd y - y) with ⟨e1, _⟩ | ⟨e1, _⟩ <;>
      rcases abs_cases (rnd x - y) with ⟨e2, _⟩ | ⟨e2, _⟩ <;> rw [e1, e2] at h2 <;> linarith
  linarith

/-- A result never passes a double that the exact value does not pass. -/
theorem Nearest.le_of_le (h : Nearest rnd) {x b : K} (hb : IsDouble b) (hx : x ≤ b) :
    rnd x ≤ b := by
  have := h.mono hx
  rwa [h.exact hb] at this

theorem Nearest.ge_of_ge (h : Nearest rnd) {x b : K} (hb : IsDouble b) (hx : b ≤ x) :
    b ≤ rnd x := by
  have := h.mono hx
  rwa [h.exact hb] at this

theorem Nearest.nonneg (h : Nearest rnd) {x : K} (hx : 0 ≤ x) : 0 ≤ rnd x :=
  h.ge_of_ge isDouble_zero hx

theorem Nearest.nonpos (h : Nearest rnd) {x : K} (hx : x ≤ 0) : rnd x ≤ 0 :=
  h.le_of_le isDouble_zero hx

/-- A double nearer than half the gap to every other double is the result: if `x` is closer to
`m * 2^e` than `2^(e-1)` and has the size of numbers with gap `2^e`, it is rounded to it. -/
theorem Nearest.eq_of_close (h : Nearest rnd) {x : K} (m e : ℤ) (he : -1074 ≤ e)
    (hm : 2 ^ 52 < |m|) (hm' : |m| < 2 ^ 53) (hx : |(m : K) * 2 ^ e - x| < 2 ^ e / 2) :
    rnd x = m * 2 ^ e := by
  have hp : (0 : K) < 2 ^ e := zpow_pos (by norm_num) e
  have hd : IsDouble ((m : K) * 2 ^ e) := ⟨m, e, hm', he, rfl⟩
  have h1 := h.near x _ hd
  obtain ⟨m', e', hm2, he2, hr⟩ := h.mem x
  have hclose : |rnd x - (m : K) * 2 ^ e| < 2 ^ e := by
    have : rnd x - (m : K) * 2 ^ e = (rnd x - x) - ((m : K) * 2 ^ e - x) := by ring
    rw [this]
    calc _ ≤ |rnd x - x| + |(m : K) * 2 ^ e - x| := abs_sub _ _
      _ < 2 ^ e := by linarith
  by_cases hee : e ≤ e'
  · -- both are multiples of `2^e`
    obtain ⟨k, rfl⟩ : ∃ k : ℕ, e' = e + k := ⟨(e' - e).toNat, by omega⟩
    have hz : rnd x - (m : K) * 2 ^ e = ((m' * 2 ^ k - m : ℤ) : K) * 2 ^ e := by
      rw [hr, zpow_add₀ (by norm_num), zpow_natCast]; push_cast; ring
    rw [hz, abs_mul, abs_of_pos hp] at hclose
    have h3 : |((m' * 2 ^ k - m : ℤ) : K)| < 1 := by
      by_contra hc
      push Not at hc
      have := mul_le_mul_of_nonneg_right hc hp.le
      linarith
    have h4 : |m' * 2 ^ k - m| < 1 := by
      rw [← Int.cast_abs] at h3; exact_mod_cast h3
    have h5 : m' * 2 ^ k - m = 0 := Int.abs_lt_one_iff.1 h4
    rw [h5] at hz
    simpa [sub_eq_zero] using hz
  · -- a number with a smaller exponent is too small
    exfalso
    push Not at hee
    have hsm : |rnd x| < 2 ^ 52 * 2 ^ e := by
      rw [hr, abs_mul, abs_of_pos (zpow_pos (by norm_num : (0 : K) < 2) e')]
      have h6 : ((|m'| : ℤ) : K) ≤ 2 ^ 53 - 1 := by
        have : |m'| ≤ 2 ^ 53 - 1 := by omega
        exact_mod_cast this
      have h7 : (2 : K) ^ e' ≤ 2 ^ (e - 1) := zpow_le_zpow_right₀ (by norm_num) (by omega)
      have h8 : (2 : K) ^ (e - 1) = 2 ^ e / 2 := by
        rw [zpow_sub₀ (by norm_num)]; norm_num
      rw [Int.cast_abs] at h6
      calc |(m' : K)| * 2 ^ e' ≤ (2 ^ 53 - 1) * 2 ^ (e - 1) :=
            mul_le_mul h6 h7 (zpow_pos (by norm_num) _).le (by norm_num)
        _ < 2 ^ 52 * 2 ^ e := by rw [h8]; linarith
    have hbig : (2 ^ 52 + 1) * 2 ^ e ≤ |(m : K) * 2 ^ e| := by
      rw [abs_mul, abs_of_pos hp]
      refine mul_le_mul_of_nonneg_right ?_ hp.le
      have : 2 ^ 52 + 1 ≤ |m| := by omega
      rw [← Int.cast_abs]
      exact_mod_cast this
    have h9 : |(m : K) * 2 ^ e| - |rnd x| ≤ |rnd x - (m : K) * 2 ^ e| := by
      rw [abs_sub_comm]; exact abs_sub_abs_le_abs_sub _ _
    linarith

section floor
variable [FloorRing K]

/-- Absolute error: below `2^(e+53)` the gap is at most `2^e`. -/
theorem Nearest.err (h : Nearest rnd) (e : ℤ) (he : -1074 ≤ e) {x : K}
    (hx : |x| ≤ 2 ^ (e + 53)) : |rnd x - x| ≤ 2 ^ e / 2 := by
  have hp : (0 : K) < 2 ^ e := zpow_pos (by norm_num) e
  set m := round (x / 2 ^ e) with hm
  have h1 : |(x / 2 ^ e) - m| ≤ 1 / 2 := abs_sub_round _
  have h2 : |(m : K) * 2 ^ e - x| ≤ 2 ^ e / 2 := by
    have : (m : K) * 2 ^ e - x = -((x / 2 ^ e) - m) * 2 ^ e := by
      field_simp; ring
    rw [this, abs_mul, abs_neg, abs_of_pos hp]
    have := mul_le_mul_of_nonneg_right h1 hp.le
    linarith
  have h3 : |m| ≤ 2 ^ 53 := by
    have h4 : |x / 2 ^ e| ≤ 2 ^ 53 := by
      rw [abs_div, abs_of_pos hp, div_le_iff₀ hp]
      rw [zpow_add₀ (by norm_num)] at hx
      rw [mul_comm]; exact_mod_cast hx
    rw [abs_le] at h4 h1
    have h5 : (m : K) < ((2 ^ 53 + 1 : ℤ) : K) := by push_cast; linarith [h4.2, h1.1]
    have h6 : ((-2 ^ 53 - 1 : ℤ) : K) < (m : K) := by push_cast; linarith [h4.1, h1.2]
    rw [abs_le]
    constructor
    · have := Int.cast_lt.1 h6; omega
    · have := Int.cast_lt.1 h5; omega
  exact (h.near x _ (isDouble_of_le m e h3 he)).trans h2

/-- Relative error `2^-53` for results that are not subnormal. -/
theorem Nearest.rel (h : Nearest rnd) {x : K} (hx : 2 ^ (-1022 : ℤ) ≤ |x|) :
    |rnd x - x| ≤ 2 ^ (-53 : ℤ) * |x| := by
  have hpos : 0 < |x| := lt_of_lt_of_le (zpow_pos (by norm_num) _) hx
  set k := Int.log 2 |x| with hk
  have h1 : (2 : K) ^ k ≤ |x| := by
    have := Int.zpow_log_le_self (R := K) (b := 2) (by norm_num) hpos
    exact_mod_cast this
  have h2 : |x| < (2 : K) ^ (k + 1) := by
    have := Int.lt_zpow_succ_log_self (R := K) (b := 2) (by norm_num) |x|
    exact_mod_cast this
  have h3 : -1022 ≤ k := by
    by_contra hc
    push Not at hc
    have : (2 : K) ^ (k + 1) ≤ 2 ^ (-1022 : ℤ) := zpow_le_zpow_right₀ (by norm_num) (by omega)
    linarith
  have h4 := h.err (k - 52) (by omega) (x := x)
    (by rw [show k - 52 + 53 = k + 1 by ring]; exact h2.le)
  refine h4.trans ?_
  have e1 : (2 : K) ^ (k - 52) / 2 = 2 ^ (-53 : ℤ) * 2 ^ k := by
    rw [zpow_sub₀ (by norm_num)]
    norm_num [zpow_neg]
    ring
  rw [e1]
  exact mul_le_mul_of_nonneg_left h1 (zpow_pos (by norm_num) _).le

/-- Zero aside, the relative error of any result that is not subnormal; and zero is exact. -/
theorem Nearest.rel' (h : Nearest rnd) {x : K} (hx : x = 0 ∨ 2 ^ (-1022 : ℤ) ≤ |x|) :
    |rnd x - x| ≤ 2 ^ (-53 : ℤ) * |x| := by
  rcases hx with rfl | hx
  · simp [h.zero]
  · exact h.rel hx

/-! ## There is such a rounding: ties to even -/

/-- Nearest integer, ties to even. -/
def tieEven (y : K) : ℤ :=
  if y - ⌊y⌋ < 1 / 2 then ⌊y⌋
  else if 1 / 2 < y - ⌊y⌋ then ⌊y⌋ + 1
  else if ⌊y⌋ % 2 = 0 then ⌊y⌋ else ⌊y⌋ + 1

theorem tieEven_near (y : K) (n : ℤ) : |(tieEven y : K) - y| ≤ |(n : K) - y| := by
  have hf := Int.floor_le y
  have hf' := Int.lt_floor_add_one y
  have key : (n : K) ≤ ⌊y⌋ ∨ (⌊y⌋ : K) + 1 ≤ n := by
    rcases le_or_gt n ⌊y⌋ with h | h
    · left; exact_mod_cast h
    · right
      have : ⌊y⌋ + 1 ≤ n := h
      exact_mod_cast this
  have low : ∀ t : ℤ, (t : K) = ⌊y⌋ → y - ⌊y⌋ ≤ 1 / 2 → |(t : K) - y| ≤ |(n : K) - y| := by
    intro t ht h
    rw [ht, abs_of_nonpos (by linarith)]
    rcases key with k | k
    · rw [abs_of_nonpos (by linarith)]; linarith
    · rw [abs_of_nonneg (by linarith)]; linarith
  have high : ∀ t : ℤ, (t : K) = ⌊y⌋ + 1 → 1 / 2 ≤ y - ⌊y⌋ → |(t : K) - y| ≤ |(n : K) - y| := by
    intro t ht h
    rw [ht, abs_of_nonneg (by linarith)]
    rcases key with k | k
    · rw [abs_of_nonpos (by linarith)]; linarith
    · rw [abs_of_nonneg (by linarith)]; linarith
  unfold tieEven
  split_ifs with h1 h2 h3
  · exact low _ rfl h1.le
  · exact high _ (by push_cast; ring) h2.le
  · exact low _ rfl (by linarith)
  · exact high _ (by push_cast; ring) (by linarith)

/-- The exponent of the last digit of the doubles around `x`. -/
def lastDigit (x : K) : ℤ := max (-1074) (Int.log 2 |x| - 52)

/-- binary64 rounding, ties to even (IEEE 754, default rounding mode). -/
def rnd64 (x : K) : K := tieEven (x / 2 ^ lastDigit x) * 2 ^ lastDigit x

theorem rnd64_nearest : Nearest (rnd64 : K → K) := by
  have key : ∀ x : K, IsDouble (rnd64 x) ∧ ∀ y, IsDouble y → |rnd64 x - x| ≤ |y - x| := by
    intro x
    set e := lastDigit x with he
    have hp : (0 : K) < 2 ^ e := zpow_pos (by norm_num) e
    have he1 : -1074 ≤ e := le_max_left _ _
    have hmult : ∀ n : ℤ, |rnd64 x - x| ≤ |(n : K) * 2 ^ e - x| := by
      intro n
      have h1 := tieEven_near (x / 2 ^ e) n
      have a : ∀ t : ℤ, (t : K) * 2 ^ e - x = ((t : K) - x / 2 ^ e) * 2 ^ e := by
        intro t; field_simp
      unfold rnd64
      rw [← he, a, a, abs_mul, abs_mul]
      exact mul_le_mul_of_nonneg_right h1 (abs_nonneg _)
    have hlog : |x| < 2 ^ (e + 53) := by
      have h1 : |x| < (2 : K) ^ (Int.log 2 |x| + 1) := by
        have := Int.lt_zpow_succ_log_self (R := K) (b := 2) (by norm_num) |x|
        exact_mod_cast this
      refine lt_of_lt_of_le h1 (zpow_le_zpow_right₀ (by norm_num) ?_)
      have : Int.log 2 |x| - 52 ≤ e := le_max_right _ _
      omega
    constructor
    · unfold rnd64
      rw [← he]
      refine isDouble_of_le _ _ ?_ he1
      have h1 := tieEven_near (x / 2 ^ e) (2 ^ 53)
      have h2 := tieEven_near (x / 2 ^ e) (-2 ^ 53)
      have h3 : |x / 2 ^ e| < 2 ^ 53 := by
        rw [abs_div, abs_of_pos hp, div_lt_iff₀ hp]
        rw [zpow_add₀ (by norm_num)] at hlog
        rw [mul_comm]; exact_mod_cast hlog
      rw [abs_lt] at h3
      rw [show (((2 ^ 53 : ℤ)) : K) = 2 ^ 53 by norm_cast] at h1
      rw [show (((-2 ^ 53 : ℤ)) : K) = -2 ^ 53 by push_cast; norm_num] at h2
      rw [abs_of_nonneg (a := (2 : K) ^ 53 - x / 2 ^ e) (by linarith)] at h1
      rw [abs_of_nonpos (a := -(2 : K) ^ 53 - x / 2 ^ e) (by linarith)] at h2
      rw [abs_le] at h1 h2
      rw [abs_le]
      constructor
      · have : (((-2 ^ 53 : ℤ)) : K) ≤ (tieEven (x / 2 ^ e) : K) := by push_cast; linarith
        exact_mod_cast this
      · have : (tieEven (x / 2 ^ e) : K) ≤ ((2 ^ 53 : ℤ) : K) := by push_cast; linarith
        exact_mod_cast this
    · rintro y ⟨m', e', hm, he', rfl⟩
      by_cases hee : e ≤ e'
      · obtain ⟨k, rfl⟩ : ∃ k : ℕ, e' = e + k := ⟨(e' - e).toNat, by omega⟩
        have := hmult (m' * 2 ^ k)
        push_cast at this
        rwa [mul_assoc, mul_comm ((2 : K) ^ k), ← zpow_natCast, ← zpow_add₀ (by norm_num)] at this
      · push Not at hee
        have hl : e = Int.log 2 |x| - 52 := by
          rcases max_cases (-1074 : ℤ) (Int.log 2 |x| - 52) with ⟨h, _⟩ | ⟨h, _⟩
          · rw [he, lastDigit, h] at hee; omega
          · rw [he, lastDigit, h]
        rcases (abs_nonneg x).lt_or_eq with hx0 | hx0
        swap
        · have h0 : x = 0 := abs_eq_zero.1 hx0.symm
          have := hmult 0
          rw [h0] at this ⊢
          simp only [Int.cast_zero, zero_mul, sub_zero, abs_zero] at this
          simp only [sub_zero]
          exact this.trans (abs_nonneg _)
        have hlow : (2 : K) ^ (e + 52) ≤ |x| := by
          have := Int.zpow_log_le_self (R := K) (b := 2) (by norm_num) hx0
          rw [hl, show Int.log 2 |x| - 52 + 52 = Int.log 2 |x| by ring]
          exact_mod_cast this
        have hsm : |(m' : K) * 2 ^ e'| ≤ 2 ^ (e + 52) := by
          rw [abs_mul, abs_of_pos (zpow_pos (by norm_num : (0 : K) < 2) e')]
          have h6 : ((|m'| : ℤ) : K) ≤ 2 ^ 53 := by exact_mod_cast hm.le
          rw [Int.cast_abs] at h6
          have h7 : (2 : K) ^ e' ≤ 2 ^ (e - 1) := zpow_le_zpow_right₀ (by norm_num) (by omega)
          calc |(m' : K)| * 2 ^ e' ≤ 2 ^ 53 * 2 ^ (e - 1) :=
                mul_le_mul h6 h7 (zpow_pos (by norm_num) _).le (by norm_num)
            _ = 2 ^ (e + 52) := by
                rw [show e + 52 = (53 : ℤ) + (e - 1) by ring, zpow_add₀ (by norm_num)]
                norm_cast
        have hb : (2 : K) ^ (e + 52) = ((2 ^ 52 : ℤ) : K) * 2 ^ e := by
          rw [add_comm, zpow_add₀ (by norm_num)]; norm_cast
        rcases abs_cases x with ⟨ha, hs⟩ | ⟨ha, hs⟩
        · have := hmult (2 ^ 52)
          rw [← hb] at this
          refine this.trans ?_
          rw [ha] at hlow
          have h8 := (abs_le.1 hsm).2
          rw [abs_of_nonpos (by linarith), abs_of_nonpos (by linarith)]
          linarith
        · have := hmult (-2 ^ 52)
          have hb' : ((-2 ^ 52 : ℤ) : K) * 2 ^ e = -2 ^ (e + 52) := by rw [hb]; push_cast; ring
          rw [hb'] at this
          refine this.trans ?_
          rw [ha] at hlow
          have h8 := (abs_le.1 hsm).1
          rw [abs_of_nonneg (by linarith), abs_of_nonneg (by linarith)]
          linarith
  exact ⟨fun x => (key x).1, fun x => (key x).2⟩

end floor

/-! ## Exact differences -/

/-- Sterbenz: the difference of two doubles within a factor of two of each other is a double, so
it is computed without error. -/
theorem sterbenz {x y : K} (hx : IsDouble x) (hy : IsDouble y) (h0 : 0 ≤ y) (h1 : y ≤ 2 * x)
    (h2 : x ≤ 2 * y) : IsDouble (x - y) := by
  obtain ⟨m, e, hm, he, rfl⟩ := hx
  obtain ⟨n, f, hn, hf, rfl⟩ := hy
  have hpe : (0 : K) < 2 ^ e := zpow_pos (by norm_num) e
  have hpf : (0 : K) < 2 ^ f := zpow_pos (by norm_num) f
  rcases le_total e f with hef | hef
  · obtain ⟨k, rfl⟩ : ∃ k : ℕ, f = e + k := ⟨(f - e).toNat, by omega⟩
    have hy' : (n : K) * 2 ^ (e + (k : ℤ)) = ((n * 2 ^ k : ℤ) : K) * 2 ^ e := by
      rw [zpow_add₀ (by norm_num), zpow_natCast]; push_cast; ring
    rw [hy'] at h0 h1 h2 ⊢
    refine ⟨m - n * 2 ^ k, e, ?_, he, by push_cast; ring⟩
    have i0 : 0 ≤ n * 2 ^ k := by
      have := (mul_nonneg_iff_of_pos_right hpe).1 h0; exact_mod_cast this
    have i1 : n * 2 ^ k ≤ 2 * m := by
      have : ((n * 2 ^ k : ℤ) : K) ≤ ((2 * m : ℤ) : K) :=
        le_of_mul_le_mul_right (by push_cast at h1 ⊢; linarith) hpe
      exact_mod_cast this
    have i2 : m ≤ 2 * (n * 2 ^ k) := by
      have : ((m : ℤ) : K) ≤ ((2 * (n * 2 ^ k) : ℤ) : K) :=
        le_of_mul_le_mul_right (by push_cast at h2 ⊢; linarith) hpe
      exact_mod_cast this
    rw [abs_lt] at hm ⊢
    constructor <;> omega
  · obtain ⟨k, rfl⟩ : ∃ k : ℕ, e = f + k := ⟨(e - f).toNat, by omega⟩
    have hx' : (m : K) * 2 ^ (f + (k : ℤ)) = ((m * 2 ^ k : ℤ) : K) * 2 ^ f := by
      rw [zpow_add₀ (by norm_num), zpow_natCast]; push_cast; ring
    rw [hx'] at h1 h2 ⊢
    refine ⟨m * 2 ^ k - n, f, ?_, hf, by push_cast; ring⟩
    have i0 : 0 ≤ n := by
      have := (mul_nonneg_iff_of_pos_right hpf).1 h0; exact_mod_cast this
    have i1 : n ≤ 2 * (m * 2 ^ k) := by
      have : ((n : ℤ) : K) ≤ ((2 * (m * 2 ^ k) : ℤ) : K) :=
        le_of_mul_le_mul_right (by push_cast at h1 ⊢; linarith) hpf
      exact_mod_cast this
    have i2 : m * 2 ^ k ≤ 2 * n := by
      have : ((m * 2 ^ k : ℤ) : K) ≤ ((2 * n : ℤ) : K) :=
        le_of_mul_le_mul_right (by push_cast at h2 ⊢; linarith) hpf
      exact_mod_cast this
    rw [abs_lt] at hn ⊢
    constructor <;> omega

end Verif.Float
