import Verif.Float.PolyModel
import Verif.Float.EkfProps
import Verif.Poly.Props
import Mathlib.Algebra.BigOperators.Group.Finset.Basic
import Mathlib.Algebra.Order.BigOperators.Group.Finset
import Mathlib.Algebra.Order.Ring.Pow
import Mathlib.Tactic.Linarith
import Mathlib.Tactic.GCongr

/-
C171: the clock polynomials in double arithmetic.
-/
namespace Verif.Float

variable {K : Type} [Field K] [LinearOrder K] [IsStrictOrderedRing K] [FloorRing K] {rnd : K → K}

/-- The powers of `t` as they are computed. -/
def powD (rnd : K → K) (t : K) : ℕ → K
  | 0 => t
  | n + 1 => rnd (powD rnd t n * t)

omit [LinearOrder K] [IsStrictOrderedRing K] [FloorRing K] in
theorem polyD_pair (fused : Bool) (cf : ℕ → K) (t : K) (n : ℕ) :
    (List.range' 1 n).foldl (fun p i => (maddD rnd fused p.1 (cf i) p.2, rnd (p.2 * t))) (cf 0, t) =
      (polyD rnd fused n cf t, powD rnd t n) := by
  induction n with
  | zero => rfl
  | succ n ih =>
    have e : (List.range' 1 (n + 1)).foldl (fun p i => (maddD rnd fused p.1 (cf i) p.2, rnd (p.2 * t))) (cf 0, t) =
        (maddD rnd fused (polyD rnd fused n cf t) (cf (n + 1)) (powD rnd t n), powD rnd t (n + 1)) := by
      rw [List.range'_concat, List.foldl_append, ih]
      simp [powD, add_comm]
    unfold polyD
    rw [e]

omit [LinearOrder K] [IsStrictOrderedRing K] [FloorRing K] in
theorem polyD_succ (fused : Bool) (cf : ℕ → K) (t : K) (n : ℕ) :
    polyD rnd fused (n + 1) cf t = maddD rnd fused (polyD rnd fused n cf t) (cf (n + 1)) (powD rnd t n) := by
  rw [show polyD rnd fused (n + 1) cf t = ((List.range' 1 (n + 1)).foldl
    (fun p i => (maddD rnd fused p.1 (cf i) p.2, rnd (p.2 * t))) (cf 0, t)).1 from rfl,
    List.range'_concat, List.foldl_append, polyD_pair]
  simp [add_comm]

/-! ### One step, with abstract rounding unit -/

omit [FloorRing K] in
theorem madd_step {U E : K} (hU : 0 ≤ U) (hE : 0 ≤ E) (hr : ∀ x, |rnd x - x| ≤ U * |x| + E) (fused : Bool)
    {y P c p T A a : K} {g : K} (hg : 1 ≤ g) (hy : |y - P| ≤ (g * (1 + U) - 1) * A + a) (hp : |p - T| ≤ (g - 1) * |T|)
    (hP : |P| ≤ A) :
    |maddD rnd fused y c p - (P + c * T)| ≤
      (g * (1 + U) * (1 + U) - 1) * (A + |c * T|) + ((1 + U) * (a + E) + E) := by
  have hA : 0 ≤ A := (abs_nonneg _).trans hP
  have z1 : |c * p - c * T| ≤ (g - 1) * |c * T| := by
    rw [← mul_sub, abs_mul, abs_mul]
    calc |c| * |p - T| ≤ |c| * ((g - 1) * |T|) := mul_le_mul_of_nonneg_left hp (abs_nonneg _)
      _ = (g - 1) * (|c| * |T|) := by ring
  have hB : 0 ≤ |c * T| := abs_nonneg _
  have z1a : |c * p| ≤ g * |c * T| := by
    have := abs_add_le (c * p - c * T) (c * T)
    rw [sub_add_cancel] at this
    linarith
  have key : ∀ z : K, |z - c * T| ≤ (g * (1 + U) - 1) * |c * T| + E →
      |rnd (y + z) - (P + c * T)| ≤
        (g * (1 + U) * (1 + U) - 1) * (A + |c * T|) + ((1 + U) * (a + E) + E) := by
    intro z hz
    have s1 : |y + z - (P + c * T)| ≤ (g * (1 + U) - 1) * (A + |c * T|) + (a + E) := by
      have := abs_add_le (y - P) (z - c * T)
      rw [show y - P + (z - c * T) = y + z - (P + c * T) by ring] at this
      linarith
    have s2 : |y + z| ≤ g * (1 + U) * (A + |c * T|) + (a + E) := by
      have h1 := abs_add_le (y + z - (P + c * T)) (P + c * T)
      rw [sub_add_cancel] at h1
      have h2 := abs_add_le P (c * T)
      linarith
    have s3 := (hr (y + z)).trans (add_le_add_left (mul_le_mul_of_nonneg_left s2 hU) E)
    have s4 := abs_add_le (rnd (y + z) - (y + z)) (y + z - (P + c * T))
    rw [sub_add_sub_cancel] at s4
    nlinarith
  unfold maddD
  cases fused
  · simp only [Bool.false_eq_true, if_false]
    refine key _ ?_
    have h1 := (hr (c * p)).trans (add_le_add_left (mul_le_mul_of_nonneg_left z1a hU) E)
    have h2 := abs_add_le (rnd (c * p) - c * p) (c * p - c * T)
    rw [sub_add_sub_cancel] at h2
    nlinarith
  · simp only [if_true]
    refine key _ (z1.trans ?_)
    nlinarith [mul_nonneg (mul_nonneg (by linarith : (0 : K) ≤ g) hU) hB]

/-! ### The polynomial -/

/-- Sum of the sizes of the terms. -/
def sizeSum (n : ℕ) (cf : ℕ → K) (t : K) : K := ∑ i ∈ Finset.range (n + 1), |cf i * t ^ i|

/-- The polynomial. -/
def polySum (n : ℕ) (cf : ℕ → K) (t : K) : K := ∑ i ∈ Finset.range (n + 1), cf i * t ^ i

omit [FloorRing K] in
theorem polySum_le (n : ℕ) (cf : ℕ → K) (t : K) : |polySum n cf t| ≤ sizeSum n cf t :=
  Finset.abs_sum_le_sum_abs _ _

/-- The powers, as long as they are not too small. -/
theorem pow_bound (h : Nearest rnd) {t : K} (n : ℕ) (hg : (1 + un : K) ^ n ≤ 3 / 2)
    (ht : ∀ i, i ≤ n + 1 → (2 : K) ^ (-1000 : ℤ) ≤ |t| ^ i) :
    |powD rnd t n - t ^ (n + 1)| ≤ ((1 + un) ^ n - 1) * |t ^ (n + 1)| := by
  have u0 : (0 : K) < un := un_pos
  induction n with
  | zero => simp [powD]
  | succ n ih =>
    have hg' : (1 + un : K) ^ n ≤ 3 / 2 :=
      (pow_le_pow_right₀ (by linarith) (Nat.le_succ n)).trans hg
    have ih := ih hg' fun i hi => ht i (by omega)
    have hT := ht (n + 2) le_rfl
    rw [← abs_pow] at hT
    have h22 : (2 : K) ^ (-1022 : ℤ) ≤ 2 ^ (-1000 : ℤ) / 2 := by
      have e : (2 : K) ^ (-1000 : ℤ) / 2 = 2 ^ (-1001 : ℤ) := by
        rw [show (-1001 : ℤ) = -1000 - 1 by norm_num, zpow_sub_one₀ (by norm_num), div_eq_mul_inv]
      rw [e]
      exact zpow_le_zpow_right₀ (by norm_num) (by norm_num)
    have e1 : t ^ (n + 1 + 1) = t ^ (n + 1) * t := pow_succ _ _
    rw [e1] at hT ⊢
    have m : |powD rnd t n * t - t ^ (n + 1) * t| ≤ ((1 + un) ^ n - 1) * |t ^ (n + 1) * t| := by
      rw [← sub_mul, abs_mul, abs_mul (t ^ (n + 1)) t, ← mul_assoc]
      exact mul_le_mul_of_nonneg_right ih (abs_nonneg _)
    have g1 : (1 : K) ≤ (1 + un) ^ n := one_le_pow₀ (by linarith)
    unfold powD
    rw [pow_succ (1 + un : K) n]
    generalize powD rnd t n * t = w at *
    generalize t ^ (n + 1) * t = W at *
    generalize (1 + un : K) ^ n = g at *
    have hw : 2 ^ (-1022 : ℤ) ≤ |w| := by
      have := abs_sub_abs_le_abs_sub W w
      rw [abs_sub_comm] at this
      nlinarith [abs_nonneg W]
    have hrel := h.rel hw
    change _ ≤ un * |w| at hrel
    have hwW : |w| ≤ g * |W| := by
      have := abs_add_le (w - W) W
      rw [sub_add_cancel] at this
      linarith
    have h3 := abs_add_le (rnd w - w) (w - W)
    rw [sub_add_sub_cancel] at h3
    clear hw h22 hT e1 ht ih hg hg'
    generalize (un : K) = U at *
    have := mul_le_mul_of_nonneg_left hwW u0.le
    nlinarith

/-- **C171 (a)** The value of a clock polynomial of any order, with or without fused operations: the error is at most
`(1 + 2^-53)^(n+1) - 1` times the sum of the sizes of its terms, plus a few times the smallest double. -/
theorem poly_error (h : Nearest rnd) (fused : Bool) (n : ℕ) (cf : ℕ → K) (t : K) (hg : (1 + un : K) ^ n ≤ 3 / 2)
    (ht : ∀ i, i ≤ n → (2 : K) ^ (-1000 : ℤ) ≤ |t| ^ i) :
    |polyD rnd fused n cf t - polySum n cf t| ≤
      ((1 + un) ^ (n + 1) - 1) * sizeSum n cf t + 2 * n * (1 + un) ^ n * eta := by
  have u0 : (0 : K) < un := un_pos
  have e0 : (0 : K) < eta := eta_pos
  induction n with
  | zero =>
    have : polyD rnd fused 0 cf t = cf 0 := rfl
    rw [this]
    simp only [polySum, sizeSum, zero_add, Finset.sum_range_one, pow_zero, mul_one, sub_self, abs_zero, pow_one,
      Nat.cast_zero, mul_zero, zero_mul, add_zero, add_sub_cancel_left]
    exact mul_nonneg u0.le (abs_nonneg _)
  | succ n ih =>
    have hg' : (1 + un : K) ^ n ≤ 3 / 2 :=
      (pow_le_pow_right₀ (by linarith) (Nat.le_succ n)).trans hg
    have ih := ih hg' fun i hi => ht i (by omega)
    have hp := pow_bound h n hg' ht
    rw [polyD_succ]
    have s1 : polySum (n + 1) cf t = polySum n cf t + cf (n + 1) * t ^ (n + 1) := Finset.sum_range_succ _ _
    have s2 : sizeSum (n + 1) cf t = sizeSum n cf t + |cf (n + 1) * t ^ (n + 1)| := Finset.sum_range_succ _ _
    rw [s1, s2]
    have g1 : (1 : K) ≤ (1 + un) ^ n := one_le_pow₀ (by linarith)
    rw [pow_succ] at ih
    have st := madd_step (c := cf (n + 1)) u0.le e0.le h.err_both fused g1 ih hp (polySum_le n cf t)
    rw [pow_succ (1 + un : K) (n + 1), pow_succ (1 + un : K) n]
    refine st.trans (add_le_add_right ?_ _)
    push_cast
    generalize (1 + un : K) ^ n = g at *
    generalize (eta : K) = E at *
    generalize (un : K) = U at *
    have hx : E ≤ g * (1 + U) * E := by nlinarith [mul_nonneg (by linarith : (0 : K) ≤ g) u0.le]
    have hy : (1 + U) * E ≤ g * (1 + U) * E := by
      have := mul_le_mul_of_nonneg_right g1 (mul_nonneg (by linarith : (0 : K) ≤ 1 + U) e0.le)
      linarith
    nlinarith

omit [FloorRing K] in
/-- At the reference epoch the value is the constant coefficient, without error. -/
theorem poly_ref (h : Nearest rnd) (fused : Bool) (n : ℕ) (cf : ℕ → K) (h0 : IsDouble (cf 0)) :
    polyD rnd fused n cf 0 = cf 0 := by
  have hp : ∀ n, powD rnd (0 : K) n = 0 := by
    intro n
    cases n with
    | zero => rfl
    | succ n => simp [powD, h.zero]
  induction n with
  | zero => rfl
  | succ n ih =>
    rw [polyD_succ, ih, hp]
    unfold maddD
    cases fused <;> simp [h.zero, h.exact h0]

omit [FloorRing K] in
/-- **C171 (b)** The linear clock model is monotone: a rate that is not negative gives values that do not decrease. -/
theorem line_mono (h : Nearest rnd) (fused : Bool) (cf : ℕ → K) (t t' : K) (hc : 0 ≤ cf 1) (ht : t ≤ t') :
    polyD rnd fused 1 cf t ≤ polyD rnd fused 1 cf t' := by
  have e : ∀ t, polyD rnd fused 1 cf t = maddD rnd fused (cf 0) (cf 1) t := fun _ => rfl
  rw [e, e]
  unfold maddD
  have m : cf 1 * t ≤ cf 1 * t' := mul_le_mul_of_nonneg_left ht hc
  cases fused
  · exact h.mono (by have := h.mono m; linarith)
  · exact h.mono (by linarith)

omit [FloorRing K] in
/-- `LinearModel` is the polynomial of order one at the rounded difference, and monotone in the abscissa. -/
theorem lineD_mono (h : Nearest rnd) (fused : Bool) (xref a b x x' : K) (hb : 0 ≤ b) (hx : x ≤ x') :
    lineD rnd fused xref a b x = polyD rnd fused 1 (fun i => if i = 0 then a else b) (rnd (x - xref)) ∧
      lineD rnd fused xref a b x ≤ lineD rnd fused xref a b x' :=
  ⟨rfl, line_mono h fused (fun i => if i = 0 then a else b) _ _ hb (h.mono (by linarith))⟩

omit [FloorRing K] in
theorem powD_mono (h : Nearest rnd) {t t' : K} (h0 : 0 ≤ t) (ht : t ≤ t') (n : ℕ) :
    0 ≤ powD rnd t n ∧ powD rnd t n ≤ powD rnd t' n := by
  induction n with
  | zero => exact ⟨h0, ht⟩
  | succ n ih =>
    exact ⟨h.nonneg (mul_nonneg ih.1 h0), h.mono (mul_le_mul ih.2 ht h0 (ih.1.trans ih.2))⟩

omit [FloorRing K] in
/-- **C171 (b)** The same for every order after the reference epoch: if no coefficient but the constant one is
negative, the values do not decrease. -/
theorem poly_mono (h : Nearest rnd) (fused : Bool) (n : ℕ) (cf : ℕ → K) (t t' : K) (hc : ∀ i, 1 ≤ i → i ≤ n → 0 ≤ cf i)
    (h0 : 0 ≤ t) (ht : t ≤ t') : polyD rnd fused n cf t ≤ polyD rnd fused n cf t' := by
  induction n with
  | zero => exact le_refl (cf 0)
  | succ n ih =>
    have ih := ih fun i h1 h2 => hc i h1 (by omega)
    rw [polyD_succ, polyD_succ]
    have m := mul_le_mul_of_nonneg_left (powD_mono h h0 ht n).2 (hc (n + 1) (by omega) le_rfl)
    unfold maddD
    cases fused
    · exact h.mono (add_le_add ih (h.mono m))
    · exact h.mono (add_le_add ih m)

/-- The condition on the order holds up to order 2^50. -/
theorem order_ok (n : ℕ) (hn : n ≤ 2 ^ 50) : (1 + un : K) ^ n ≤ 3 / 2 := by
  have u0 : (0 : K) < un := un_pos
  have u1 : (un : K) * 2 ^ 53 = 1 := by norm_num [zpow_neg]
  generalize (un : K) = U at *
  have hb := one_add_mul_le_pow (a := -U) (by nlinarith) n
  have hn' : (n : K) ≤ 2 ^ 50 := by exact_mod_cast hn
  have hnu : (n : K) * U ≤ 1 / 8 := by
    have := mul_le_mul_of_nonneg_right hn' u0.le
    nlinarith
  have hprod : (1 + U) ^ n * (1 + -U) ^ n ≤ 1 := by
    rw [← mul_pow]
    exact pow_le_one₀ (by nlinarith) (by nlinarith)
  have hpos : (0 : K) ≤ (1 + U) ^ n := by positivity
  have h78 : 7 / 8 ≤ (1 + -U : K) ^ n := by linarith
  nlinarith

/-- **C171 (c)** The linear fit of the frequency offset: with a constant and a drift term of at most 10^5 (in units of
1e-11) the value is computed to 1e-10 of the unit. -/
theorem rfo_value (h : Nearest rnd) (fused : Bool) (xref x : K) (cf : ℕ → K) (h0 : |cf 0| ≤ 10 ^ 5)
    (h1 : |cf 1 * (x - xref)| ≤ 10 ^ 5) (ht : (2 : K) ^ (-1000 : ℤ) ≤ |x - xref|) :
    |polyD rnd fused 1 cf (x - xref) - Poly.valueAt 1 xref cf x| ≤ 1 / 10 ^ 10 := by
  have e := poly_error h fused 1 cf (x - xref) (order_ok 1 (by norm_num)) (by
    intro i hi
    rcases Nat.le_one_iff_eq_zero_or_eq_one.1 hi with rfl | rfl
    · rw [pow_zero]
      exact (zpow_le_zpow_right₀ (by norm_num) (by norm_num : (-1000 : ℤ) ≤ 0)).trans (by simp)
    · rwa [pow_one])
  rw [Poly.valueAt_eq]
  refine e.trans ?_
  have hs : sizeSum 1 cf (x - xref) ≤ 2 * 10 ^ 5 := by
    simp only [sizeSum, Finset.sum_range_succ, Finset.sum_range_zero, zero_add, pow_zero, mul_one, pow_one]
    linarith
  have u1 : (un : K) * 2 ^ 53 = 1 := by norm_num [zpow_neg]
  have u0 : (0 : K) < un := un_pos
  have e1 : (eta : K) ≤ 1 / 2 ^ 60 := by
    have : (2 : K) ^ (-1074 : ℤ) ≤ 2 ^ (-60 : ℤ) := zpow_le_zpow_right₀ (by norm_num) (by norm_num)
    have e2 : (2 : K) ^ (-60 : ℤ) = 1 / 2 ^ 60 := by norm_num [zpow_neg]
    have e3 : (0 : K) < 2 ^ (-1074 : ℤ) := zpow_pos (by norm_num) _
    unfold eta
    rw [← e2]
    clear e ht u1 u0
    generalize (2 : K) ^ (-1074 : ℤ) = a at *
    generalize (2 : K) ^ (-60 : ℤ) = b at *
    linarith
  have e0 : (0 : K) < eta := eta_pos
  clear e ht
  have ue : (un : K) = 1 / 2 ^ 53 := by norm_num [zpow_neg]
  rw [ue]
  generalize (eta : K) = E at *
  have a1 : ((1 + 1 / 2 ^ 53 : K) ^ (1 + 1) - 1) * sizeSum 1 cf (x - xref) ≤
      ((1 + 1 / 2 ^ 53) ^ (1 + 1) - 1) * (2 * 10 ^ 5) := mul_le_mul_of_nonneg_left hs (by norm_num)
  have a2 : 2 * ((1 : ℕ) : K) * (1 + 1 / 2 ^ 53) ^ 1 * E ≤ 2 * ((1 : ℕ) : K) * (1 + 1 / 2 ^ 53) ^ 1 * (1 / 2 ^ 60) :=
    mul_le_mul_of_nonneg_left e1 (by norm_num)
  refine (add_le_add a1 a2).trans ?_
  norm_num

/-- A fit with offset 150 and drift 1/1000 per second, an hour after the reference epoch. -/
example (fused : Bool) : |polyD (rnd64 : ℚ → ℚ) fused 1 (fun i => if i = 0 then 150 else 1 / 1000) (3600 - 0) -
    Poly.valueAt 1 0 (fun i => if i = 0 then 150 else 1 / 1000) 3600| ≤ 1 / 10 ^ 10 :=
  rfo_value rnd64_nearest fused 0 3600 _ (by norm_num) (by norm_num [abs_of_pos]) (by
    exact (zpow_le_zpow_right₀ (by norm_num) (by norm_num : (-1000 : ℤ) ≤ 0)).trans (by norm_num [abs_of_pos]))

example : polyD (rnd64 : ℚ → ℚ) true 2 (fun i => if i = 0 then -5 else 1) 2 ≤
    polyD rnd64 true 2 (fun i => if i = 0 then -5 else 1) 3 :=
  poly_mono rnd64_nearest true 2 _ 2 3 (fun i h _ => by rw [if_neg (by omega)]; norm_num) (by norm_num) (by norm_num)

/-- **C171** No bound holds relative to the value itself: here the constant is 1, the rate the double next to -1/3 and
the time 3 s; the computed value is zero and the polynomial is not. -/
theorem poly_cancel_counterexample :
    ∃ c : ℚ, IsDouble c ∧ polyD (rnd64 : ℚ → ℚ) false 1 (fun i => if i = 0 then 1 else c) 3 = 0 ∧
      polySum 1 (fun i => if i = 0 then 1 else c) (3 : ℚ) ≠ 0 :=
  ⟨rnd64 (-1 / 3), rnd64_nearest.mem _, by decide +kernel, by
    simp only [polySum, Finset.sum_range_succ, Finset.sum_range_zero]
    decide +kernel⟩

end Verif.Float
