import Verif.Float.DenormModel
import Verif.Harmonic.Props
import Mathlib.Data.Nat.Factorial.BigOperators

/-
C117: de-normalisation of gravity coefficients in double arithmetic.
-/
namespace Verif.Float

open Verif.Harmonic (sumLoop sumFac fac normFactor sumFac_eq inv_fac)

variable {rnd : ℝ → ℝ}

theorem sumLoop_pos (start k : Nat) (h : 1 ≤ start) : 1 ≤ sumLoop start k := by
  induction k with
  | zero => simp [sumLoop]
  | succ k ih =>
    rw [sumLoop]
    have : (1 : ℝ) ≤ ((start + k : Nat) : ℝ) := by exact_mod_cast (by omega : 1 ≤ start + k)
    nlinarith

theorem sumLoop_mono (start k : Nat) (h : 1 ≤ start) : sumLoop start k ≤ sumLoop start (k + 1) := by
  rw [sumLoop]
  have : (1 : ℝ) ≤ ((start + k : Nat) : ℝ) := by exact_mod_cast (by omega : 1 ≤ start + k)
  have := sumLoop_pos start k h
  nlinarith

theorem tiny_num : (2 : ℝ) ^ (-1022 : ℤ) ≤ 1 / 1152921504606846976 := by
  have : (2 : ℝ) ^ (-1022 : ℤ) ≤ 2 ^ (-60 : ℤ) :=
    zpow_le_zpow_right₀ (by norm_num) (by norm_num)
  rwa [show (2 : ℝ) ^ (-60 : ℤ) = 1 / 1152921504606846976 by norm_num] at this

theorem twice_lt {a : ℕ} (h : a ≤ 1000) : (2 : ℝ) * 2 ^ a < 2 ^ 1024 := by
  rw [← pow_succ']
  exact pow_lt_pow_right₀ (by norm_num) (by omega)

theorem one_lt_max : (1 : ℝ) < 2 ^ 1024 := one_lt_pow₀ (by norm_num) (by norm_num)

theorem roundings_le {n : ℕ} (h : n ≤ 2 ^ 40) : (n : ℝ) * u ≤ 1 / 2 := by
  have : (n : ℝ) ≤ 1099511627776 := by
    have h' : n ≤ 1099511627776 := h.trans (by norm_num)
    exact_mod_cast h'
  have hu : u = 1 / 2 ^ 53 := by unfold u; norm_num [zpow_neg]
  rw [hu, mul_one_div, div_le_div_iff₀ (by norm_num) (by norm_num)]
  norm_num
  linarith

/-- The loop yields the product up to `k` roundings, or an infinity. -/
theorem sumLoopD_cases (hr : Nearest rnd) (start k : Nat) (h1 : 1 ≤ start) (hk : k ≤ 2 ^ 40) :
    sumLoopD rnd start k = .inf false ∨
      ∃ x, sumLoopD rnd start k = .fin x ∧ x < 2 ^ 1024 ∧ Close k x (sumLoop start k) := by
  induction k with
  | zero =>
    right
    exact ⟨1, rfl, one_lt_max, by simpa [sumLoop] using Close.refl (x := (1 : ℝ)) (by norm_num)⟩
  | succ k ih =>
    have fpos : (1 : ℝ) ≤ ((start + k : Nat) : ℝ) := by exact_mod_cast (by omega : 1 ≤ start + k)
    rw [sumLoopD]
    rcases ih (by omega) with h | ⟨x, h, -, hc⟩
    · left
      rw [h, D.mul, if_neg (by linarith)]
      simp only [Bool.false_bne, D.inf.injEq, decide_eq_false_iff_not, not_lt,
        Bool.false_xor]
      linarith
    · rw [h, D.mul, out]
      have hc' : Close k (x * ((start + k : Nat) : ℝ)) (sumLoop start (k + 1)) := by
        rw [sumLoop]; simpa using hc.mul (Close.refl (by linarith : (0 : ℝ) < ((start + k : Nat) : ℝ)))
      have hge := hc'.ge_half (roundings_le (by omega))
      have hs := sumLoop_pos start (k + 1) h1
      have hc2 := hc'.round hr (by linarith [tiny_num])
      split
      · rename_i hl
        right
        exact ⟨_, rfl, (abs_lt.1 hl).2, hc2⟩
      · left
        have := hc'.1
        simp only [D.inf.injEq, decide_eq_false_iff_not, not_lt]
        linarith

/-- The product is finite if the exact one is below `2^1000`. -/
theorem sumLoopD_fin (hr : Nearest rnd) (start k : Nat) (h1 : 1 ≤ start) (hk : k ≤ 2 ^ 40)
    (hb : sumLoop start k ≤ 2 ^ 1000) :
    ∃ x, sumLoopD rnd start k = .fin x ∧ Close k x (sumLoop start k) := by
  induction k with
  | zero => exact ⟨1, rfl, by simpa [sumLoop] using Close.refl (x := (1 : ℝ)) (by norm_num)⟩
  | succ k ih =>
    have fpos : (1 : ℝ) ≤ ((start + k : Nat) : ℝ) := by exact_mod_cast (by omega : 1 ≤ start + k)
    obtain ⟨x, h, hc⟩ := ih (by omega) ((sumLoop_mono start k h1).trans hb)
    rw [sumLoopD, h, D.mul]
    have hc' : Close k (x * ((start + k : Nat) : ℝ)) (sumLoop start (k + 1)) := by
      rw [sumLoop]; simpa using hc.mul (Close.refl (by linarith : (0 : ℝ) < ((start + k : Nat) : ℝ)))
    have hge := hc'.ge_half (roundings_le (by omega))
    have hs := sumLoop_pos start (k + 1) h1
    have hc2 := hc'.round hr (by linarith [tiny_num])
    refine ⟨_, out_fin ?_, hc2⟩
    rw [abs_of_pos hc2.1]
    have := hc2.le_two (roundings_le hk)
    calc rnd _ ≤ 2 * sumLoop start (k + 1) := this
      _ ≤ 2 * 2 ^ 1000 := by linarith
      _ < 2 ^ 1024 := twice_lt (by norm_num)

theorem sumFacD_fin (hr : Nearest rnd) (n m : Nat) (h : m ≤ n) (hn : n < 2 ^ 31)
    (hb : sumFac n m ≤ 2 ^ 1000) :
    ∃ x, sumFacD rnd n m = .fin x ∧ Close (2 * m) x (sumFac n m) := by
  unfold sumFacD
  unfold sumFac at *
  split
  · rename_i h0; subst h0
    exact ⟨1, rfl, by simpa using Close.refl (x := (1 : ℝ)) (by norm_num)⟩
  · rename_i h0
    rw [if_neg h0] at hb
    exact sumLoopD_fin hr _ _ (by omega) (by omega) hb

theorem sumFac_ge_one (n m : Nat) : 1 ≤ sumFac n m := by
  unfold sumFac
  split
  · exact le_rfl
  · exact sumLoop_pos _ _ (by omega)

/-- A finite, nonzero factor of few roundings. -/
theorem facD_fin (hr : Nearest rnd) (n m : Nat) (h : m ≤ n) (hn : n < 2 ^ 31)
    (hb : sumFac n m ≤ 2 ^ 1000) :
    ∃ x, facD rnd n m = .fin x ∧ Close (2 * m + 3) x (fac n m) ∧
      1 / 1099511627776 ≤ fac n m ∧ fac n m ≤ 2 ^ 500 := by
  obtain ⟨s, hs, hc⟩ := sumFacD_fin hr n m h hn hb
  have g1 := sumFac_ge_one n m
  set A : ℝ := 2 * n + 1 with hA
  set B : ℝ := 2 - (if m = 0 then 1 else 0) with hB
  have hn' : (n : ℝ) ≤ 2147483648 := by
    have h' : n ≤ 2147483648 := hn.le.trans (by norm_num)
    exact_mod_cast h'
  have hn0 : (0 : ℝ) ≤ n := Nat.cast_nonneg n
  have A1 : 1 ≤ A := by rw [hA]; linarith
  have A2 : A ≤ 8589934592 := by rw [hA]; linarith
  have B1 : 1 ≤ B := by rw [hB]; split <;> norm_num
  have B2 : B ≤ 2 := by rw [hB]; split <;> norm_num
  have A0 : 0 < A := by linarith
  have B0 : 0 < B := by linarith
  -- first division
  have c1 : Close (2 * m) (s / A) (sumFac n m / A) := by
    simpa using hc.div (Close.refl A0)
  have l1 : 1 / 8589934592 ≤ sumFac n m / A := by
    rw [div_le_div_iff₀ (by norm_num) A0]; nlinarith
  have q1 : sumFac n m / A ≤ 2 ^ 1000 := (div_le_self (by linarith) A1).trans hb
  have m1 := tiny_num
  have k1 := c1.round hr (by
    have := c1.ge_half (roundings_le (by omega))
    linarith)
  have f1 : |rnd (s / A)| < 2 ^ 1024 := by
    rw [abs_of_pos k1.1]
    calc rnd (s / A) ≤ 2 * (sumFac n m / A) := k1.le_two (roundings_le (by omega))
      _ ≤ 2 * 2 ^ 1000 := by linarith
      _ < 2 ^ 1024 := twice_lt (by norm_num)
  -- second division
  have c2 : Close (2 * m + 1) (rnd (s / A) / B) (sumFac n m / A / B) := by
    simpa using k1.div (Close.refl B0)
  have l2 : 1 / 17179869184 ≤ sumFac n m / A / B := by
    rw [le_div_iff₀ B0]; linarith
  have q2 : sumFac n m / A / B ≤ 2 ^ 1000 := (div_le_self (by linarith [c1.2.1]) B1).trans q1
  have k2 := c2.round hr (by
    have := c2.ge_half (roundings_le (by omega))
    linarith)
  have f2 : |rnd (rnd (s / A) / B)| < 2 ^ 1024 := by
    rw [abs_of_pos k2.1]
    calc rnd _ ≤ 2 * (sumFac n m / A / B) := k2.le_two (roundings_le (by omega))
      _ ≤ 2 * 2 ^ 1000 := by linarith
      _ < 2 ^ 1024 := twice_lt (by norm_num)
  -- root
  have c3 := k2.sqrt
  have e : √(sumFac n m / A / B) = fac n m := rfl
  rw [e] at c3
  have l3 : 1 / 1099511627776 ≤ fac n m := by
    rw [← e]
    apply Real.le_sqrt_of_sq_le
    refine le_trans ?_ l2
    norm_num
  have q3 : fac n m ≤ 2 ^ 500 := by
    rw [← e, Real.sqrt_le_iff]
    refine ⟨by positivity, ?_⟩
    rw [← pow_mul]; exact q2
  have k3 := c3.round hr (by
    have := c3.ge_half (roundings_le (by omega))
    linarith)
  have f3 : |rnd (√(rnd (rnd (s / A) / B)))| < 2 ^ 1024 := by
    rw [abs_of_pos k3.1]
    calc rnd _ ≤ 2 * fac n m := k3.le_two (roundings_le (by omega))
      _ ≤ 2 * 2 ^ 500 := by linarith
      _ < 2 ^ 1024 := twice_lt (by norm_num)
  refine ⟨_, ?_, k3, l3, q3⟩
  unfold facD
  rw [hs]
  have d1 : D.div rnd (.fin s) (.fin A) = .fin (rnd (s / A)) := by
    rw [D.div, if_neg A0.ne', out_fin f1]
  have d2 : D.div rnd (.fin (rnd (s / A))) (.fin B) = .fin (rnd (rnd (s / A) / B)) := by
    rw [D.div, if_neg B0.ne', out_fin f2]
  rw [d1, d2, D.sqrt, if_neg (not_lt.2 k2.1.le), out_fin f3]

/-- `rnd` may break ties differently for the two signs; only sizes are compared. -/
theorem round_abs (hr : Nearest rnd) {n : ℕ} {a y : ℝ} (h : Close n |a| y)
    (hs : 2 ^ (-1022 : ℤ) ≤ |a|) :
    Close (n + 1) |rnd a| y ∧ (0 ≤ a → 0 ≤ rnd a) ∧ (a ≤ 0 → rnd a ≤ 0) := by
  refine ⟨?_, hr.nonneg, hr.nonpos⟩
  rcases le_total 0 a with h0 | h0
  · rw [abs_of_nonneg h0] at h hs
    rw [abs_of_nonneg (hr.nonneg h0)]
    exact h.round hr hs
  · rw [abs_of_nonpos h0] at h hs
    rw [abs_of_nonpos (hr.nonpos h0)]
    have hm : Nearest (fun x => - rnd (-x)) := by
      refine ⟨fun x => (hr.mem _).neg, fun x y hy => ?_⟩
      have := hr.near (-x) (-y) hy.neg
      rw [show - rnd (-x) - x = -(rnd (-x) - -x) by ring, abs_neg,
        show y - x = -(-y - -x) by ring, abs_neg]
      exact this
    simpa using h.round hm hs

/-- **C117 (a)** In double arithmetic (any choice among equally near doubles) the de-normalised
coefficient is the exact one with a relative error of at most `(m + 2) 2^-51`, for all degrees and
orders with `(n+m)!/(n-m)! ≤ 2^1000`, in particular for all degrees up to 80.  Missing for the full
statement: larger products; there the code fails, see `denormalize_overflow_counterexample`. -/
theorem denormalize_accuracy_partial (hr : Nearest rnd) (n m : Nat) (h : m ≤ n) (hn : n < 2 ^ 31)
    (hb : (Nat.factorial (n + m) : ℝ) / Nat.factorial (n - m) ≤ 2 ^ 1000)
    (c : ℝ) (hc : c = 0 ∨ 2 ^ (-500 : ℤ) ≤ |c| ∧ |c| ≤ 2 ^ 500) :
    ∃ x, denormD rnd n m (.fin c) = .fin x ∧
      |x - c * normFactor n m| ≤ (m + 2) * 2 ^ (-51 : ℤ) * |c * normFactor n m| := by
  rw [← sumFac_eq n m h] at hb
  obtain ⟨f, hf, cf, lf, qf⟩ := facD_fin hr n m h hn hb
  unfold denormD
  rw [hf, D.div, if_neg cf.1.ne', ← inv_fac n m h]
  have F0 := cf.2.1
  rcases hc with rfl | ⟨c1, c2⟩
  · have : out rnd (0 / f) = .fin 0 := by
      rw [zero_div, out_fin (by rw [hr.zero, abs_zero]; positivity), hr.zero]
    exact ⟨0, this, by simp⟩
  have c0 : 0 < |c| := lt_of_lt_of_le (by positivity) c1
  have cc : Close (2 * m + 3) |c / f| |c / fac n m| := by
    rw [abs_div, abs_div, abs_of_pos cf.1, abs_of_pos F0]
    simpa using (Close.refl c0).div cf
  have lo : 2 ^ (-1000 : ℤ) ≤ |c / fac n m| := by
    rw [abs_div, abs_of_pos F0, le_div_iff₀ F0]
    calc (2 : ℝ) ^ (-1000 : ℤ) * fac n m ≤ 2 ^ (-1000 : ℤ) * 2 ^ 500 :=
          mul_le_mul_of_nonneg_left qf (by positivity)
      _ = 2 ^ (-500 : ℤ) := by
          rw [← zpow_natCast, ← zpow_add₀ (by norm_num)]; rfl
      _ ≤ |c| := c1
  have up : |c / fac n m| ≤ 2 ^ 540 := by
    rw [abs_div, abs_of_pos F0, div_le_iff₀ F0]
    calc |c| ≤ 2 ^ 500 := c2
      _ = 2 ^ 540 * (1 / 1099511627776) := by
        rw [show (540 : ℕ) = 500 + 40 by rfl, pow_add, show (2 : ℝ) ^ 40 = 1099511627776 by norm_num]
        ring
      _ ≤ 2 ^ 540 * fac n m := mul_le_mul_of_nonneg_left lf (by positivity)
  have small : (2 : ℝ) ^ (-1022 : ℤ) ≤ 2 ^ (-1000 : ℤ) / 2 := by
    rw [show (2 : ℝ) ^ (-1000 : ℤ) / 2 = 2 ^ (-1001 : ℤ) by
      rw [show (-1001 : ℤ) = -1000 - 1 by norm_num, zpow_sub₀ (by norm_num)]; norm_num]
    exact zpow_le_zpow_right₀ (by norm_num) (by norm_num)
  have hm40 : 2 * m + 3 + 1 ≤ 2 ^ 40 := by omega
  obtain ⟨k, sp, sn⟩ := round_abs hr cc (by
    have := cc.ge_half (roundings_le (by omega))
    linarith)
  have fin : |rnd (c / f)| < 2 ^ 1024 := by
    calc |rnd (c / f)| ≤ 2 * |c / fac n m| := k.le_two (roundings_le hm40)
      _ ≤ 2 * 2 ^ 540 := by linarith
      _ < 2 ^ 1024 := twice_lt (by norm_num)
  refine ⟨_, out_fin fin, ?_⟩
  have e := k.err (roundings_le hm40)
  have same : |rnd (c / f) - c / fac n m| = abs (|rnd (c / f)| - |c / fac n m|) := by
    rcases le_total 0 c with h0 | h0
    · have h1 : 0 ≤ c / f := div_nonneg h0 cf.1.le
      have h2 : 0 ≤ c / fac n m := div_nonneg h0 F0.le
      rw [abs_of_nonneg (sp h1), abs_of_nonneg h2]
    · have h1 : c / f ≤ 0 := div_nonpos_of_nonpos_of_nonneg h0 cf.1.le
      have h2 : c / fac n m ≤ 0 := div_nonpos_of_nonpos_of_nonneg h0 F0.le
      rw [abs_of_nonpos (sn h1), abs_of_nonpos h2, ← abs_neg]
      congr 1; ring
  rw [same]
  refine e.trans (le_of_eq ?_)
  congr 1
  unfold u
  rw [show (-51 : ℤ) = -53 + 2 by norm_num, zpow_add₀ (by norm_num)]
  push_cast; norm_num; ring

/-- The hypotheses are met by all coefficients up to degree 80. -/
theorem product_le_of_degree (n m : Nat) (h : m ≤ n) (hn : n ≤ 80) :
    (Nat.factorial (n + m) : ℝ) / Nat.factorial (n - m) ≤ 2 ^ 1000 := by
  have h1 : (1 : ℝ) ≤ Nat.factorial (n - m) := by exact_mod_cast Nat.factorial_pos _
  refine (div_le_self (by positivity) h1).trans ?_
  have h2 : Nat.factorial (n + m) ≤ Nat.factorial 160 := Nat.factorial_le (by omega)
  have h3 : Nat.factorial 160 ≤ 2 ^ 1000 := by decide +kernel
  exact_mod_cast h2.trans h3

/-- An infinite product makes every coefficient zero. -/
theorem denormD_of_large (hr : Nearest rnd) (n m : Nat) (h : m ≤ n) (hn : n < 2 ^ 31)
    (hb : 2 ^ 1025 ≤ (Nat.factorial (n + m) : ℝ) / Nat.factorial (n - m)) (c : ℝ) :
    denormD rnd n m (.fin c) = .fin 0 := by
  rw [← sumFac_eq n m h] at hb
  have hm : m ≠ 0 := by
    rintro rfl
    simp only [sumFac, if_true] at hb
    have : (1 : ℝ) < 2 ^ 1025 := one_lt_pow₀ (by norm_num) (by norm_num)
    exact absurd hb (not_le.2 this)
  have hs : sumFacD rnd n m = .inf false := by
    unfold sumFacD
    unfold sumFac at hb
    rw [if_neg hm] at hb ⊢
    rcases sumLoopD_cases hr (n - m + 1) (2 * m) (by omega) (by omega) with h | ⟨x, -, hx, hc⟩
    · exact h
    · have := hc.ge_half (roundings_le (by omega))
      have : (2 : ℝ) ^ 1024 ≤ x := by
        refine le_trans ?_ this
        rw [le_div_iff₀ (by norm_num), ← pow_succ]
        exact hb
      exact absurd hx (not_lt.2 this)
  have A0 : (0 : ℝ) < 2 * n + 1 := by positivity
  unfold denormD facD
  rw [hs, D.div, if_neg A0.ne']
  simp only [hm, if_false, sub_zero]
  have d1 : decide ((2 * (n : ℝ) + 1) < 0) = false := by simp; linarith
  rw [d1, D.div, if_neg (by norm_num)]
  have d2 : decide ((2 : ℝ) < 0) = false := by simp
  rw [d2]
  rfl

/-- **C117 (b)** The product of the integers `n-m+1 … n+m` overflows: for degree 90, which the
shipped configuration asks for, every coefficient of order 83 to 90, whatever its value, becomes
zero, although the exact de-normalised coefficient of a nonzero one is nonzero. -/
theorem denormalize_overflow_counterexample (hr : Nearest rnd) (m : Nat) (h1 : 83 ≤ m) (h2 : m ≤ 90)
    (c : ℝ) (hc : c ≠ 0) :
    denormD rnd 90 m (.fin c) = .fin 0 ∧ c * normFactor 90 m ≠ 0 := by
  constructor
  · apply denormD_of_large hr 90 m h2 (by norm_num)
    rw [le_div_iff₀ (by exact_mod_cast Nat.factorial_pos _)]
    have : ∀ m < 91, 83 ≤ m → 2 ^ 1025 * Nat.factorial (90 - m) ≤ Nat.factorial (90 + m) := by
      decide +kernel
    exact_mod_cast this m (by omega) h1
  · rw [← inv_fac 90 m h2]
    apply div_ne_zero hc
    unfold Verif.Harmonic.fac
    apply (Real.sqrt_pos.2 _).ne'
    have := sumFac_ge_one 90 m
    rw [if_neg (by omega)]
    norm_num
    linarith

/-- **C117 (c)** From degree 86 on the sectorial coefficients (order equal to degree) are lost. -/
theorem denormalize_sectorial_counterexample (hr : Nearest rnd) (n : Nat) (h1 : 86 ≤ n)
    (h2 : n < 2 ^ 31) (c : ℝ) : denormD rnd n n (.fin c) = .fin 0 := by
  apply denormD_of_large hr n n le_rfl h2
  rw [Nat.sub_self, Nat.factorial_zero, Nat.cast_one, div_one]
  have h3 : Nat.factorial 172 ≤ Nat.factorial (n + n) := Nat.factorial_le (by omega)
  have h4 : 2 ^ 1025 ≤ Nat.factorial 172 := by decide +kernel
  exact_mod_cast h4.trans h3

/-- The hypotheses are satisfiable: degree and order 60, coefficient 1/1024, rounding to even. -/
example : ∃ x, denormD rnd64 60 60 (.fin (1 / 1024)) = .fin x ∧
    |x - 1 / 1024 * normFactor 60 60| ≤
      ((60 : ℕ) + 2) * 2 ^ (-51 : ℤ) * |1 / 1024 * normFactor 60 60| := by
  refine denormalize_accuracy_partial rnd64_nearest 60 60 le_rfl (by norm_num)
    (product_le_of_degree 60 60 le_rfl (by norm_num)) _ (Or.inr ?_)
  rw [abs_of_pos (by norm_num)]
  constructor
  · have : (2 : ℝ) ^ (-500 : ℤ) ≤ 2 ^ (-10 : ℤ) := zpow_le_zpow_right₀ (by norm_num) (by norm_num)
    norm_num at this ⊢; linarith
  · have : (1 : ℝ) ≤ 2 ^ 500 := one_le_pow₀ (by norm_num)
    exact le_trans (by norm_num) this

example : denormD rnd64 90 90 (.fin 1) = .fin 0 :=
  (denormalize_overflow_counterexample rnd64_nearest 90 (by norm_num) le_rfl 1 one_ne_zero).1

end Verif.Float
