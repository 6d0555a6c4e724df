import Verif.Float.FreqModel
import Verif.Float.EkfProps
import Verif.SystemInfo.Props

/-
C163: the nominal frequencies of the beacons are exact in double arithmetic.
C164: the ionospheric correction in double arithmetic.
-/
namespace Verif.Float

open Verif.SystemInfo

section exact

variable {K : Type} [Field K] [LinearOrder K] [IsStrictOrderedRing K] {rnd : K → K}

/-- A whole number of `2^-20` is kept. -/
theorem Nearest.dyadic20 (h : Nearest rnd) (m : ℤ) (hm : |m| ≤ 2 ^ 53) {x : K}
    (hx : x = m / 2 ^ 20) : rnd x = x := by
  refine h.exact ?_
  have := isDouble_of_le (K := K) m (-20) hm (by norm_num)
  rw [hx]
  convert this using 1
  rw [zpow_neg, div_eq_mul_inv]
  norm_cast

theorem fac1D_eq (h : Nearest rnd) : fac1D rnd = 3750000 := by
  unfold fac1D
  rw [h.dyadic20 (3750000 * 2 ^ 20) (by norm_num) (by push_cast; ring)]
  norm_num

theorem fac2D_eq (h : Nearest rnd) (k : ℤ) (hk : |k| ≤ 2 ^ 20) :
    fac2D rnd k = 1359375 * k / 2 ^ 20 := by
  obtain ⟨a, b⟩ := abs_le.1 hk
  unfold fac2D
  have e1 : rnd (87 * (k : K)) = 87 * k :=
    h.exact (by simpa using isDouble_int (K := K) (87 * k) (by rw [abs_le]; omega))
  have e2 : rnd (5000000 * (87 * (k : K))) = 5000000 * (87 * k) :=
    h.exact (by simpa using isDouble_int (K := K) (5000000 * (87 * k)) (by rw [abs_le]; omega))
  have e3 : rnd (5 * 2 ^ 26 : K) = 5 * 2 ^ 26 :=
    h.exact (by have := isDouble_int (K := K) (5 * 2 ^ 26) (by norm_num); norm_num at this ⊢; exact this)
  rw [e1, e2, e3, h.dyadic20 (1359375 * k) (by rw [abs_le]; omega) (by push_cast; ring)]
  ring

theorem sum2_exact (h : Nearest rnd) (f : Fuse) (n : ℤ) (hn : n = 543 ∨ n = 107) (k : ℤ)
    (hk : |k| ≤ 2 ^ 20) :
    sum2 rnd f (n : K) (fac1D rnd) n (fac2D rnd k) = n * 3750000 + n * (1359375 * k / 2 ^ 20) := by
  obtain ⟨a, b⟩ := abs_le.1 hk
  rw [fac1D_eq h, fac2D_eq h k hk]
  have e1 : rnd ((n : K) * 3750000) = n * 3750000 :=
    h.exact (by
      simpa using isDouble_int (K := K) (n * 3750000) (by rcases hn with rfl | rfl <;> norm_num))
  have e2 : rnd ((n : K) * (1359375 * k / 2 ^ 20)) = n * (1359375 * k / 2 ^ 20) :=
    h.dyadic20 (n * (1359375 * k)) (by rcases hn with rfl | rfl <;> rw [abs_le] <;> omega)
      (by push_cast; ring)
  have e3 : rnd ((n : K) * 3750000 + n * (1359375 * k / 2 ^ 20)) =
      n * 3750000 + n * (1359375 * k / 2 ^ 20) :=
    h.dyadic20 (n * 3750000 * 2 ^ 20 + n * (1359375 * k))
      (by rcases hn with rfl | rfl <;> rw [abs_le] <;> omega) (by push_cast; ring)
  cases f <;> simp only [sum2, e1, e2, e3]

end exact

/-- **C163 (a)** For every shift factor between `-2^20` and `2^20`, for every rounding to nearest and
whatever operations are fused, the computed frequencies are those of the law, without any error. -/
theorem nominal_exact {rnd : ℝ → ℝ} (h : Nearest rnd) (f1 f2 : Fuse) (k : ℤ) (hk : |k| ≤ 2 ^ 20) :
    nominalD rnd f1 f2 k = (543 * 5e6 * (3 / 4 + 87 * (k : ℝ) / (5 * 2 ^ 26)),
      107 * 5e6 * (3 / 4 + 87 * (k : ℝ) / (5 * 2 ^ 26))) := by
  have a := sum2_exact h f1 543 (.inl rfl) k hk
  have b := sum2_exact h f2 107 (.inr rfl) k hk
  simp only [Int.cast_ofNat] at a b
  unfold nominalD
  rw [a, b]
  congr 1 <;> ring

/-- **C163 (b)** So the program's function is the one of C11, and different shift factors give
different frequencies. -/
theorem nominal_same {rnd : ℝ → ℝ} (h : Nearest rnd) (f1 f2 : Fuse) (k : ℤ) (hk : |k| ≤ 2 ^ 20) :
    nominalD rnd f1 f2 k = beaconNominalFrequency k ∧
      ∀ l : ℤ, |l| ≤ 2 ^ 20 → k < l → (nominalD rnd f1 f2 k).1 < (nominalD rnd f1 f2 l).1 ∧
        (nominalD rnd f1 f2 k).2 < (nominalD rnd f1 f2 l).2 := by
  have same : ∀ l : ℤ, |l| ≤ 2 ^ 20 → nominalD rnd f1 f2 l = beaconNominalFrequency l := by
    intro l hl
    rw [nominal_exact h f1 f2 l hl]
    exact (Prod.ext (nominal_law l).1 (nominal_law l).2).symm
  refine ⟨same k hk, fun l hl hkl => ?_⟩
  rw [same k hk, same l hl]
  exact nominal_strictMono k l hkl

/-- **C163 (c)** The number of the law for shift factors of five digits in the station lines. -/
example (f1 f2 : Fuse) : nominalD (rnd64 : ℝ → ℝ) f1 f2 (-99999) = beaconNominalFrequency (-99999) :=
  (nominal_same rnd64_nearest f1 f2 (-99999) (by norm_num)).1

/-- Shift factors beyond that range are rounded: at `2^31 - 1`, the largest `int`, the S1 frequency
is not the one of the law. -/
theorem nominal_large_counterexample (f1 f2 : Fuse) :
    (nominalD (rnd64 : ℚ → ℚ) f1 f2 (2 ^ 31 - 1)).1 ≠
      543 * 5000000 * (3 / 4 + 87 * (2 ^ 31 - 1) / (5 * 2 ^ 26)) := by
  cases f1 <;> cases f2 <;> decide +kernel

section gap

variable {K : Type} [Field K] [LinearOrder K] [IsStrictOrderedRing K] {rnd : K → K}

/-- Two different doubles differ by at least `2^-53` of either. -/
theorem double_gap {y z : K} (hy : IsDouble y) (hz : IsDouble z) (hne : y ≠ z) :
    2 ^ (-53 : ℤ) * |y| ≤ |y - z| := by
  obtain ⟨m, e, hm, he, rfl⟩ := hy
  obtain ⟨m', e', hm', he', rfl⟩ := hz
  have p : ∀ e : ℤ, (0 : K) < 2 ^ e := fun e => zpow_pos (by norm_num) e
  have h53 : (2 : K) ^ (-53 : ℤ) * 2 ^ 53 = 1 := by
    rw [zpow_neg, ← zpow_natCast]; norm_num
  have q := p (-53)
  have unit : ∀ (n f : ℤ), (n : K) * 2 ^ f ≠ 0 → 2 ^ f ≤ |(n : K) * 2 ^ f| := by
    intro n f hn
    rw [abs_mul, abs_of_pos (p f)]
    have : n ≠ 0 := by rintro rfl; simp at hn
    have h1 : (1 : K) ≤ |(n : K)| := by
      rw [← Int.cast_abs]; exact_mod_cast Int.one_le_abs this
    nlinarith [p f]
  have cm : |(m : K)| ≤ 2 ^ 53 - 1 := by
    rw [← Int.cast_abs]; exact_mod_cast (by omega : |m| ≤ 2 ^ 53 - 1)
  have cm' : |(m' : K)| ≤ 2 ^ 53 - 1 := by
    rw [← Int.cast_abs]; exact_mod_cast (by omega : |m'| ≤ 2 ^ 53 - 1)
  have hne' := sub_ne_zero.2 hne
  rcases le_or_gt e e' with hee | hee
  · obtain ⟨k, rfl⟩ : ∃ k : ℕ, e' = e + k := ⟨(e' - e).toNat, by omega⟩
    have hd : (m : K) * 2 ^ e - m' * 2 ^ (e + k : ℤ) = ((m - m' * 2 ^ k : ℤ) : K) * 2 ^ e := by
      rw [zpow_add₀ (by norm_num), zpow_natCast]; push_cast; ring
    rw [hd] at hne' ⊢
    refine le_trans ?_ (unit _ _ hne')
    rw [abs_mul, abs_of_pos (p e)]
    have := mul_le_mul_of_nonneg_right cm (p e).le
    nlinarith [p e, mul_le_mul_of_nonneg_left this q.le]
  · obtain ⟨k, rfl⟩ : ∃ k : ℕ, e = e' + k := ⟨(e - e').toNat, by omega⟩
    have hd : (m : K) * 2 ^ (e' + k : ℤ) - m' * 2 ^ e' = ((m * 2 ^ k - m' : ℤ) : K) * 2 ^ e' := by
      rw [zpow_add₀ (by norm_num), zpow_natCast]; push_cast; ring
    set Y : K := (m : K) * 2 ^ (e' + k : ℤ)
    rcases le_or_gt |Y| (2 ^ 53 * 2 ^ e') with hb | hb
    · rw [hd] at hne' ⊢
      refine le_trans ?_ (unit _ _ hne')
      have := mul_le_mul_of_nonneg_left hb q.le
      rwa [← mul_assoc, h53, one_mul] at this
    · have hz : |(m' : K) * 2 ^ e'| ≤ (2 ^ 53 - 1) * 2 ^ e' := by
        rw [abs_mul, abs_of_pos (p e')]
        exact mul_le_mul_of_nonneg_right cm' (p e').le
      have h9 := abs_sub_abs_le_abs_sub Y ((m' : K) * 2 ^ e')
      have hq1 : (2 : K) ^ (-53 : ℤ) < 1 := by nlinarith
      have : 2 ^ 53 * 2 ^ e' * (1 - (2 : K) ^ (-53 : ℤ)) ≤ |Y| * (1 - (2 : K) ^ (-53 : ℤ)) :=
        mul_le_mul_of_nonneg_right hb.le (by linarith)
      nlinarith [p e']

/-- A number within a quarter of that distance of a double is rounded to it. -/
theorem Nearest.eq_of_rel (h : Nearest rnd) {x y : K} (hy : IsDouble y)
    (hx : |y - x| ≤ 2 ^ (-53 : ℤ) / 4 * |y|) : rnd x = y := by
  by_contra hne
  have g := double_gap hy (h.mem x) (Ne.symm hne)
  have n := h.near x y hy
  have t : |y - rnd x| ≤ |y - x| + |rnd x - x| := by
    have := abs_sub (y - x) (rnd x - x)
    rwa [sub_sub_sub_cancel_right] at this
  have q : (0 : K) < 2 ^ (-53 : ℤ) := zpow_pos (by norm_num) _
  have y0 : 0 ≤ |y| := abs_nonneg _
  have : |y| = 0 := by
    by_contra hc
    have : 0 < |y| := lt_of_le_of_ne y0 (Ne.symm hc)
    have h1 : 0 < 2 ^ (-53 : ℤ) * |y| := mul_pos q this
    have h2 : 2 ^ (-53 : ℤ) / 4 * |y| = 2 ^ (-53 : ℤ) * |y| / 4 := by ring
    rw [h2] at hx
    generalize 2 ^ (-53 : ℤ) * |y| = w at *
    linarith
  rw [this, mul_zero] at hx
  have hxy : y = x := sub_eq_zero.1 (abs_nonpos_iff.1 hx)
  rw [← hxy, h.exact hy] at hne
  exact hne rfl

theorem gammaSqrtD_eq (h : Nearest rnd) : gammaSqrtD rnd = 5713678966500419 / 2 ^ 50 := by
  unfold gammaSqrtD
  rw [h.eq_of_close (K := K) 5713678966500419 (-50) (by norm_num) (by norm_num) (by norm_num)
    (by rw [abs_lt]; constructor <;> norm_num [zpow_neg])]
  norm_num [zpow_neg]

theorem denomD_eq (h : Nearest rnd) : denomD rnd = 217731920909577 / 2 ^ 43 := by
  have e1 : rnd (gammaSqrtD rnd * gammaSqrtD rnd) = 226528013931785 / 2 ^ 43 := by
    rw [gammaSqrtD_eq h, h.eq_of_close (K := K) (226528013931785 * 2 ^ 5) (-48) (by norm_num)
      (by norm_num) (by norm_num) (by rw [abs_lt]; constructor <;> norm_num [zpow_neg])]
    norm_num [zpow_neg]
  unfold denomD
  rw [e1, h.eq_of_close (K := K) (217731920909577 * 2 ^ 5) (-48) (by norm_num)
      (by norm_num) (by norm_num) (by rw [abs_lt]; constructor <;> norm_num [zpow_neg])]
  norm_num [zpow_neg]

/-- **C164 (a)** Carriers in the ratio of the frequencies, that is, without ionosphere: if no
operations are fused, the correction is exactly zero, for all doubles and any rounding to nearest
(the rounded ratio lies so near to 543/107 that its error is rounded off again). -/
theorem iono_zero_partial (h : Nearest rnd) (l1 l2 : K) (h1 : IsDouble l1)
    (hr : 107 * l1 = 543 * l2) : ionoD rnd false l1 l2 = 0 := by
  have e : l2 = 107 / 543 * l1 := by linarith
  have key : rnd (gammaSqrtD rnd * l2) = l1 := by
    apply h.eq_of_rel h1
    rw [gammaSqrtD_eq h, e, show l1 - 5713678966500419 / 2 ^ 50 * (107 / 543 * l1) =
      (1 - 5713678966500419 / 2 ^ 50 * (107 / 543)) * l1 by ring, abs_mul]
    refine mul_le_mul_of_nonneg_right ?_ (abs_nonneg _)
    rw [abs_le]; constructor <;> norm_num [zpow_neg]
  unfold ionoD
  simp [key, h.zero]

/-- **C164 (b)** With a fused product the correction of such carriers is not zero: 543 and 107
cycles are corrected, for every rounding to nearest. -/
theorem iono_fused_counterexample (h : Nearest rnd) : ionoD rnd true 543 107 < 0 := by
  have e1 : rnd (543 - gammaSqrtD rnd * 107) = -(1 / 2 ^ 50) := by
    rw [gammaSqrtD_eq h, show (543 : K) - 5713678966500419 / 2 ^ 50 * 107 = ((-1 : ℤ) : K) * 2 ^ (-50 : ℤ)
      by norm_num [zpow_neg], h.exact ⟨-1, -50, by norm_num, by norm_num, rfl⟩]
    norm_num [zpow_neg]
  have e2 : (-(1 / 2 ^ 50) : K) / (217731920909577 / 2 ^ 43) ≤ ((-1 : ℤ) : K) * 2 ^ (-55 : ℤ) := by
    norm_num [zpow_neg]
  unfold ionoD
  simp only [if_true, e1, denomD_eq h]
  have := h.le_of_le ⟨-1, -55, by norm_num, by norm_num, rfl⟩ e2
  refine lt_of_le_of_lt this ?_
  norm_num [zpow_neg]

end gap

/-- The analysis behind `iono_bound`, for any operation with a relative error `U` and an absolute
error `E`. -/
theorem iono_aux {rnd : ℝ → ℝ} (U E : ℝ) (hU : U = 1 / 2 ^ 53) (n0 : 0 < E)
    (herr : ∀ x, |rnd x - x| ≤ U * |x| + E) (fused : Bool) (l1 l2 : ℝ) :
    |rnd ((if fused then rnd (l1 - 5713678966500419 / 2 ^ 50 * l2) else
      rnd (l1 - rnd (5713678966500419 / 2 ^ 50 * l2))) / (217731920909577 / 2 ^ 43)) -
        (l1 - 543 / 107 * l2) / (283400 / 11449)| ≤ U * (|l1| / 2 + 2 * |l2|) + 2 * E := by
  have u0 : 0 < U := by rw [hU]; norm_num
  set a := |l1| with ha
  set b := |l2| with hb
  have a0 : 0 ≤ a := abs_nonneg _
  have b0 : 0 ≤ b := abs_nonneg _
  set g : ℝ := 5713678966500419 / 2 ^ 50 with hg
  set q : ℝ := 217731920909577 / 2 ^ 43 with hq
  have g0 : 0 < g := by rw [hg]; norm_num
  have gb : g ≤ (127 / 25) := by rw [hg]; norm_num
  have q0 : (99 / 4) ≤ q := by rw [hq]; norm_num
  -- the numerator
  obtain ⟨num, hnum, hne⟩ : ∃ num, num = (if fused then rnd (l1 - g * l2) else
      rnd (l1 - rnd (g * l2))) ∧ |num - (l1 - g * l2)| ≤ U * (a + 3 * g * b) + 3 * E := by
    have gl : |g * l2| = g * b := by rw [abs_mul, abs_of_pos g0]
    refine ⟨_, rfl, ?_⟩
    · cases fused
      · simp only [Bool.false_eq_true, if_false]
        have e1 := herr (g * l2)
        rw [gl] at e1
        have e2 := herr (l1 - rnd (g * l2))
        have e3 : |l1 - rnd (g * l2)| ≤ a + |rnd (g * l2)| := abs_sub _ _
        have e4 : |rnd (g * l2)| ≤ |rnd (g * l2) - g * l2| + g * b := by
          have := abs_add_le (rnd (g * l2) - g * l2) (g * l2)
          rwa [sub_add_cancel, gl] at this
        have e5 : |rnd (l1 - rnd (g * l2)) - (l1 - g * l2)| ≤
            |rnd (l1 - rnd (g * l2)) - (l1 - rnd (g * l2))| + |rnd (g * l2) - g * l2| := by
          have := abs_sub (rnd (l1 - rnd (g * l2)) - (l1 - rnd (g * l2))) (rnd (g * l2) - g * l2)
          rwa [show rnd (l1 - rnd (g * l2)) - (l1 - rnd (g * l2)) - (rnd (g * l2) - g * l2) =
            rnd (l1 - rnd (g * l2)) - (l1 - g * l2) by ring] at this
        have gb0 : 0 ≤ g * b := mul_nonneg g0.le b0
        have e6 : U * |l1 - rnd (g * l2)| ≤ U * (a + (U * (g * b) + E + g * b)) :=
          mul_le_mul_of_nonneg_left (by linarith) u0.le
        have e7 : U * (U * (g * b)) ≤ U * (g * b) * (1 / 2 ^ 53) := by
          nlinarith [mul_nonneg u0.le gb0]
        have e8 : U * E ≤ E := by nlinarith
        nlinarith [mul_nonneg u0.le gb0]
      · simp only [if_true]
        have e1 := herr (l1 - g * l2)
        have e3 : |l1 - g * l2| ≤ a + g * b := by rw [← gl]; exact abs_sub _ _
        have := mul_le_mul_of_nonneg_left e3 u0.le
        nlinarith [mul_nonneg u0.le (mul_nonneg g0.le b0)]
  rw [← hnum]
  -- the division
  have d1 := herr (num / q)
  have qp : 0 < q := by rw [hq]; norm_num
  have d2 : |num| ≤ a + g * b + (U * (a + 3 * g * b) + 3 * E) := by
    have h1 := abs_add_le (num - (l1 - g * l2)) (l1 - g * l2)
    rw [sub_add_cancel] at h1
    have h2 : |l1 - g * l2| ≤ a + g * b := by
      have : |g * l2| = g * b := by rw [abs_mul, abs_of_pos g0]
      rw [← this]; exact abs_sub _ _
    linarith
  -- distance of the exact quotients
  set G : ℝ := 543 / 107 with hG
  set Q : ℝ := 283400 / 11449 with hQ
  have gG : |g - G| ≤ 1 / 2 ^ 56 := by rw [hg, hG, abs_le]; constructor <;> norm_num
  have qQ : |1 / q - 1 / Q| ≤ 1 / 2 ^ 56 := by rw [hq, hQ, abs_le]; constructor <;> norm_num
  have gb' : g * b ≤ (127 / 25) * b := mul_le_mul_of_nonneg_right gb b0
  have R : ∀ t : ℝ, 0 ≤ t → t / q ≤ t / (99 / 4) := fun t ht =>
    div_le_div_of_nonneg_left ht (by norm_num) q0
  have d3 : |num / q| ≤ |num| / (99 / 4) := by
    rw [abs_div, abs_of_pos qp]; exact R _ (abs_nonneg _)
  have d4 : |(g - G) * l2| ≤ 1 / 2 ^ 56 * b := by
    rw [abs_mul]; exact mul_le_mul_of_nonneg_right gG b0
  have d5 : |num - (l1 - G * l2)| ≤ U * (a + 3 * g * b) + 3 * E + 1 / 2 ^ 56 * b := by
    have := abs_sub (num - (l1 - g * l2)) ((g - G) * l2)
    rw [show num - (l1 - g * l2) - (g - G) * l2 = num - (l1 - G * l2) by ring] at this
    exact this.trans (add_le_add hne d4)
  have d6 : |(num - (l1 - G * l2)) / q| ≤ |num - (l1 - G * l2)| / (99 / 4) := by
    rw [abs_div, abs_of_pos qp]; exact R _ (abs_nonneg _)
  have d7 : |l1 - G * l2| ≤ a + (127 / 25) * b := by
    have h1 := abs_sub l1 (G * l2)
    have h2 : |G * l2| ≤ (127 / 25) * b := by
      rw [abs_mul, abs_of_pos (show (0 : ℝ) < G by rw [hG]; norm_num)]
      exact mul_le_mul_of_nonneg_right (by rw [hG]; norm_num) b0
    linarith
  have d8 : |(l1 - G * l2) * (1 / q - 1 / Q)| ≤ (a + (127 / 25) * b) * (1 / 2 ^ 56) := by
    rw [abs_mul]
    exact mul_le_mul d7 qQ (abs_nonneg _) (by positivity)
  have d9 : |rnd (num / q) - (l1 - G * l2) / Q| ≤ |rnd (num / q) - num / q| +
      (|(num - (l1 - G * l2)) / q| + |(l1 - G * l2) * (1 / q - 1 / Q)|) := by
    have h1 := abs_add_le (rnd (num / q) - num / q)
      ((num - (l1 - G * l2)) / q + (l1 - G * l2) * (1 / q - 1 / Q))
    have h2 := abs_add_le ((num - (l1 - G * l2)) / q) ((l1 - G * l2) * (1 / q - 1 / Q))
    rw [show rnd (num / q) - num / q + ((num - (l1 - G * l2)) / q +
      (l1 - G * l2) * (1 / q - 1 / Q)) = rnd (num / q) - (l1 - G * l2) / Q by ring] at h1
    linarith
  subst hU
  norm_num at *
  linarith

/-- **C164 (c)** Any carriers, fused or not: the computed correction differs from the exact one by
at most half a rounding unit of the first and two of the second (and a few of the smallest doubles). -/
theorem iono_bound {rnd : ℝ → ℝ} (h : Nearest rnd) (fused : Bool) (l1 l2 : ℝ) :
    |ionoD rnd fused l1 l2 - carrierIonoCorrection l1 l2| ≤
      2 ^ (-53 : ℤ) * (|l1| / 2 + 2 * |l2|) + 2 ^ (-1074 : ℤ) := by
  have e1 : (2 : ℝ) ^ (-1074 : ℤ) = 2 * eta := by unfold eta; ring
  have e2 : (2 : ℝ) ^ (-53 : ℤ) = 1 / 2 ^ 53 := by norm_num [zpow_neg]
  have exact : carrierIonoCorrection l1 l2 = (l1 - 543 / 107 * l2) / (283400 / 11449) := by
    unfold carrierIonoCorrection gamma gammaSqrt freq1MHz freq2MHz
    norm_num
  have := iono_aux (2 ^ (-53 : ℤ)) eta e2 eta_pos h.err_both fused l1 l2
  rw [e1, exact]
  unfold ionoD
  rw [denomD_eq h, gammaSqrtD_eq h]
  exact this

/-- Carriers of an orbit of Jason-3: 10^10 cycles are corrected to 1e-5 of a cycle. -/
example : |ionoD (rnd64 : ℝ → ℝ) true 1e10 1.97e9 - carrierIonoCorrection 1e10 1.97e9| ≤ 1e-5 := by
  refine (iono_bound rnd64_nearest true 1e10 1.97e9).trans ?_
  have : (2 : ℝ) ^ (-1074 : ℤ) ≤ 2 ^ (-30 : ℤ) := zpow_le_zpow_right₀ (by norm_num) (by norm_num)
  refine (add_le_add_right this _).trans ?_
  norm_num [zpow_neg, abs_of_pos]

/-- 2^33 cycles without ionosphere. -/
example : ionoD (rnd64 : ℚ → ℚ) false (543 * 2 ^ 24) (107 * 2 ^ 24) = 0 :=
  iono_zero_partial rnd64_nearest _ _
    (by have := isDouble_int (K := ℚ) (543 * 2 ^ 24) (by norm_num); norm_num at this ⊢; exact this) (by norm_num)

end Verif.Float
