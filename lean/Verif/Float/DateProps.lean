import Verif.Float.DateModel
import Verif.Float.ClockProps

/-
C119: the date of the Earth orientation during the integration, in double arithmetic.
-/
namespace Verif.Float

open Verif.Rinex (truncInt)

variable {rnd : ℚ → ℚ}

/-- Nanoseconds of a day. -/
def dayNs : ℤ := 86400 * 10 ^ 9

/-- Nanoseconds since the zero of the day count. -/
def totalNs (d : ℤ × ℤ) : ℤ := d.1 * dayNs + d.2

/-- The fraction of a day is computed without error. -/
theorem isDouble_fract {x : ℚ} (hx : IsDouble x) (h0 : 0 ≤ x) : IsDouble (x - ⌊x⌋) := by
  obtain ⟨m, e, hm, he, rfl⟩ := hx
  rcases le_or_gt 0 e with h | h
  · obtain ⟨k, rfl⟩ := Int.eq_ofNat_of_zero_le h
    have : (m : ℚ) * 2 ^ (k : ℤ) = ((m * 2 ^ k : ℤ) : ℚ) := by push_cast; rw [zpow_natCast]
    rw [this, Int.floor_intCast, sub_self]
    exact isDouble_zero
  · obtain ⟨k, hk⟩ := Int.eq_ofNat_of_zero_le (by omega : 0 ≤ -e)
    have ek : e = -(k : ℤ) := by omega
    have p : (0 : ℚ) < 2 ^ e := zpow_pos (by norm_num) e
    set f := ⌊(m : ℚ) * 2 ^ e⌋ with hf
    have f0 : 0 ≤ f := Int.floor_nonneg.2 h0
    have hm0 : 0 ≤ m := by
      by_contra hc
      have : (m : ℚ) < 0 := by exact_mod_cast (not_le.1 hc)
      nlinarith
    have e1 : (m : ℚ) * 2 ^ e - f = ((m - f * 2 ^ k : ℤ) : ℚ) * 2 ^ e := by
      push_cast
      rw [sub_mul, mul_assoc, ← zpow_natCast (2 : ℚ) k, ← zpow_add₀ (by norm_num), ek]
      simp
    have d0 : 0 ≤ (m : ℚ) * 2 ^ e - f := sub_nonneg.2 (Int.floor_le _)
    have d1 : 0 ≤ m - f * 2 ^ k := by
      rw [e1] at d0
      have := nonneg_of_mul_nonneg_left d0 p
      exact_mod_cast this
    have d2 : m - f * 2 ^ k ≤ m := by
      have : 0 ≤ f * 2 ^ k := by positivity
      omega
    refine ⟨m - f * 2 ^ k, e, ?_, he, e1⟩
    rw [abs_of_nonneg d1]
    rw [abs_of_nonneg hm0] at hm
    omega

/-- The gap between doubles from `2^15` on is `2^-37` or more. -/
theorem fract_le {x : ℚ} (hx : IsDouble x) (h : 32768 ≤ x) : x - ⌊x⌋ ≤ 1 - 1 / 137438953472 := by
  obtain ⟨m, e, hm, he, rfl⟩ := hx
  have he' : -37 ≤ e := by
    by_contra hc
    have h1 : (2 : ℚ) ^ e ≤ 2 ^ (-38 : ℤ) := zpow_le_zpow_right₀ (by norm_num) (by omega)
    have h2 : (m : ℚ) ≤ 9007199254740991 := by
      have : m ≤ 9007199254740991 := by
        have := (abs_lt.1 hm).2
        norm_num at this
        omega
      exact_mod_cast this
    have p : (0 : ℚ) < 2 ^ e := zpow_pos (by norm_num) e
    rw [show (2 : ℚ) ^ (-38 : ℤ) = 1 / 274877906944 by norm_num] at h1
    have := mul_le_mul_of_nonneg_right h2 p.le
    linarith
  obtain ⟨k, hk⟩ := Int.eq_ofNat_of_zero_le (by omega : 0 ≤ e + 37)
  have ek : e = (k : ℤ) + -37 := by omega
  have hz : (m : ℚ) * 2 ^ e = ((m * 2 ^ k : ℤ) : ℚ) / 137438953472 := by
    rw [ek, zpow_add₀ (by norm_num), zpow_natCast, show (2 : ℚ) ^ (-37 : ℤ) = 1 / 137438953472 by norm_num]
    push_cast; ring
  rw [hz]
  set n := m * 2 ^ k
  set f := ⌊((n : ℤ) : ℚ) / 137438953472⌋ with hf
  have h1 : ((n : ℤ) : ℚ) / 137438953472 < f + 1 := Int.lt_floor_add_one _
  rw [div_lt_iff₀ (by norm_num)] at h1
  have h2 : n < (f + 1) * 137438953472 := by exact_mod_cast h1
  have h3 : n + 1 ≤ (f + 1) * 137438953472 := h2
  have h4 : ((n : ℤ) : ℚ) + 1 ≤ (f + 1) * 137438953472 := by exact_mod_cast h3
  rw [sub_le_iff_le_add, div_le_iff₀ (by norm_num)]
  linarith

/-- The split of a date is the whole days and the nanoseconds within the day. -/
theorem splitMjd_spec (hr : Nearest rnd) {x : ℚ} (hx : IsDouble x) (h : 32768 ≤ x) :
    (splitMjd rnd x).1 = ⌊x⌋ ∧ 0 ≤ (splitMjd rnd x).2 ∧ (splitMjd rnd x).2 < dayNs ∧
      (totalNs (splitMjd rnd x) : ℚ) ≤ x * dayNs + 1 / 32 ∧
      x * dayNs - 1 - 1 / 32 < totalNs (splitMjd rnd x) := by
  have h0 : 0 ≤ x := by linarith
  have t : truncInt x = ⌊x⌋ := truncInt_nonneg h0
  have hs : splitMjd rnd x = (⌊x⌋, truncInt (rnd (rnd ((x - ⌊x⌋) * 86400) * 10 ^ 9))) := by
    unfold splitMjd
    rw [t]
    simp only [hr.exact (isDouble_fract hx h0)]
  set f := x - ⌊x⌋ with hf
  have f0 : 0 ≤ f := sub_nonneg.2 (Int.floor_le x)
  have f1 := fract_le hx h
  rw [← hf] at f1
  set s := rnd (f * 86400) with hsd
  have s0 : 0 ≤ s := hr.nonneg (by positivity)
  have e1 := hr.err (-36) (by norm_num) (x := f * 86400) (by
    rw [abs_of_nonneg (by positivity)]; norm_num; linarith)
  rw [← hsd, abs_le, show (2 : ℚ) ^ (-36 : ℤ) / 2 = 1 / 137438953472 by norm_num] at e1
  set r := rnd (s * 10 ^ 9) with hrd
  have r0 : 0 ≤ r := hr.nonneg (by positivity)
  have e2 := hr.err (-6) (by norm_num) (x := s * 10 ^ 9) (by
    rw [abs_of_nonneg (by positivity)]; norm_num; linarith [e1.2])
  rw [← hrd, abs_le, show (2 : ℚ) ^ (-6 : ℤ) / 2 = 1 / 128 by norm_num] at e2
  have tr : truncInt r = ⌊r⌋ := truncInt_nonneg r0
  rw [hs, tr]
  have l1 := Int.floor_le r
  have l2 := Int.lt_floor_add_one r
  have hx' : x = ⌊x⌋ + f := by rw [hf]; ring
  refine ⟨rfl, Int.floor_nonneg.2 r0, ?_, ?_, ?_⟩
  · rw [Int.floor_lt]
    unfold dayNs
    push_cast
    linarith [e1.2, e2.2]
  · unfold totalNs dayNs
    push_cast
    linarith [e1.2, e2.2]
  · unfold totalNs dayNs
    push_cast
    linarith [e1.1, e2.1]

theorem splitMjd_mono (hr : Nearest rnd) {x y : ℚ} (hx : IsDouble x) (hy : IsDouble y)
    (h : 32768 ≤ x) (hxy : x ≤ y) : totalNs (splitMjd rnd x) ≤ totalNs (splitMjd rnd y) := by
  obtain ⟨a1, a2, a3, -⟩ := splitMjd_spec hr hx h
  obtain ⟨b1, b2, b3, -⟩ := splitMjd_spec hr hy (h.trans hxy)
  have hf : ⌊x⌋ ≤ ⌊y⌋ := Int.floor_le_floor hxy
  rcases hf.eq_or_lt with he | hl
  · have : (splitMjd rnd x).2 ≤ (splitMjd rnd y).2 := by
      have tx : truncInt x = ⌊x⌋ := truncInt_nonneg (by linarith)
      have ty : truncInt y = ⌊y⌋ := truncInt_nonneg (by linarith)
      unfold splitMjd
      rw [tx, ty]
      simp only [he]
      have g0 : 0 ≤ x - ⌊y⌋ := by rw [← he]; exact sub_nonneg.2 (Int.floor_le x)
      have z : ∀ q, 0 ≤ q → 0 ≤ rnd (rnd (rnd q * 86400) * 10 ^ 9) := fun q hq =>
        hr.nonneg (mul_nonneg (hr.nonneg (mul_nonneg (hr.nonneg hq) (by norm_num))) (by norm_num))
      rw [truncInt_nonneg (z _ g0), truncInt_nonneg (z _ (by linarith))]
      apply Int.floor_le_floor
      apply hr.mono
      apply mul_le_mul_of_nonneg_right _ (by norm_num)
      apply hr.mono
      apply mul_le_mul_of_nonneg_right _ (by norm_num)
      apply hr.mono
      linarith
    unfold totalNs
    rw [a1, b1, he]
    omega
  · unfold totalNs
    rw [a1, b1]
    have : (⌊x⌋ + 1) * dayNs ≤ ⌊y⌋ * dayNs :=
      mul_le_mul_of_nonneg_right hl (by unfold dayNs; norm_num)
    rw [add_mul] at this
    omega

theorem currentMjd_bounds (hr : Nearest rnd) {mjd t : ℚ} (ht : |t| ≤ 1382400)
    (h1 : 32769 ≤ mjd + t / 86400) (h2 : mjd + t / 86400 ≤ 65535) :
    32768 ≤ currentMjd rnd mjd t ∧
      |currentMjd rnd mjd t - (mjd + t / 86400)| ≤ 1 / 274877906944 + 1 / 1125899906842624 := by
  have e1 := hr.err (-49) (by norm_num) (x := t / 86400) (by
    rw [abs_div, abs_of_pos (by norm_num : (0 : ℚ) < 86400), div_le_iff₀ (by norm_num)]
    norm_num; linarith)
  rw [show (2 : ℚ) ^ (-49 : ℤ) / 2 = 1 / 1125899906842624 by norm_num] at e1
  have e1' := abs_le.1 e1
  have e2 := hr.err (-37) (by norm_num) (x := mjd + rnd (t / 86400)) (by
    rw [abs_of_nonneg (by linarith [e1'.1])]; norm_num; linarith [e1'.2])
  rw [show (2 : ℚ) ^ (-37 : ℤ) / 2 = 1 / 274877906944 by norm_num] at e2
  have e2' := abs_le.1 e2
  unfold currentMjd
  constructor
  · linarith [e1'.1, e2'.1]
  · rw [abs_le]
    constructor
    · linarith [e1'.1, e2'.1]
    · linarith [e1'.2, e2'.2]

/-- **C119 (a)** The date for which Earth orientation is computed at integration time `t` (up to 16
days from the start) is a valid date (nanoseconds below one day) and differs by less than 316 ns from
the start date plus `t`, for all dates from 1948 to 2038, any start given as a double, any choice
among equally near doubles.  Missing for the full statement: the exact nanosecond, see
`date_resolution_counterexample`. -/
theorem orientation_date_partial (hr : Nearest rnd) (mjd t : ℚ) (ht : |t| ≤ 1382400)
    (h1 : 32769 ≤ mjd + t / 86400) (h2 : mjd + t / 86400 ≤ 65535) :
    0 ≤ (orientationDate rnd mjd t).2 ∧ (orientationDate rnd mjd t).2 < dayNs ∧
      |(totalNs (orientationDate rnd mjd t) : ℚ) - (mjd * dayNs + t * 10 ^ 9)| < 316 := by
  obtain ⟨hb, he⟩ := currentMjd_bounds hr ht h1 h2
  obtain ⟨-, a2, a3, a4, a5⟩ := splitMjd_spec hr (hr.mem _) hb
  refine ⟨a2, a3, ?_⟩
  have he' := abs_le.1 he
  unfold orientationDate
  change (totalNs (splitMjd rnd (currentMjd rnd mjd t)) : ℚ) ≤ currentMjd rnd mjd t * dayNs + 1 / 32 at a4
  change currentMjd rnd mjd t * dayNs - 1 - 1 / 32 < totalNs (splitMjd rnd (currentMjd rnd mjd t)) at a5
  generalize (totalNs (splitMjd rnd (currentMjd rnd mjd t)) : ℚ) = T at *
  generalize currentMjd rnd mjd t = c at *
  have hd : (dayNs : ℚ) = 86400000000000 := by unfold dayNs; norm_num
  rw [hd] at a4 a5 ⊢
  rw [abs_lt]
  constructor
  · linarith [he'.1]
  · linarith [he'.2]

/-- **C119 (b)** The date never runs backward while the integration time advances. -/
theorem orientation_date_mono (hr : Nearest rnd) (mjd t t' : ℚ) (htt : t ≤ t') (ht : |t| ≤ 1382400)
    (h1 : 32769 ≤ mjd + t / 86400) (h2 : mjd + t / 86400 ≤ 65535) :
    totalNs (orientationDate rnd mjd t) ≤ totalNs (orientationDate rnd mjd t') := by
  obtain ⟨hb, -⟩ := currentMjd_bounds hr ht h1 h2
  refine splitMjd_mono hr (hr.mem _) (hr.mem _) hb ?_
  unfold currentMjd
  apply hr.mono
  have := hr.mono (x := t / 86400) (y := t' / 86400) (by linarith)
  linarith

/-- **C119 (c)** At the start date MJD 58849 (1 January 2020) all integration times within 300 ns of
the start have the same date: the date in days resolves 0.6 microseconds only. -/
theorem date_resolution_counterexample (hr : Nearest rnd) (t : ℚ) (ht : |t| ≤ 3 / 10 ^ 7) :
    orientationDate rnd 58849 t = (58849, 0) := by
  have e1 := hr.err (-90) (by norm_num) (x := t / 86400) (by
    rw [abs_div, abs_of_pos (by norm_num : (0 : ℚ) < 86400), div_le_iff₀ (by norm_num)]
    norm_num at ht ⊢; linarith)
  have e1' := abs_le.1 e1
  have ht' := abs_le.1 ht
  have hc : currentMjd rnd 58849 t = 58849 := by
    unfold currentMjd
    rw [hr.eq_of_close (58849 * 2 ^ 37) (-37) (by norm_num) (by norm_num) (by norm_num)]
    · norm_num
    · rw [show (((58849 * 2 ^ 37 : ℤ) : ℚ) * 2 ^ (-37 : ℤ)) = 58849 by norm_num, abs_lt]
      norm_num at e1' ht' ⊢
      constructor
      · linarith [e1'.2]
      · linarith [e1'.1]
  unfold orientationDate
  rw [hc]
  unfold splitMjd
  rw [truncInt_nonneg (by norm_num : (0 : ℚ) ≤ 58849)]
  norm_num [hr.zero, truncInt]

/-- One day and a tenth of a second after 1 January 2020. -/
example : |(totalNs (orientationDate rnd64 58849 (864001 / 10)) : ℚ) -
    (58849 * dayNs + 864001 / 10 * 10 ^ 9)| < 316 :=
  (orientation_date_partial rnd64_nearest 58849 (864001 / 10)
    (by rw [abs_of_pos (by norm_num)]; norm_num) (by norm_num) (by norm_num)).2.2

example : totalNs (orientationDate rnd64 58849 10) ≤ totalNs (orientationDate rnd64 58849 11) :=
  orientation_date_mono rnd64_nearest 58849 10 11 (by norm_num)
    (by rw [abs_of_pos (by norm_num)]; norm_num) (by norm_num) (by norm_num)

example : orientationDate rnd64 58849 (1 / 10 ^ 7) = (58849, 0) :=
  date_resolution_counterexample rnd64_nearest _ (by rw [abs_of_pos (by norm_num)]; norm_num)

end Verif.Float
