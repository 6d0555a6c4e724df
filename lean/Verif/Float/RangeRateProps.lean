import Verif.Float.RangeRateModel
import Verif.Float.FreqProps
import Verif.Pod.ObsModel

/-
C165: the measured range rate in double arithmetic: the roundings of all operations together change
it by less than 1e-7 m/s.
-/
namespace Verif.Float

open Verif.Pod

variable {rnd : ℝ → ℝ}

/-- The rounding error of a number of known size. -/
theorem Nearest.err_num (h : Nearest rnd) (e : ℤ) (he : -1074 ≤ e) {x B ε : ℝ} (hx : |x| ≤ B)
    (hB : B ≤ 2 ^ (e + 53)) (hε : (2 : ℝ) ^ e / 2 ≤ ε) : |rnd x - x| ≤ ε :=
  (h.err e he (hx.trans hB)).trans hε

theorem abs_near {x y ε B : ℝ} (h : |x - y| ≤ ε) (hy : |y| ≤ B) : |x| ≤ B + ε := by
  have := abs_add_le (x - y) y
  rw [sub_add_cancel] at this
  linarith

theorem near_trans {x y z ε δ : ℝ} (h : |x - y| ≤ ε) (h' : |y - z| ≤ δ) : |x - z| ≤ ε + δ := by
  have := abs_add_le (x - y) (y - z)
  rw [sub_add_sub_cancel] at this
  linarith

theorem near_add {a b a' b' ε δ : ℝ} (h : |a - a'| ≤ ε) (h' : |b - b'| ≤ δ) :
    |a + b - (a' + b')| ≤ ε + δ := by
  have := abs_add_le (a - a') (b - b')
  rw [show a - a' + (b - b') = a + b - (a' + b') by ring] at this
  linarith

theorem near_sub {a b a' b' ε δ : ℝ} (h : |a - a'| ≤ ε) (h' : |b - b'| ≤ δ) :
    |a - b - (a' - b')| ≤ ε + δ := by
  have := abs_sub (a - a') (b - b')
  rw [show a - a' - (b - b') = a - b - (a' - b') by ring] at this
  linarith

theorem near_mul {a b a' b' ε δ A B : ℝ} (h : |a - a'| ≤ ε) (h' : |b - b'| ≤ δ) (hA : |a| ≤ A)
    (hB : |b'| ≤ B) : |a * b - a' * b'| ≤ A * δ + ε * B := by
  have e : a * b - a' * b' = a * (b - b') + (a - a') * b' := by ring
  rw [e]
  refine (abs_add_le _ _).trans ?_
  rw [abs_mul, abs_mul]
  exact add_le_add
    (mul_le_mul hA h' (abs_nonneg _) ((abs_nonneg _).trans hA))
    (mul_le_mul h hB (abs_nonneg _) ((abs_nonneg _).trans h))

theorem abs_mul_le' {a b A B : ℝ} (hA : |a| ≤ A) (hB : |b| ≤ B) : |a * b| ≤ A * B := by
  rw [abs_mul]
  exact mul_le_mul hA hB (abs_nonneg _) ((abs_nonneg _).trans hA)

/-- Division by an interval of at least a second. -/
theorem near_div {a a' ε dt : ℝ} (h : |a - a'| ≤ ε) (hdt : 1 ≤ dt) : |a / dt - a' / dt| ≤ ε := by
  rw [← sub_div, abs_div, abs_of_pos (by linarith : 0 < dt)]
  exact (div_le_self (abs_nonneg _) hdt).trans h

/-- The frequency of the receiver is computed to `4e-7` Hz. -/
theorem frT_bound (h : Nearest rnd) (fused : Bool) (v : ℝ) (hv : |v| ≤ 10 ^ 5) :
    |frTD rnd fused v - 2036250000 * (1 + v / 10 ^ 11)| ≤ 37 / 10 ^ 8 := by
  have l0 : |rnd (1 / 10 ^ 11) - 1 / 10 ^ 11| ≤ 1 / 2 ^ 90 :=
    h.err_num (-89) (by norm_num) (B := 1 / 10 ^ 11) (by rw [abs_of_pos (by norm_num)])
      (by norm_num [zpow_neg]) (by norm_num [zpow_neg])
  have vl : |v * rnd (1 / 10 ^ 11) - v / 10 ^ 11| ≤ 1 / 2 ^ 73 := by
    have := near_mul (a := v) (a' := v) (ε := 0) (B := 1) (by simp) l0 hv
      (by rw [abs_of_pos (by norm_num)]; norm_num)
    rw [show v * (1 / 10 ^ 11) = v / 10 ^ 11 by ring] at this
    exact this.trans (by norm_num)
  have v11 : |v / 10 ^ 11| ≤ 1 / 10 ^ 6 := by
    rw [abs_div, abs_of_pos (by norm_num : (0 : ℝ) < 10 ^ 11)]
    exact (div_le_div_of_nonneg_right hv (by norm_num)).trans (by norm_num)
  have vla := abs_near vl v11
  have s1 : ∀ t : ℝ, |t - v / 10 ^ 11| ≤ 1 / 2 ^ 72 → |rnd (1 + t) - (1 + v / 10 ^ 11)| ≤
      1 / 2 ^ 53 + 1 / 2 ^ 72 := by
    intro t ht
    have ta := abs_near ht v11
    refine near_trans (h.err_num (-52) (by norm_num) (B := 2) ?_ (by norm_num) (by norm_num [zpow_neg]))
      (by rwa [add_sub_add_left_eq_sub])
    rw [abs_le] at ta ⊢
    constructor <;> norm_num at ta ⊢ <;> linarith [ta.1, ta.2]
  have s2 : |(if fused then rnd (1 + v * rnd (1 / 10 ^ 11)) else
      rnd (1 + rnd (v * rnd (1 / 10 ^ 11)))) - (1 + v / 10 ^ 11)| ≤ 1 / 2 ^ 53 + 1 / 2 ^ 72 := by
    cases fused
    · simp only [Bool.false_eq_true, if_false]
      refine s1 _ ?_
      refine (near_trans (h.err_num (-72) (by norm_num) vla (by norm_num [zpow_neg])
        (ε := 1 / 2 ^ 73) (by norm_num [zpow_neg])) vl).trans (by norm_num)
    · simp only [if_true]
      exact s1 _ (vl.trans (by norm_num))
  have p0 : rnd (8145 / 4 * 1000000) = 2036250000 := by
    have := isDouble_int (K := ℝ) 2036250000 (by norm_num)
    rw [show (8145 / 4 * 1000000 : ℝ) = ((2036250000 : ℤ) : ℝ) by norm_num, h.exact this]
    norm_num
  unfold frTD
  simp only
  rw [p0]
  generalize (if fused then rnd (1 + v * rnd (1 / 10 ^ 11)) else
      rnd (1 + rnd (v * rnd (1 / 10 ^ 11)))) = s at s2 ⊢
  have sa : |1 + v / 10 ^ 11| ≤ 1 + 1 / 10 ^ 6 := by
    rw [abs_le] at v11 ⊢
    constructor <;> linarith [v11.1, v11.2]
  have m := near_mul (a := 2036250000) (a' := 2036250000) (ε := 0) (A := 2036250000)
    (by simp) s2 (by rw [abs_of_pos (by norm_num)]) sa
  have ma : |(2036250000 : ℝ) * s| ≤ 2147483648 :=
    (abs_mul_le' (A := 2036250000) (by rw [abs_of_pos (by norm_num)]) (abs_near s2 sa)).trans
      (by norm_num)
  refine (near_trans (h.err_num (-22) (by norm_num) ma (by norm_num) (ε := 1 / 2 ^ 23)
    (by norm_num [zpow_neg])) m).trans (by norm_num)

/-- A difference over an interval between 1 and 128 s. -/
theorem rate_bound (h : Nearest rnd) (a b dt : ℝ) (h1 : 1 ≤ dt) (h2 : dt ≤ 128)
    (hab : |a - b| ≤ 2 ^ 20 * dt) :
    |rateD rnd a b dt - (a - b) / dt| ≤ 1 / 2 ^ 27 + 1 / 2 ^ 33 ∧ |(a - b) / dt| ≤ 2 ^ 20 := by
  have e0 : |a - b| ≤ 2 ^ 27 := hab.trans (by nlinarith)
  have e1 : |rnd (a - b) - (a - b)| ≤ 1 / 2 ^ 27 :=
    h.err_num (-26) (by norm_num) e0 (by norm_num) (by norm_num [zpow_neg])
  have e2 : |(a - b) / dt| ≤ 2 ^ 20 := by
    rw [abs_div, abs_of_pos (by linarith : 0 < dt), div_le_iff₀ (by linarith)]; exact hab
  have e3 := near_div e1 h1
  refine ⟨?_, e2⟩
  unfold rateD
  refine (near_trans (h.err_num (-32) (by norm_num) (abs_near e3 e2) (by norm_num)
    (ε := 1 / 2 ^ 33) (by norm_num [zpow_neg])) e3).trans (by norm_num)

/-- The wavelength. -/
theorem wave_bound (h : Nearest rnd) (feN : ℝ) (h1 : 2 * 10 ^ 9 ≤ feN) :
    |rnd (299792458 / feN) - 299792458 / feN| ≤ 1 / 2 ^ 56 ∧ |299792458 / feN| ≤ 15 / 100 := by
  have w : |299792458 / feN| ≤ 15 / 100 := by
    rw [abs_of_pos (div_pos (by norm_num) (by linarith)), div_le_iff₀ (by linarith)]
    linarith
  exact ⟨h.err_num (-55) (by norm_num) w (by norm_num [zpow_neg]) (by norm_num [zpow_neg]), w⟩

/-- The ionospheric part. -/
theorem dion_bound (h : Nearest rnd) (feN a b dt : ℝ) (hf : 2 * 10 ^ 9 ≤ feN) (h1 : 1 ≤ dt)
    (h2 : dt ≤ 128) (hab : |a - b| ≤ 2 ^ 20 * dt) :
    |dionD rnd feN a b dt - 299792458 / feN * (a - b) / dt| ≤ 6 / 10 ^ 9 ∧
      |299792458 / feN * (a - b) / dt| ≤ 2 ^ 18 := by
  obtain ⟨w, wa⟩ := wave_bound h feN hf
  have e0 : |a - b| ≤ 2 ^ 27 := hab.trans (by nlinarith)
  have e1 : |rnd (a - b) - (a - b)| ≤ 1 / 2 ^ 27 :=
    h.err_num (-26) (by norm_num) e0 (by norm_num) (by norm_num [zpow_neg])
  have wa' : |rnd (299792458 / feN)| ≤ 16 / 100 := (abs_near w wa).trans (by norm_num)
  have m := near_mul w e1 wa' e0
  have ma : |rnd (299792458 / feN) * rnd (a - b)| ≤ 2 ^ 25 :=
    (abs_mul_le' wa' (abs_near e1 e0)).trans (by norm_num)
  have m2 : |rnd (rnd (299792458 / feN) * rnd (a - b)) - 299792458 / feN * (a - b)| ≤ 55 / 10 ^ 10 :=
    (near_trans (h.err_num (-28) (by norm_num) ma (by norm_num) (ε := 1 / 2 ^ 29)
      (by norm_num [zpow_neg])) m).trans (by norm_num)
  have d := near_div m2 h1
  have da : |299792458 / feN * (a - b) / dt| ≤ 2 ^ 18 := by
    rw [mul_div_assoc]
    have : |(a - b) / dt| ≤ 2 ^ 20 := by
      rw [abs_div, abs_of_pos (by linarith : 0 < dt), div_le_iff₀ (by linarith)]; exact hab
    exact (abs_mul_le' wa this).trans (by norm_num)
  refine ⟨?_, da⟩
  unfold dionD
  refine (near_trans (h.err_num (-34) (by norm_num) (abs_near d da) (by norm_num)
    (ε := 1 / 2 ^ 35) (by norm_num [zpow_neg])) d).trans (by norm_num)

/-- **C165** The measured range rate.  For every nominal frequency between 2.0 and 2.1 GHz, every
offset of the receiver up to 1e-6, every interval between 1 and 128 seconds, and ends whose phases
and ionospheric corrections differ by up to 2^20 cycles per second and whose relativistic
corrections by up to 2^20 m per second: what the program computes differs from the formula by less
than 1e-7 m/s, for every rounding to nearest, with or without fused operations. -/
theorem range_rate_bound (h : Nearest rnd) (f1 f2 : Bool) (k : Count) (v : ℝ)
    (hC : k.C = 299792458) (hfr : k.frT = 2036250000 * (1 + v / 10 ^ 11)) (hv : |v| ≤ 10 ^ 5)
    (hf1 : 2 * 10 ^ 9 ≤ k.feN) (hf2 : k.feN ≤ 21 * 10 ^ 8) (h1 : 1 ≤ k.dt) (h2 : k.dt ≤ 128)
    (hL : |k.cur.L1 - k.prev.L1| ≤ 2 ^ 20 * k.dt)
    (hI : |k.cur.diono - k.prev.diono| ≤ 2 ^ 20 * k.dt)
    (hR : |k.cur.drel - k.prev.drel| ≤ 2 ^ 20 * k.dt) :
    |uobsD rnd f2 k.feN (frTD rnd f1 v) (rateD rnd k.cur.L1 k.prev.L1 k.dt)
      (dionD rnd k.feN k.cur.diono k.prev.diono k.dt) (rateD rnd k.cur.drel k.prev.drel k.dt)
        - k.uobs| ≤ 1 / 10 ^ 7 := by
  have fr := frT_bound h f1 v hv
  rw [← hfr] at fr
  obtain ⟨nd, nda⟩ := rate_bound h _ _ _ h1 h2 hL
  obtain ⟨rl, rla⟩ := rate_bound h _ _ _ h1 h2 hR
  obtain ⟨di, dia⟩ := dion_bound h k.feN _ _ _ hf1 h1 h2 hI
  obtain ⟨w, wa⟩ := wave_bound h k.feN hf1
  have fra : |k.feN - k.frT| ≤ 64 * 10 ^ 6 := by
    rw [hfr]
    rw [abs_le] at hv ⊢
    constructor
    · have := hv.2
      have : 2036250000 * (1 + v / 10 ^ 11) ≤ 2036250000 * (1 + 10 ^ 5 / 10 ^ 11) :=
        mul_le_mul_of_nonneg_left (by gcongr) (by norm_num)
      norm_num at this ⊢
      linarith
    · have : 2036250000 * (1 + -10 ^ 5 / 10 ^ 11) ≤ 2036250000 * (1 + v / 10 ^ 11) :=
        mul_le_mul_of_nonneg_left (by gcongr; exact hv.1) (by norm_num)
      norm_num at this ⊢
      linarith
  have ex : k.uobs = 299792458 / k.feN * (k.feN - k.frT - (k.cur.L1 - k.prev.L1) / k.dt) +
      299792458 / k.feN * (k.cur.diono - k.prev.diono) / k.dt +
        (k.cur.drel - k.prev.drel) / k.dt := by
    unfold Count.uobs Count.dion Count.ndopDt
    rw [hC]
  rw [ex]
  unfold uobsD
  simp only
  generalize frTD rnd f1 v = fr' at *
  generalize rateD rnd k.cur.L1 k.prev.L1 k.dt = nd' at *
  generalize rateD rnd k.cur.drel k.prev.drel k.dt = rl' at *
  generalize dionD rnd k.feN k.cur.diono k.prev.diono k.dt = di' at *
  generalize (k.cur.L1 - k.prev.L1) / k.dt = N at *
  generalize (k.cur.drel - k.prev.drel) / k.dt = R at *
  generalize 299792458 / k.feN * (k.cur.diono - k.prev.diono) / k.dt = D at *
  generalize rnd (299792458 / k.feN) = a at *
  generalize 299792458 / k.feN = A at *
  -- the bracket
  have b1 : |k.feN - fr' - (k.feN - k.frT)| ≤ 37 / 10 ^ 8 := by
    have := near_sub (a := k.feN) (a' := k.feN) (ε := 0) (by simp) fr
    rwa [zero_add] at this
  have b2 : |rnd (k.feN - fr') - (k.feN - k.frT)| ≤ 1 / 2 ^ 28 + 37 / 10 ^ 8 :=
    near_trans (h.err_num (-27) (by norm_num) (abs_near b1 fra) (by norm_num)
      (by norm_num [zpow_neg])) b1
  have b3 := near_sub b2 nd
  have b3a : |k.feN - k.frT - N| ≤ 64 * 10 ^ 6 + 2 ^ 20 := (abs_sub _ _).trans (add_le_add fra nda)
  have b4 : |rnd (rnd (k.feN - fr') - nd') - (k.feN - k.frT - N)| ≤ 39 / 10 ^ 8 :=
    (near_trans (h.err_num (-27) (by norm_num) (abs_near b3 b3a) (by norm_num)
      (ε := 1 / 2 ^ 28) (by norm_num [zpow_neg])) b3).trans (by norm_num)
  generalize rnd (rnd (k.feN - fr') - nd') = b at *
  generalize k.feN - k.frT - N = B at *
  -- the product and the sums
  have aa : |a| ≤ 15 / 100 + 1 / 2 ^ 56 := abs_near w wa
  have m := near_mul w b4 aa b3a
  have ma : |a * b| ≤ 2 ^ 23 + 2 ^ 22 := (abs_mul_le' aa (abs_near b4 b3a)).trans (by norm_num)
  have ABa : |A * B| ≤ 2 ^ 23 + 2 ^ 22 := (abs_mul_le' wa b3a).trans (by norm_num)
  have sa : |A * B + D| ≤ 2 ^ 23 + 2 ^ 22 + 2 ^ 18 := (abs_add_le _ _).trans (add_le_add ABa dia)
  have s1 : |(if f2 then rnd (a * b + di') else rnd (rnd (a * b) + di')) - (A * B + D)| ≤
      75 / 10 ^ 9 := by
    have p : |rnd (a * b) - A * B| ≤ 6 / 10 ^ 8 + 1 / 10 ^ 9 :=
      (near_trans (h.err_num (-29) (by norm_num) ma (by norm_num) (ε := 1 / 2 ^ 30)
        (by norm_num [zpow_neg])) m).trans (by norm_num)
    have q1 := near_add p di
    have q2 := near_add m di
    cases f2
    · simp only [Bool.false_eq_true, if_false]
      exact (near_trans (h.err_num (-29) (by norm_num) (abs_near q1 sa) (by norm_num)
        (ε := 1 / 2 ^ 30) (by norm_num [zpow_neg])) q1).trans (by norm_num)
    · simp only [if_true]
      exact (near_trans (h.err_num (-29) (by norm_num) (abs_near q2 sa) (by norm_num)
        (ε := 1 / 2 ^ 30) (by norm_num [zpow_neg])) q2).trans (by norm_num)
  generalize (if f2 then rnd (a * b + di') else rnd (rnd (a * b) + di')) = s at *
  have t := near_add s1 rl
  have ta : |A * B + D + R| ≤ 2 ^ 23 + 2 ^ 22 + 2 ^ 18 + 2 ^ 20 :=
    (abs_add_le _ _).trans (add_le_add sa rla)
  exact (near_trans (h.err_num (-29) (by norm_num) (abs_near t ta) (by norm_num)
    (ε := 1 / 2 ^ 30) (by norm_num [zpow_neg])) t).trans (by norm_num)

/-- **C165 (b)** The bound is sharp up to a factor of two: at the nominal frequency 2036.25 MHz and an
offset of 35826e-11, with no change of phase in 10 s, the computed value is wrong by more than
5e-8 m/s, fused or not. -/
theorem range_rate_sharp (f1 f2 : Bool) :
    5 / 10 ^ 8 < |uobsD (rnd64 : ℚ → ℚ) f2 2036250000 (frTD rnd64 f1 35826) (rateD rnd64 0 0 10)
      (dionD rnd64 2036250000 0 0 10) (rateD rnd64 0 0 10) -
        299792458 / 2036250000 * (2036250000 - 2036250000 * (1 + 35826 / 10 ^ 11))| := by
  revert f1 f2
  decide +kernel

/-- A count of ten seconds: 10^5 cycles of Doppler shift, an ionospheric correction that changes by
40 cycles and a relativistic one that changes by 3 m. -/
noncomputable def sampleCount : Count :=
  { C := 299792458, feN := 2036250000, frT := 2036250000 * (1 + 150 / 10 ^ 11), dt := 10,
    prev := ⟨12345678, 20, 1, 2, 1, 1, ⟨0, 0, 1⟩⟩, cur := ⟨12445678, 60, 4, 2, 1, 1, ⟨0, 0, 1⟩⟩,
    R := ⟨⟨1, 0, 0⟩, ⟨0, 1, 0⟩, ⟨0, 0, 1⟩⟩ }

example (f1 f2 : Bool) :
    |uobsD (rnd64 : ℝ → ℝ) f2 2036250000 (frTD rnd64 f1 150) (rateD rnd64 12445678 12345678 10)
      (dionD rnd64 2036250000 60 20 10) (rateD rnd64 4 1 10) - sampleCount.uobs| ≤ 1 / 10 ^ 7 := by
  refine range_rate_bound rnd64_nearest f1 f2 sampleCount 150 rfl rfl ?_ ?_ ?_ ?_ ?_ ?_ ?_ ?_ <;>
    norm_num [sampleCount, abs_of_pos]

end Verif.Float
