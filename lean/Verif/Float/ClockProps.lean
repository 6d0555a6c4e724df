import Verif.Float.ClockModel

/-
C118: clock offsets and L2/L1 offsets of a RINEX file in whole nanoseconds, in double arithmetic.
-/
namespace Verif.Float

open Verif.Rinex (truncInt)

variable {rnd : ℚ → ℚ}

theorem truncInt_nonneg {x : ℚ} (h : 0 ≤ x) : truncInt x = ⌊x⌋ := by
  unfold truncInt
  rw [Int.tdiv_eq_ediv_of_nonneg (Rat.num_nonneg.2 h), Rat.floor_def']

theorem truncInt_neg (x : ℚ) : truncInt (-x) = - truncInt x := by
  unfold truncInt
  rw [Rat.neg_num, Rat.neg_den, Int.neg_tdiv]

/-- What one step of scaling and truncation may give. -/
def OffByOne (k r : ℤ) : Prop := r = k ∨ (0 < k ∧ r = k - 1) ∨ (k < 0 ∧ r = k + 1)

theorem Nearest.mirror' {rnd : ℚ → ℚ} (h : Nearest rnd) : Nearest (fun x => - rnd (-x)) := by
  refine ⟨fun x => (h.mem _).neg, fun x y hy => ?_⟩
  have := h.near (-x) (-y) hy.neg
  rw [show - rnd (-x) - x = -(rnd (-x) - -x) by ring, abs_neg,
    show y - x = -(-y - -x) by ring, abs_neg]
  exact this

theorem toUnits_pos (hr : Nearest rnd) (S : ℕ) (hS : 1 ≤ S) (hS' : S ≤ 2 ^ 53) (k : ℤ) (hk : 0 < k)
    (hk' : k ≤ 2 ^ 50) :
    toUnits rnd S (readField rnd S k) = k ∨ toUnits rnd S (readField rnd S k) = k - 1 := by
  have S0 : (1 : ℚ) ≤ S := by exact_mod_cast hS
  have S1 : (S : ℚ) ≤ 9007199254740992 := by
    have : S ≤ 9007199254740992 := hS'.trans (by norm_num)
    exact_mod_cast this
  have k0 : (1 : ℚ) ≤ k := by exact_mod_cast hk
  have k1 : (k : ℚ) ≤ 1125899906842624 := by
    have : k ≤ 1125899906842624 := hk'.trans (by norm_num)
    exact_mod_cast this
  have Sp : (0 : ℚ) < S := by linarith
  have tiny : (2 : ℚ) ^ (-1022 : ℤ) ≤ 1 / 1152921504606846976 := by
    have : (2 : ℚ) ^ (-1022 : ℤ) ≤ 2 ^ (-60 : ℤ) :=
      zpow_le_zpow_right₀ (by norm_num) (by norm_num)
    rwa [show (2 : ℚ) ^ (-60 : ℤ) = 1 / 1152921504606846976 by norm_num] at this
  have hu : (2 : ℚ) ^ (-53 : ℤ) = 1 / 9007199254740992 := by norm_num
  have q0 : (1 : ℚ) / 9007199254740992 ≤ k / S := by
    rw [div_le_div_iff₀ (by norm_num) Sp]; nlinarith
  have e1 := hr.rel (x := (k : ℚ) / S) (by rw [abs_of_pos (by linarith)]; linarith)
  rw [abs_of_pos (by linarith : (0 : ℚ) < k / S), hu, abs_le] at e1
  set a := rnd ((k : ℚ) / S) with ha
  -- the product before rounding
  have hq : (k : ℚ) / S * S = k := div_mul_cancel₀ _ Sp.ne'
  have p1 : (k : ℚ) - 1 / 9007199254740992 * k ≤ a * S := by
    have := mul_le_mul_of_nonneg_right (by linarith [e1.1] :
      (k : ℚ) / S - 1 / 9007199254740992 * (k / S) ≤ a) Sp.le
    rw [sub_mul, mul_assoc, hq] at this
    exact this
  have p2 : a * S ≤ (k : ℚ) + 1 / 9007199254740992 * k := by
    have := mul_le_mul_of_nonneg_right (by linarith [e1.2] :
      a ≤ (k : ℚ) / S + 1 / 9007199254740992 * (k / S)) Sp.le
    rw [add_mul, mul_assoc, hq] at this
    exact this
  have e2 := hr.rel (x := a * S) (by rw [abs_of_pos (by linarith)]; linarith)
  rw [abs_of_pos (by linarith : (0 : ℚ) < a * S), hu, abs_le] at e2
  have r1 : (k : ℚ) - 1 < rnd (a * S) := by linarith [e2.1]
  have r2 : rnd (a * S) < k + 1 := by linarith [e2.2]
  unfold toUnits readField
  rw [← ha, truncInt_nonneg (by linarith)]
  have f1 : k - 1 ≤ ⌊rnd (a * S)⌋ := Int.le_floor.2 (by push_cast; linarith)
  have f2 : ⌊rnd (a * S)⌋ < k + 1 := Int.floor_lt.2 (by push_cast; linarith)
  omega

theorem toUnits_offByOne (hr : Nearest rnd) (S : ℕ) (hS : 1 ≤ S) (hS' : S ≤ 2 ^ 53) (k : ℤ)
    (hk : |k| ≤ 2 ^ 50) : OffByOne k (toUnits rnd S (readField rnd S k)) := by
  rcases lt_trichotomy k 0 with h | h | h
  · rw [abs_of_neg h] at hk
    have := toUnits_pos hr.mirror' S hS hS' (-k) (by omega) hk
    have e : toUnits (fun x => - rnd (-x)) S (readField (fun x => - rnd (-x)) S (-k)) =
        - toUnits rnd S (readField rnd S k) := by
      unfold toUnits readField
      rw [← truncInt_neg]
      congr 3
      push_cast
      rw [neg_div, neg_neg]
      ring_nf
    rw [e] at this
    unfold OffByOne
    omega
  · subst h
    left
    unfold toUnits readField
    simp [hr.zero, truncInt]
  · rw [abs_of_pos h] at hk
    have := toUnits_pos hr S hS hS' k h hk
    unfold OffByOne
    omega

/-- **C118 (a)** The corrected L1 epoch is the recorded epoch plus the recorded clock offset, or one
nanosecond short of it: the offset loses at most one nanosecond, toward zero.  For every offset up to
`2^50` ns (13 days), any choice among equally near doubles.  A record without offset, or a file with
offsets applied, is left as it is.  Missing for the full statement: the exact nanosecond, see
`clock_offset_counterexample`. -/
theorem l1_epoch_partial (hr : Nearest rnd) (epoch k : ℤ) (hk : |k| ≤ 2 ^ 50) :
    OffByOne k (l1EpochD rnd false epoch (some k) - epoch) ∧
      l1EpochD rnd true epoch (some k) = epoch ∧ l1EpochD rnd false epoch none = epoch := by
  refine ⟨?_, rfl, ?_⟩
  · have := toUnits_offByOne hr (10 ^ 9) (by norm_num) (by norm_num) k hk
    unfold l1EpochD
    simpa using this
  · unfold l1EpochD toUnits
    simp [hr.zero, truncInt]

/-- **C118 (b)** The same for the distance of the L2 epoch from the L1 epoch. -/
theorem l2_epoch_partial (hr : Nearest rnd) (applied : Bool) (epoch k l : ℤ) (hl : |l| ≤ 2 ^ 50) :
    OffByOne l ((l1l2EpochsD rnd applied l epoch k).2 - (l1l2EpochsD rnd applied l epoch k).1) ∧
      (l1l2EpochsD rnd applied l epoch k).1 = l1EpochD rnd applied epoch (some k) := by
  constructor
  · have := toUnits_offByOne hr (10 ^ 3) (by norm_num) (by norm_num) l hl
    unfold l1l2EpochsD l21OffsetD
    simpa using this
  · unfold l1l2EpochsD l1EpochD
    rfl

/-- **C118 (c)** An offset of 15 ns, written as 0.000000015, moves the epoch by 14 ns: the product of
the nearest double and 1e9 lies just below 15 and is cut off. -/
theorem clock_offset_counterexample (hr : Nearest rnd) (epoch : ℤ) :
    l1EpochD rnd false epoch (some 15) = epoch + 14 := by
  have h1 : rnd ((15 : ℚ) / 10 ^ 9) = (4533471823554859 : ℤ) * 2 ^ (-78 : ℤ) := by
    apply hr.eq_of_close _ _ (by norm_num) (by norm_num) (by norm_num)
    rw [abs_lt]; constructor <;> norm_num [zpow_neg]
  have h2 : rnd (((4533471823554859 : ℤ) : ℚ) * 2 ^ (-78 : ℤ) * 10 ^ 9) =
      (8444249301319679 : ℤ) * 2 ^ (-49 : ℤ) := by
    apply hr.eq_of_close _ _ (by norm_num) (by norm_num) (by norm_num)
    rw [abs_lt]; constructor <;> norm_num [zpow_neg]
  unfold l1EpochD toUnits readField
  simp only [Bool.false_eq_true, if_false, Int.cast_ofNat, Nat.cast_pow, Nat.cast_ofNat]
  rw [h1, h2, truncInt_nonneg (by positivity)]
  congr 1
  rw [Int.floor_eq_iff]
  constructor <;> norm_num [zpow_neg]

/-- **C118 (d)** Likewise an L2/L1 offset of 1.001 microseconds becomes 1000 ns. -/
theorem l21_offset_counterexample (hr : Nearest rnd) : l21OffsetD rnd 1001 = 1000 := by
  have h1 : rnd ((1001 : ℚ) / 10 ^ 3) = (4508103226997866 : ℤ) * 2 ^ (-52 : ℤ) := by
    apply hr.eq_of_close _ _ (by norm_num) (by norm_num) (by norm_num)
    rw [abs_lt]; constructor <;> norm_num [zpow_neg]
  have h2 : rnd (((4508103226997866 : ℤ) : ℚ) * 2 ^ (-52 : ℤ) * 10 ^ 3) =
      (8804889115230207 : ℤ) * 2 ^ (-43 : ℤ) := by
    apply hr.eq_of_close _ _ (by norm_num) (by norm_num) (by norm_num)
    rw [abs_lt]; constructor <;> norm_num [zpow_neg]
  unfold l21OffsetD toUnits readField
  simp only [Int.cast_ofNat, Nat.cast_pow, Nat.cast_ofNat]
  rw [h1, h2, truncInt_nonneg (by positivity), Int.floor_eq_iff]
  constructor <;> norm_num [zpow_neg]

/-- A record of the satellite Jason-3: offset -4.432841287 s. -/
example : OffByOne (-4432841287) (l1EpochD rnd64 false 1000 (some (-4432841287)) - 1000) :=
  (l1_epoch_partial rnd64_nearest 1000 (-4432841287) (by norm_num)).1

example : l1EpochD rnd64 false 1000 (some 15) = 1014 :=
  clock_offset_counterexample rnd64_nearest 1000

end Verif.Float
