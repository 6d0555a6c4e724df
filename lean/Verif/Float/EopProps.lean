import Verif.Float.EopModel
import Verif.Float.InterpProps
import Verif.Eop.InterpProps

/-
C167: the time argument of the tidal models and the restoration of the tidal effect in double arithmetic.
-/
namespace Verif.Float

variable {rnd : ℝ → ℝ}

/-- The whole days are exact. -/
theorem jc_days (h : Nearest rnd) (i : ℤ) (h0 : 0 ≤ i) (h1 : i ≤ 2 ^ 40) :
    rnd (rnd ((i : ℝ) + 4800001 / 2) - 2451545) = i - 103089 / 2 := by
  have e1 : rnd ((i : ℝ) + 4800001 / 2) = i + 4800001 / 2 := by
    refine h.exact ⟨2 * i + 4800001, -1, ?_, by norm_num, ?_⟩
    · rw [abs_of_nonneg (by omega)]; omega
    · push_cast; norm_num [zpow_neg]; ring
  rw [e1]
  have e2 : (i : ℝ) + 4800001 / 2 - 2451545 = i - 103089 / 2 := by ring
  rw [e2]
  refine h.exact ⟨2 * i - 103089, -1, ?_, by norm_num, ?_⟩
  · rw [abs_lt]; constructor <;> omega
  · push_cast; norm_num [zpow_neg]; ring

/-- The parts of the argument: the day `i` and the part `f` of the day. -/
theorem jc_parts (h : Nearest rnd) (i : ℤ) (f : ℝ) (h0 : 15100 ≤ i) (h1 : i ≤ 88000) (f0 : 0 ≤ f)
    (f1 : f < 1) :
    |rnd (((i : ℝ) - 103089 / 2) / 36525) - ((i : ℝ) - 103089 / 2) / 36525| ≤ 1 / 2 ^ 54 ∧
    |rnd (f / 36525) - f / 36525| ≤ 1 / 2 ^ 69 ∧
    |rnd (rnd (((i : ℝ) - 103089 / 2) / 36525) + rnd (f / 36525)) -
      (rnd (((i : ℝ) - 103089 / 2) / 36525) + rnd (f / 36525))| ≤ 1 / 2 ^ 54 := by
  have i0 : (15100 : ℝ) ≤ i := by exact_mod_cast h0
  have i1 : (i : ℝ) ≤ 88000 := by exact_mod_cast h1
  have a : |((i : ℝ) - 103089 / 2) / 36525| ≤ 999 / 1000 := by
    rw [abs_le]
    constructor
    · rw [le_div_iff₀ (by norm_num)]; linarith
    · rw [div_le_iff₀ (by norm_num)]; linarith
  have b : |f / 36525| ≤ 1 / 36525 := by
    rw [abs_of_nonneg (by positivity)]
    exact div_le_div_of_nonneg_right f1.le (by norm_num)
  have e1 : |rnd (((i : ℝ) - 103089 / 2) / 36525) - ((i : ℝ) - 103089 / 2) / 36525| ≤ 1 / 2 ^ 54 :=
    h.err_num (-53) (by norm_num) a (by norm_num) (by norm_num [zpow_neg])
  have e2 : |rnd (f / 36525) - f / 36525| ≤ 1 / 2 ^ 69 :=
    h.err_num (-68) (by norm_num) b (by norm_num [zpow_neg]) (by norm_num [zpow_neg])
  refine ⟨e1, e2, ?_⟩
  have c := (abs_add_le _ _).trans (add_le_add (abs_near e1 a) (abs_near e2 b))
  exact h.err_num (-53) (by norm_num) c (by norm_num) (by norm_num [zpow_neg])

theorem jcD_eq (h : Nearest rnd) (t : ℝ) (h0 : 15100 ≤ t) (h1 : t ≤ 88000) :
    ∃ (i : ℤ) (f : ℝ), 15100 ≤ i ∧ i ≤ 88000 ∧ 0 ≤ f ∧ f < 1 ∧ t = i + f ∧
      jcD rnd t = rnd (rnd (((i : ℝ) - 103089 / 2) / 36525) + rnd (f / 36525)) := by
  have i0 : (15100 : ℤ) ≤ ⌊t⌋ := Int.le_floor.2 (by exact_mod_cast h0)
  have i1 : ⌊t⌋ ≤ (88000 : ℤ) := by
    have : (⌊t⌋ : ℝ) ≤ (88000 : ℤ) := (Int.floor_le t).trans (by exact_mod_cast h1)
    exact_mod_cast this
  refine ⟨⌊t⌋, t - ⌊t⌋, i0, i1, sub_nonneg.2 (Int.floor_le t), ?_, by ring, ?_⟩
  · linarith [Int.lt_floor_add_one t]
  · unfold jcD
    simp only
    rw [jc_days h _ (by omega) (by omega)]

/-- **C167 (a)** From 1900 to 2099 the time argument, in centuries, is computed to 2^-53 + 2^-69
(0.36 microseconds). -/
theorem jc_error (h : Nearest rnd) (t : ℝ) (h0 : 15100 ≤ t) (h1 : t ≤ 88000) :
    |jcD rnd t - Eop.Interp.jc2000 t| ≤ 1 / 2 ^ 53 + 1 / 2 ^ 69 := by
  obtain ⟨i, f, i0, i1, f0, f1, rfl, e⟩ := jcD_eq h t h0 h1
  obtain ⟨a, b, c⟩ := jc_parts h i f i0 i1 f0 f1
  have x : Eop.Interp.jc2000 (i + f) = ((i : ℝ) - 103089 / 2) / 36525 + f / 36525 := by
    rw [Eop.Interp.jc2000_eq]; norm_num; ring
  rw [e, x]
  exact (near_trans c (near_add a b)).trans (by norm_num)

/-- Doubles from 2^15 on are multiples of 2^-37. -/
theorem isDouble_grid {t : ℝ} (ht : IsDouble t) (h0 : 32768 ≤ t) :
    ∃ k : ℤ, t = k * (1 / 2 ^ 37) := by
  obtain ⟨m, e, hm, he, rfl⟩ := ht
  have e1 : -37 ≤ e := by
    by_contra hc
    have hc' : e ≤ -38 := by omega
    have z : (2 : ℝ) ^ e ≤ 2 ^ (-38 : ℤ) := zpow_le_zpow_right₀ (by norm_num) hc'
    have m1 : (m : ℝ) < 2 ^ 53 := by exact_mod_cast (abs_lt.1 hm).2
    have p : (0 : ℝ) < 2 ^ e := zpow_pos (by norm_num) e
    have : (m : ℝ) * 2 ^ e < 2 ^ 53 * 2 ^ (-38 : ℤ) :=
      lt_of_lt_of_le (mul_lt_mul_of_pos_right m1 p) (mul_le_mul_of_nonneg_left z (by norm_num))
    norm_num [zpow_neg] at this
    linarith
  obtain ⟨j, rfl⟩ : ∃ j : ℕ, e = j + -37 := ⟨(e + 37).toNat, by omega⟩
  refine ⟨m * 2 ^ j, ?_⟩
  rw [zpow_add₀ (by norm_num), zpow_natCast]
  push_cast
  norm_num [zpow_neg]
  ring

/-- **C167 (b)** Different epochs give different arguments, in the same order: for all doubles from
August 1948 (MJD 32768) to 2099.  Before, neighbouring epochs can coincide
(`jc_same_counterexample`). -/
theorem jc_strict_partial (h : Nearest rnd) (t t' : ℝ) (dt : IsDouble t) (dt' : IsDouble t') (h0 : 32768 ≤ t)
    (h1 : t' ≤ 88000) (hlt : t < t') : jcD rnd t < jcD rnd t' := by
  have gap : t + 1 / 2 ^ 37 ≤ t' := by
    obtain ⟨k, hk⟩ := isDouble_grid dt h0
    obtain ⟨l, hl⟩ := isDouble_grid dt' (h0.trans hlt.le)
    have kl : k < l := by
      have : (k : ℝ) * (1 / 2 ^ 37) < l * (1 / 2 ^ 37) := by rw [← hk, ← hl]; exact hlt
      exact_mod_cast lt_of_mul_lt_mul_right this (by norm_num)
    have kl' : (k : ℝ) + 1 ≤ l := by exact_mod_cast kl
    rw [hk, hl]
    have := mul_le_mul_of_nonneg_right kl' (by norm_num : (0 : ℝ) ≤ 1 / 2 ^ 37)
    linarith
  obtain ⟨i, f, i0, i1, f0, f1, et, e⟩ := jcD_eq h t (by linarith) (by linarith)
  obtain ⟨i', f', i0', i1', f0', f1', et', e'⟩ := jcD_eq h t' (by linarith) h1
  obtain ⟨a, b, c⟩ := jc_parts h i f i0 i1 f0 f1
  obtain ⟨a', b', c'⟩ := jc_parts h i' f' i0' i1' f0' f1'
  rw [e, e']
  rcases lt_trichotomy i i' with hi | hi | hi
  · -- a later day: compare with its beginning
    have g : rnd (((i' : ℝ) - 103089 / 2) / 36525) ≤
        rnd (rnd (((i' : ℝ) - 103089 / 2) / 36525) + rnd (f' / 36525)) :=
      h.ge_of_ge (h.mem _) (by linarith [h.nonneg (div_nonneg f0' (by norm_num : (0 : ℝ) ≤ 36525))])
    have day : (i : ℝ) + f + 1 / 2 ^ 37 ≤ i' := by
      obtain ⟨k, hk⟩ := isDouble_grid dt h0
      have hi' : (i : ℝ) + 1 ≤ i' := by exact_mod_cast hi
      have lt : (k : ℝ) * (1 / 2 ^ 37) < i' := by rw [← hk, et]; linarith
      have lt2 : k < i' * 2 ^ 37 := by
        have : (k : ℝ) < i' * 2 ^ 37 := by
          norm_num at lt ⊢
          linarith
        exact_mod_cast this
      have lt3 : (k : ℝ) + 1 ≤ i' * 2 ^ 37 := by exact_mod_cast lt2
      rw [← et, hk]
      norm_num at lt3 ⊢
      linarith
    rw [abs_le] at a b c a'
    refine lt_of_lt_of_le ?_ g
    generalize rnd (rnd (((i : ℝ) - 103089 / 2) / 36525) + rnd (f / 36525)) = r1 at *
    generalize rnd (((i : ℝ) - 103089 / 2) / 36525) = r2 at *
    generalize rnd (f / 36525) = r3 at *
    generalize rnd (((i' : ℝ) - 103089 / 2) / 36525) = r4 at *
    have := c.2
    have := a.2
    have := b.2
    have := a'.1
    norm_num at *
    linarith
  · subst hi
    have ff : f + 1 / 2 ^ 37 ≤ f' := by rw [et, et'] at gap; linarith
    rw [abs_le] at b c b' c'
    generalize rnd (rnd (((i : ℝ) - 103089 / 2) / 36525) + rnd (f / 36525)) = r1 at *
    generalize rnd (rnd (((i : ℝ) - 103089 / 2) / 36525) + rnd (f' / 36525)) = r5 at *
    generalize rnd (((i : ℝ) - 103089 / 2) / 36525) = r2 at *
    generalize rnd (f / 36525) = r3 at *
    generalize rnd (f' / 36525) = r4 at *
    have := c.2
    have := b.2
    have := b'.1
    have := c'.1
    norm_num at *
    linarith
  · exfalso
    have : (i' : ℝ) + 1 ≤ i := by exact_mod_cast hi
    linarith

/-- **C167** On 4 August 1948 (MJD 32767) the day begins with the same argument as the last double of the day before:
two different epochs are not distinguished. -/
theorem jc_same_counterexample :
    IsDouble (32767 - 1 / 2 ^ 38 : ℚ) ∧ jcD (rnd64 : ℚ → ℚ) (32767 - 1 / 2 ^ 38) = jcD rnd64 32767 := by
  refine ⟨⟨32767 * 2 ^ 38 - 1, -38, by norm_num, by norm_num, by norm_num [zpow_neg]⟩, ?_⟩
  decide +kernel

/-- **C167 (c)** Subtracting the tidal effect from a value and adding it again changes the value by at
most 2^-53 (|a| + (1 + 2^-53) |a - d|), for all doubles. -/
theorem restore_bound_partial (h : Nearest rnd) (a d : ℝ) (ha : IsDouble a) (hd : IsDouble d) :
    |restoreD rnd a d - a| ≤ 2 ^ (-53 : ℤ) * (|a| + (1 + 2 ^ (-53 : ℤ)) * |a - d|) := by
  have e1 := h.sub_rel ha hd
  have e2 := h.sub_rel (h.mem (a - d)) hd.neg
  rw [sub_neg_eq_add] at e2
  unfold restoreD
  have e3 : |rnd (a - d) + d - a| ≤ 2 ^ (-53 : ℤ) * |a - d| := by
    rwa [show rnd (a - d) + d - a = rnd (a - d) - (a - d) by ring]
  have e4 := abs_near e3 (le_refl |a|)
  have p : (0 : ℝ) < 2 ^ (-53 : ℤ) := zpow_pos (by norm_num) _
  have e5 := near_trans e2 e3
  generalize (2 : ℝ) ^ (-53 : ℤ) = U at *
  have := mul_le_mul_of_nonneg_left e4 p.le
  linarith

/-- **C167** UT1 - UTC = 0.1317 s and a tidal effect of -0.0029 s: after subtracting and adding the effect the value is
not the one of the file. -/
theorem restore_counterexample :
    restoreD (rnd64 : ℚ → ℚ) (rnd64 (1317 / 10000)) (rnd64 (-29 / 10000)) < rnd64 (1317 / 10000) := by
  decide +kernel

/-! ### Witnesses -/

example : jcD (rnd64 : ℝ → ℝ) 60000 < jcD rnd64 (60000 + 1 / 2 ^ 37) :=
  jc_strict_partial rnd64_nearest _ _ ⟨60000, 0, by norm_num, by norm_num, by norm_num⟩
    ⟨60000 * 2 ^ 37 + 1, -37, by norm_num, by norm_num, by norm_num [zpow_neg]⟩ (by norm_num) (by norm_num) (by norm_num)

example : |jcD (rnd64 : ℝ → ℝ) 60000.25 - Eop.Interp.jc2000 60000.25| ≤ 1 / 2 ^ 53 + 1 / 2 ^ 69 :=
  jc_error rnd64_nearest _ (by norm_num) (by norm_num)

end Verif.Float
