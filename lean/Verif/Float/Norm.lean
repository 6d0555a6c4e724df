import Verif.Float.Arith

/-
The Euclidean norm in double arithmetic is not smaller than any component.
-/
namespace Verif.Float

variable {rnd : ℝ → ℝ}

/-- A double that is not too small has a 53-digit form with leading digit 1. -/
theorem IsDouble.normalised {x : ℝ} (hx : IsDouble x) (h : 2 ^ (-1022 : ℤ) ≤ |x|) :
    ∃ m e : ℤ, 2 ^ 52 ≤ |m| ∧ |m| < 2 ^ 53 ∧ -1074 ≤ e ∧ x = m * 2 ^ e := by
  obtain ⟨m, e, hm, he, rfl⟩ := hx
  have p : (0 : ℝ) < 2 ^ e := zpow_pos (by norm_num) e
  rw [abs_mul, abs_of_pos p] at h
  -- bring the leading digit up, one place at a time
  have key : ∀ k : ℕ, ∀ m e : ℤ, |m| < 2 ^ 53 → -1074 ≤ e → 2 ^ (-1022 : ℤ) ≤ |(m : ℝ)| * 2 ^ e →
      (2 ^ 53 - |m|).toNat ≤ k →
      ∃ m' e' : ℤ, 2 ^ 52 ≤ |m'| ∧ |m'| < 2 ^ 53 ∧ -1074 ≤ e' ∧ (m : ℝ) * 2 ^ e = m' * 2 ^ e' := by
    intro k
    induction k with
    | zero => intro m e hm _ _ hk; omega
    | succ k ih =>
      intro m e hm he h hk
      rcases le_or_gt (2 ^ 52) |m| with hc | hc
      · exact ⟨m, e, hc, hm, he, rfl⟩
      have m0 : m ≠ 0 := by
        rintro rfl
        have : (0 : ℝ) < 2 ^ (-1022 : ℤ) := zpow_pos (by norm_num) _
        simp only [Int.cast_zero, abs_zero, zero_mul] at h
        linarith
      have he1 : -1074 < e := by
        by_contra hh
        have e0 : e = -1074 := by omega
        subst e0
        have h2 : |(m : ℝ)| < 2 ^ 52 := by exact_mod_cast hc
        have h3 : |(m : ℝ)| * 2 ^ (-1074 : ℤ) < 2 ^ 52 * 2 ^ (-1074 : ℤ) :=
          mul_lt_mul_of_pos_right h2 (zpow_pos (by norm_num) _)
        have h4 : (2 : ℝ) ^ 52 * 2 ^ (-1074 : ℤ) = 2 ^ (-1022 : ℤ) := by
          rw [← zpow_natCast (2 : ℝ) 52, ← zpow_add₀ (by norm_num)]; rfl
        rw [h4] at h3
        exact absurd h (not_le.2 h3)
      have hval : (m : ℝ) * 2 ^ e = ((2 * m : ℤ) : ℝ) * 2 ^ (e - 1) := by
        rw [zpow_sub₀ (by norm_num)]; push_cast; ring
      have habs : |2 * m| = 2 * |m| := by rw [abs_mul]; rfl
      obtain ⟨m', e', a, b, c, d⟩ := ih (2 * m) (e - 1) (by rw [habs]; omega) (by omega) (by
        have p : (0 : ℝ) < 2 ^ e := zpow_pos (by norm_num) e
        have p' : (0 : ℝ) < 2 ^ (e - 1) := zpow_pos (by norm_num) _
        rw [← abs_of_pos p', ← abs_mul, ← hval, abs_mul, abs_of_pos p]
        exact h) (by
        rw [habs]
        have : 0 < |m| := abs_pos.2 m0
        omega)
      exact ⟨m', e', a, b, c, hval.trans d⟩
  exact key _ m e hm he h le_rfl

/-- The root of the rounded square is the number itself. -/
theorem sqrt_sq (hr : Nearest rnd) {x : ℝ} (hx : IsDouble x) (h : 2 ^ (-500 : ℤ) ≤ |x|) :
    rnd (√(rnd (x * x))) = |x| := by
  have x0 : 0 < |x| := lt_of_lt_of_le (zpow_pos (by norm_num) _) h
  have hax : IsDouble |x| := by
    rcases abs_choice x with e | e
    · rw [e]; exact hx
    · rw [e]; exact hx.neg
  obtain ⟨m, e, hm1, hm2, he, hxe⟩ := hax.normalised (by
    rw [abs_abs]
    exact le_trans (zpow_le_zpow_right₀ (by norm_num) (by norm_num)) h)
  have p : (0 : ℝ) < 2 ^ e := zpow_pos (by norm_num) e
  have mpos : 0 < m := by
    have : 0 < (m : ℝ) * 2 ^ e := hxe ▸ x0
    have := (mul_pos_iff_of_pos_right p).1 this
    exact_mod_cast this
  rw [abs_of_pos mpos] at hm1 hm2
  have hxx : x * x = |x| * |x| := (abs_mul_abs_self x).symm
  have big : 2 ^ (-1022 : ℤ) ≤ |x * x| := by
    rw [hxx, abs_mul, abs_abs]
    have : (2 : ℝ) ^ (-1022 : ℤ) ≤ 2 ^ (-500 : ℤ) * 2 ^ (-500 : ℤ) := by
      rw [← zpow_add₀ (by norm_num)]
      exact zpow_le_zpow_right₀ (by norm_num) (by norm_num)
    exact this.trans (mul_le_mul h h (zpow_pos (by norm_num) _).le x0.le)
  -- a power of two has an exact square
  rcases hm1.eq_or_lt with hm1 | hm1
  · have hsq : rnd (x * x) = x * x := by
      rcases le_or_gt (-1074) (104 + 2 * e) with hee | hee
      · apply hr.exact
        refine ⟨1, 104 + 2 * e, by norm_num, hee, ?_⟩
        rw [hxx, hxe, ← hm1, zpow_add₀ (by norm_num), show 2 * e = e + e by ring, zpow_add₀ (by norm_num)]
        push_cast
        rw [show (2 : ℝ) ^ (104 : ℤ) = 2 ^ 52 * 2 ^ 52 by norm_num]
        ring
      · exfalso
        have : |x * x| < 2 ^ (-1022 : ℤ) := by
          rw [hxx, abs_mul, abs_abs, hxe, ← hm1]
          rw [show ((2 ^ 52 : ℤ) : ℝ) = 2 ^ (52 : ℤ) by norm_num, ← zpow_add₀ (by norm_num), ← zpow_add₀ (by norm_num)]
          apply zpow_lt_zpow_right₀ (by norm_num)
          omega
        exact absurd big (not_le.2 this)
    rw [hsq, Real.sqrt_mul_self_eq_abs]
    exact hr.exact hax
  -- otherwise the error is less than half a digit
  have r1 : x * x * (1 - u) ≤ rnd (x * x) ∧ rnd (x * x) ≤ x * x * (1 + u) := by
    have := abs_le.1 (hr.rel big)
    rw [abs_of_nonneg (mul_self_nonneg x)] at this
    change -(u * (x * x)) ≤ _ ∧ _ ≤ u * (x * x) at this
    constructor <;> linarith [this.1, this.2]
  have hu : u = 1 / 9007199254740992 := by unfold u; norm_num
  have a1 : (4503599627370497 : ℝ) ≤ m := by
    have : 4503599627370497 ≤ m := by norm_num at hm1; omega
    exact_mod_cast this
  have a2 : (m : ℝ) ≤ 9007199254740991 := by
    have : m ≤ 9007199254740991 := by norm_num at hm2; omega
    exact_mod_cast this
  have p2 : (0 : ℝ) < 2 ^ e * 2 ^ e := mul_pos p p
  set s := √(rnd (x * x)) with hs
  have low : |x| - 2 ^ e / 2 < s := by
    apply Real.lt_sqrt_of_sq_lt
    refine lt_of_lt_of_le ?_ r1.1
    rw [hxx, hxe, hu]
    have a3 : (m : ℝ) * m / 9007199254740992 + 1 / 4 < m := by
      nlinarith
    nlinarith
  have high : s < |x| + 2 ^ e / 2 := by
    rw [hs, Real.sqrt_lt' (by positivity)]
    refine lt_of_le_of_lt r1.2 ?_
    rw [hxx, hxe, hu]
    have a3 : (m : ℝ) * m / 9007199254740992 < m := by
      nlinarith
    nlinarith
  rw [hxe]
  apply hr.eq_of_close m e he (by rwa [abs_of_pos mpos]) (by rwa [abs_of_pos mpos])
  rw [← hxe, abs_lt]
  constructor <;> linarith

/-- Components of the sizes met here: zero, or between `2^-500` and `2^500`. -/
def Ranged (x : ℝ) : Prop := IsDouble x ∧ (x = 0 ∨ 2 ^ (-500 : ℤ) ≤ |x| ∧ |x| ≤ 2 ^ 500)

theorem Ranged.sqrt_ge (hr : Nearest rnd) {x : ℝ} (h : Ranged x) : |x| ≤ rnd (√(rnd (x * x))) := by
  rcases h.2 with rfl | h'
  · rw [abs_zero]; exact hr.nonneg (Real.sqrt_nonneg _)
  · exact (sqrt_sq hr h.1 h'.1).ge

theorem Ranged.neg {x : ℝ} (h : Ranged x) : Ranged (-x) :=
  ⟨h.1.neg, by rw [neg_eq_zero, abs_neg]; exact h.2⟩

theorem ranged_zero : Ranged 0 := ⟨isDouble_zero, Or.inl rfl⟩

end Verif.Float
