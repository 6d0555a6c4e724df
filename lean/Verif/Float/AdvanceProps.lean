import Verif.Float.AdvanceModel
import Verif.Float.CylinderLemmas
import Verif.Float.Norm

/-
C122: every step of the integrator ends and moves the time on, in double arithmetic.
-/
namespace Verif.Float

open Real

variable {rnd : ℝ → ℝ}

/-- The double next to `x` upwards is at most as far as any positive double that is not smaller than
`2^-51 |x|`. -/
theorem next_double {x h : ℝ} (hx : IsDouble x) (hh : IsDouble h) (h0 : 0 < h)
    (hs : 2 ^ (-1022 : ℤ) ≤ |x| → 2 ^ (-51 : ℤ) * |x| ≤ h) : ∃ d, IsDouble d ∧ x < d ∧ d ≤ x + h := by
  by_cases hb : 2 ^ (-1022 : ℤ) ≤ |x|
  · obtain ⟨m, e, hm, he, hx', hlow⟩ : ∃ m e : ℤ, |m| < 2 ^ 53 ∧ -1074 ≤ e ∧ x = m * 2 ^ e ∧
        2 ^ 52 ≤ |m| := by
      obtain ⟨m, e, h1, h2, h3, h4⟩ := hx.normalised hb
      exact ⟨m, e, by assumption, by assumption, by assumption, by assumption⟩
    have hp : (0 : ℝ) < 2 ^ e := zpow_pos (by norm_num) _
    refine ⟨((m + 1 : ℤ) : ℝ) * 2 ^ e, isDouble_of_le _ _ ?_ he, ?_, ?_⟩
    · calc |m + 1| ≤ |m| + |1| := abs_add_le _ _
        _ ≤ 2 ^ 53 := by rw [abs_one]; omega
    · rw [hx']; push_cast; linarith
    · rw [hx']; push_cast
      have h1 : (2 : ℝ) ^ e ≤ 2 ^ (-51 : ℤ) * |x| := by
        rw [hx', abs_mul, abs_of_pos hp]
        have : (4503599627370496 : ℝ) ≤ |(m : ℝ)| := by
          have : ((4503599627370496 : ℤ) : ℝ) ≤ ((|m| : ℤ) : ℝ) := by exact_mod_cast hlow
          rw [Int.cast_abs] at this
          exact_mod_cast this
        have h2 : (2 : ℝ) ^ (-51 : ℤ) = 1 / 2251799813685248 := by norm_num
        rw [h2]
        nlinarith
      linarith [hs hb]
  · have hd : IsDouble (2 ^ (-1074 : ℤ) : ℝ) := ⟨1, -1074, by norm_num, le_rfl, by norm_num⟩
    have low : (2 : ℝ) ^ (-1074 : ℤ) ≤ h := by
      obtain ⟨m, e, hm, he, hh'⟩ := hh
      have hp : (0 : ℝ) < 2 ^ e := zpow_pos (by norm_num) _
      have hmp : 0 < m := by
        have : 0 < (m : ℝ) := by
          rw [hh'] at h0; exact (mul_pos_iff_of_pos_right hp).1 h0
        exact_mod_cast this
      have h1 : (1 : ℝ) ≤ m := by exact_mod_cast hmp
      calc (2 : ℝ) ^ (-1074 : ℤ) ≤ 2 ^ e := zpow_le_zpow_right₀ (by norm_num) he
        _ = 1 * 2 ^ e := (one_mul _).symm
        _ ≤ m * 2 ^ e := mul_le_mul_of_nonneg_right h1 hp.le
        _ = h := hh'.symm
    have hp : (0 : ℝ) < 2 ^ (-1074 : ℤ) := zpow_pos (by norm_num) _
    refine ⟨x + 2 ^ (-1074 : ℤ), ?_, by linarith, by linarith⟩
    obtain ⟨m, e, hm, he, hx'⟩ := hx
    -- x is a multiple of 2^-1074
    have hk : x = ((m * 2 ^ (e + 1074).toNat : ℤ) : ℝ) * 2 ^ (-1074 : ℤ) := by
      rw [hx']
      push_cast
      rw [mul_assoc, ← zpow_natCast, ← zpow_add₀ (by norm_num : (2 : ℝ) ≠ 0), Int.toNat_of_nonneg (by omega)]
      congr 2; ring
    set k := m * 2 ^ (e + 1074).toNat with hkd
    have hkb : |k| < 2 ^ 52 := by
      have h1 : |x| < 2 ^ (-1022 : ℤ) := not_le.1 hb
      rw [hk, abs_mul, abs_of_pos hp, show (-1022 : ℤ) = 52 + -1074 by norm_num,
        zpow_add₀ (by norm_num : (2 : ℝ) ≠ 0)] at h1
      have h2 := lt_of_mul_lt_mul_right h1 hp.le
      have h3 : ((|k| : ℤ) : ℝ) < ((2 ^ 52 : ℤ) : ℝ) := by
        rw [Int.cast_abs]
        refine lt_of_lt_of_eq h2 ?_
        norm_num
      exact Int.cast_lt.1 h3
    have : x + 2 ^ (-1074 : ℤ) = ((k + 1 : ℤ) : ℝ) * 2 ^ (-1074 : ℤ) := by
      rw [hk]; push_cast; ring
    rw [this]
    refine isDouble_of_le _ _ ?_ le_rfl
    calc |k + 1| ≤ |k| + |1| := abs_add_le _ _
      _ ≤ 2 ^ 53 := by rw [abs_one]; omega

/-- Rounding seen from the other side of zero. -/
theorem Nearest.mirrorR (h : Nearest rnd) : Nearest (fun x => - rnd (-x)) where
  mem x := (h.mem (-x)).neg
  near x y hy := by
    have := h.near (-x) (-y) hy.neg
    rw [show -rnd (-x) - x = -(rnd (-x) - -x) by ring, abs_neg]
    rw [show -y - -x = -(y - x) by ring, abs_neg] at this
    exact this

/-- Rounding does not halve a number that is not below the smallest double. -/
theorem Nearest.half_le (hr : Nearest rnd) {y : ℝ} (hy : 2 ^ (-1074 : ℤ) ≤ y) : y / 2 ≤ rnd y := by
  have hy0 : 0 < y := lt_of_lt_of_le (zpow_pos (by norm_num) _) hy
  by_cases h : 2 ^ (-1022 : ℤ) ≤ y
  · have := hr.rel (x := y) (by rw [abs_of_pos hy0]; exact h)
    rw [abs_of_pos hy0, abs_le] at this
    have h2 : (2 : ℝ) ^ (-53 : ℤ) ≤ 1 / 2 := by norm_num
    have h3 := mul_le_mul_of_nonneg_right h2 hy0.le
    have h4 := this.1
    clear this h2 h hy
    generalize (2 : ℝ) ^ (-53 : ℤ) * y = z at h3 h4
    linarith
  · have := hr.err (-1074) le_rfl (x := y) (by
      rw [abs_of_pos hy0]
      exact (not_le.1 h).le.trans (zpow_le_zpow_right₀ (by norm_num) (by norm_num)))
    rw [abs_le] at this
    linarith

theorem fourU_ge (hr : Nearest rnd) {x : ℝ} (hx : 2 ^ (-1022 : ℤ) ≤ |x|) :
    2 ^ (-51 : ℤ) * |x| ≤ fourU rnd x := by
  have h1 : (2 : ℝ) ^ (-1074 : ℤ) ≤ 2 ^ (-50 : ℤ) * |x| := by
    calc (2 : ℝ) ^ (-1074 : ℤ) ≤ 2 ^ (-50 : ℤ) * 2 ^ (-1022 : ℤ) := by
          rw [← zpow_add₀ (by norm_num)]; exact zpow_le_zpow_right₀ (by norm_num) (by norm_num)
      _ ≤ _ := mul_le_mul_of_nonneg_left hx (zpow_pos (by norm_num) _).le
  have := hr.half_le h1
  have e : (2 : ℝ) ^ (-51 : ℤ) * |x| = 2 ^ (-50 : ℤ) * |x| / 2 := by
    rw [show (-51 : ℤ) = -50 + -1 by norm_num, zpow_add₀ (by norm_num : (2 : ℝ) ≠ 0), zpow_neg_one]
    ring
  rw [e]; exact this

theorem fourU_nonneg (hr : Nearest rnd) (x : ℝ) : 0 ≤ fourU rnd x :=
  hr.nonneg (mul_nonneg (zpow_pos (by norm_num) _).le (abs_nonneg x))

/-- **C122 (a)** A step size that is not zero and passes the test of the code moves the time on, in
the direction of the step. -/
theorem time_moves (hr : Nearest rnd) {x h : ℝ} (hx : IsDouble x) (hh : IsDouble h) (h0 : h ≠ 0)
    (hs : fourU rnd x ≤ |h|) : 0 < h * (rnd (x + h) - x) := by
  rcases lt_or_gt_of_ne h0 with hn | hp
  · obtain ⟨d, hd, h1, h2⟩ := next_double hx.neg hh.neg (by linarith) (fun hb => by
      rw [abs_neg] at hb ⊢
      rw [abs_of_neg hn] at hs
      exact (fourU_ge hr hb).trans hs)
    have := hr.le_of_le (x := x + h) hd.neg (by linarith)
    exact mul_pos_of_neg_of_neg hn (by linarith)
  · obtain ⟨d, hd, h1, h2⟩ := next_double hx hh hp (fun hb => by
      rw [abs_of_pos hp] at hs
      exact (fourU_ge hr hb).trans hs)
    have := hr.ge_of_ge (x := x + h) hd h2
    exact mul_pos hp (by linarith)

/-- Rounding stays within a double bound. -/
theorem Nearest.abs_le_of (hr : Nearest rnd) {x b : ℝ} (hb : IsDouble b) (hx : |x| ≤ b) :
    |rnd x| ≤ b := by
  rw [abs_le] at hx ⊢
  exact ⟨hr.ge_of_ge hb.neg hx.1, hr.le_of_le hb hx.2⟩

theorem isDouble_half : IsDouble (1 / 2 : ℝ) := ⟨1, -1, by norm_num, by norm_num, by norm_num⟩

/-- The factor of a repeated attempt is a number between 0 and 1/2. -/
theorem shrinkD_half (hr : Nearest rnd) {p5eps : ℝ} (hp : 0 < p5eps) (hd : IsDouble p5eps)
    (hb : p5eps < 2 ^ 1024) (ifail : ℤ) (erk : D) :
    ∃ t, shrinkD rnd p5eps ifail erk = .fin t ∧ 0 ≤ t ∧ t ≤ 1 / 2 := by
  have big : (1 : ℝ) < 2 ^ 1024 := one_lt_pow₀ (by norm_num) (by norm_num)
  unfold shrinkD
  split
  · rename_i h
    obtain ⟨-, h⟩ := h
    rcases erk with e | s | _
    · -- a finite estimate above four times the tolerance
      have he : p5eps < 1 / 4 * e := by
        by_contra hc
        rw [not_lt] at hc
        have h1 := hr.le_of_le hd hc
        have h : D.lt (.fin p5eps) (out rnd (1 / 4 * e)) := h
        by_cases h2 : |rnd (1 / 4 * e)| < 2 ^ 1024
        · rw [out_fin h2] at h
          exact absurd (show p5eps < rnd (1 / 4 * e) from h) (not_lt.2 h1)
        · unfold out at h
          rw [if_neg h2] at h
          have h3 : ¬ (1 / 4 * e < 0) := by simpa [D.lt] using h
          apply h2
          rw [abs_of_nonneg (hr.nonneg (not_lt.1 h3))]
          exact lt_of_le_of_lt h1 hb
      have e0 : 0 < e := by linarith
      have q0 : 0 ≤ p5eps / e := by positivity
      have q1 : p5eps / e ≤ 1 / 4 := by rw [div_le_iff₀ e0]; exact he.le
      have r0 := hr.nonneg q0
      have r1 : rnd (p5eps / e) ≤ 1 / 4 :=
        hr.le_of_le ⟨1, -2, by norm_num, by norm_num, by norm_num⟩ q1
      have d1 : D.div rnd (.fin p5eps) (.fin e) = .fin (rnd (p5eps / e)) := by
        show (if e = 0 then D.nan else out rnd (p5eps / e)) = _
        rw [if_neg e0.ne', out_fin]
        rw [abs_of_nonneg r0]; exact lt_of_le_of_lt (r1.trans (by norm_num)) big
      have s1 : √(rnd (p5eps / e)) ≤ 1 / 2 := by
        rw [Real.sqrt_le_iff]; constructor <;> norm_num; linarith
      have t0 := hr.nonneg (Real.sqrt_nonneg (rnd (p5eps / e)))
      have t1 := hr.le_of_le isDouble_half s1
      refine ⟨rnd √(rnd (p5eps / e)), ?_, t0, t1⟩
      rw [d1]
      show (if rnd (p5eps / e) < 0 then D.nan else out rnd √(rnd (p5eps / e))) = _
      rw [if_neg (not_lt.2 r0), out_fin]
      rw [abs_of_nonneg t0]; exact lt_of_le_of_lt (t1.trans (by norm_num)) big
    · refine ⟨0, ?_, le_rfl, by norm_num⟩
      show (if (0 : ℝ) < 0 then D.nan else out rnd √0) = _
      rw [if_neg (lt_irrefl _), Real.sqrt_zero, out_fin, hr.zero]
      rw [hr.zero, abs_zero]; exact lt_trans one_pos big
    · exact absurd h (by simp [D.mul, D.lt])
  · exact ⟨1 / 2, rfl, by norm_num, le_rfl⟩

/-- A repeated attempt has at most half the step size, in the same direction or zero. -/
theorem scaleD_half (hr : Nearest rnd) {t h : ℝ} (h0 : 0 ≤ t) (h1 : t ≤ 1 / 2)
    (hd : IsDouble (|h| / 2)) :
    |scaleD rnd (.fin t) h| ≤ |h| / 2 ∧ 0 ≤ h * scaleD rnd (.fin t) h := by
  refine ⟨hr.abs_le_of hd ?_, ?_⟩
  · rw [abs_mul, abs_of_nonneg h0]
    have := mul_le_mul_of_nonneg_right h1 (abs_nonneg h)
    linarith
  · show 0 ≤ h * rnd (t * h)
    rcases le_total 0 h with hh | hh
    · exact mul_nonneg hh (hr.nonneg (mul_nonneg h0 hh))
    · exact mul_nonneg_of_nonpos_of_nonpos hh (hr.nonpos (mul_nonpos_of_nonneg_of_nonpos h0 hh))

/-- Half a double that is not subnormal is a double. -/
theorem IsDouble.half {h : ℝ} (hd : IsDouble h) (hb : 2 ^ (-1000 : ℤ) ≤ |h|) : IsDouble (|h| / 2) := by
  obtain ⟨m, e, hm, hm', he, rfl⟩ := hd.normalised
    (le_trans (zpow_le_zpow_right₀ (by norm_num) (by norm_num)) hb)
  have hp : (0 : ℝ) < 2 ^ e := zpow_pos (by norm_num) _
  have he' : -1073 ≤ e := by
    by_contra hc
    rw [not_le] at hc
    have h1 : (2 : ℝ) ^ e ≤ 2 ^ (-1074 : ℤ) := zpow_le_zpow_right₀ (by norm_num) (by omega)
    have h2 : |(m : ℝ)| < 2 ^ (53 : ℤ) := by
      rw [← Int.cast_abs]; exact_mod_cast hm'
    have h3 : |(m : ℝ) * 2 ^ e| < 2 ^ (53 : ℤ) * 2 ^ (-1074 : ℤ) := by
      rw [abs_mul, abs_of_pos hp]
      exact mul_lt_mul h2 h1 hp (zpow_pos (by norm_num) _).le
    rw [← zpow_add₀ (by norm_num)] at h3
    exact absurd (lt_of_le_of_lt hb h3)
      (not_lt.2 (zpow_le_zpow_right₀ (by norm_num) (by norm_num)))
  refine ⟨|m|, e - 1, by rwa [abs_abs], by omega, ?_⟩
  rw [abs_mul, abs_of_pos hp, Int.cast_abs, zpow_sub₀ (by norm_num), zpow_one]
  ring

/-- Invariant of the attempts: `k` halvings are left before the step is too small. -/
theorem stepLoopD_spec (hr : Nearest rnd) {eps p5eps x : ℝ} (hp : 0 < p5eps) (hpd : IsDouble p5eps)
    (hpb : p5eps < 2 ^ 1024) (hx : IsDouble x) (hxb : 2 ^ (-900 : ℤ) ≤ |x|) (est : ℕ → Attempt) :
    ∀ (fuel i : ℕ) (ifail : ℤ) (h : ℝ), IsDouble h → fourU rnd x ≤ |h| →
      (∀ x' h', stepLoopD rnd eps p5eps x est fuel i ifail h = .accepted x' h' →
        0 < h * h' ∧ 0 < h * (x' - x) ∧ |h'| ≤ |h|) ∧
      (∀ k : ℕ, |h| < 2 ^ k * fourU rnd x → k < fuel →
        stepLoopD rnd eps p5eps x est fuel i ifail h ≠ .running) := by
  have hf0 : 0 < fourU rnd x := by
    have := fourU_ge hr (x := x) (le_trans (zpow_le_zpow_right₀ (by norm_num) (by norm_num)) hxb)
    have h2 : 0 < (2 : ℝ) ^ (-51 : ℤ) * |x| :=
      mul_pos (zpow_pos (by norm_num) _) (lt_of_lt_of_le (zpow_pos (by norm_num) _) hxb)
    linarith
  have hf1 : (2 : ℝ) ^ (-1000 : ℤ) ≤ fourU rnd x := by
    have := fourU_ge hr (x := x) (le_trans (zpow_le_zpow_right₀ (by norm_num) (by norm_num)) hxb)
    refine le_trans ?_ this
    calc (2 : ℝ) ^ (-1000 : ℤ) ≤ 2 ^ (-51 : ℤ) * 2 ^ (-900 : ℤ) := by
          rw [← zpow_add₀ (by norm_num)]; exact zpow_le_zpow_right₀ (by norm_num) (by norm_num)
      _ ≤ _ := mul_le_mul_of_nonneg_left hxb (zpow_pos (by norm_num) _).le
  intro fuel
  induction fuel with
  | zero =>
    intro i ifail h _ _
    exact ⟨fun x' h' he => by simp [stepLoopD] at he, fun k _ hk => absurd hk (Nat.not_lt_zero _)⟩
  | succ fuel ih =>
    intro i ifail h hh hs
    have hne : h ≠ 0 := fun h0 => by rw [h0, abs_zero] at hs; linarith
    unfold stepLoopD
    by_cases hok : (est i).err.leFin eps
    · rw [if_pos hok]
      refine ⟨fun x' h' he => ?_, fun k _ _ => by simp⟩
      cases he
      exact ⟨mul_self_pos.2 hne, time_moves hr hx hh hne hs, le_rfl⟩
    · rw [if_neg hok]
      obtain ⟨t, ht, t0, t1⟩ := shrinkD_half hr hp hpd hpb (ifail + 1) (est i).erk
      simp only [ht]
      have hhalf := hh.half (hf1.trans hs)
      obtain ⟨c1, c2⟩ := scaleD_half hr t0 t1 hhalf
      have hh' : IsDouble (scaleD rnd (.fin t) h) := hr.mem _
      by_cases hg : |scaleD rnd (.fin t) h| ≥ fourU rnd x
      · rw [if_neg (not_not.2 hg)]
        obtain ⟨i1, i2⟩ := ih (i + 1) (ifail + 1) _ hh' hg
        have hne' : scaleD rnd (.fin t) h ≠ 0 := fun h0 => by
          rw [h0, abs_zero] at hg; linarith
        have c3 : 0 < h * scaleD rnd (.fin t) h :=
          lt_of_le_of_ne c2 (Ne.symm (mul_ne_zero hne hne'))
        have turn : ∀ y : ℝ, 0 < scaleD rnd (.fin t) h * y → 0 < h * y := fun y hy => by
          rcases lt_or_gt_of_ne hne with a | a
          · have b : scaleD rnd (.fin t) h < 0 := by
              by_contra hc
              exact absurd c3 (not_lt.2 (mul_nonpos_of_nonpos_of_nonneg a.le (not_lt.1 hc)))
            have : y < 0 := by
              by_contra hc
              exact absurd hy (not_lt.2 (mul_nonpos_of_nonpos_of_nonneg b.le (not_lt.1 hc)))
            exact mul_pos_of_neg_of_neg a this
          · have b : 0 < scaleD rnd (.fin t) h := (mul_pos_iff_of_pos_left a).1 c3
            exact mul_pos a ((mul_pos_iff_of_pos_left b).1 hy)
        refine ⟨fun x' h' he => ?_, fun k hk hkf => ?_⟩
        · obtain ⟨j1, j2, j3⟩ := i1 x' h' he
          exact ⟨turn _ j1, turn _ j2, by have := abs_nonneg h; linarith⟩
        · rcases k with _ | k
          · rw [pow_zero, one_mul] at hk; linarith
          · refine i2 k ?_ (by omega)
            rw [pow_succ] at hk
            linarith
      · rw [if_pos hg]
        exact ⟨fun x' h' he => by simp at he, fun k _ _ => by simp⟩

/-- **C122 (b)** Away from time zero an attempted step always comes to an end, whatever the error
estimates are, NaN and infinities included: after at most one attempt more than halvings fit between
the step size and the smallest size allowed.  If it is accepted, time has moved on in the direction of
the step. -/
theorem step_ends_partial (hr : Nearest rnd) {eps x h : ℝ} (he : 0 < rnd (1 / 2 * eps))
    (heb : rnd (1 / 2 * eps) < 2 ^ 1024) (hx : IsDouble x) (hxb : 2 ^ (-900 : ℤ) ≤ |x|)
    (hh : IsDouble h) (round sum : D) (garbage : ℤ) (est : ℕ → Attempt) (fuel k : ℕ)
    (hk : |h| < 2 ^ k * fourU rnd x) (hf : k < fuel) :
    (∃ h', stepD rnd eps x h false round sum garbage est fuel = .refused h') ∨
    ∃ x' h', stepD rnd eps x h false round sum garbage est fuel = .accepted x' h' ∧
      0 < h * h' ∧ 0 < h * (x' - x) ∧ |h'| ≤ |h| := by
  unfold stepD
  by_cases h1 : |h| < fourU rnd x
  · rw [if_pos h1]; exact Or.inl ⟨_, rfl⟩
  · rw [if_neg h1]
    by_cases h2 : D.lt (.fin (rnd (1 / 2 * eps))) round
    · rw [if_pos h2]; exact Or.inl ⟨_, rfl⟩
    · rw [if_neg h2, if_neg (by simp)]
      obtain ⟨a, b⟩ := stepLoopD_spec hr (eps := eps) he (hr.mem _) heb hx hxb est fuel 0 garbage h hh
        (not_lt.1 h1)
      have b := b k hk hf
      generalize hs : stepLoopD rnd eps (rnd (1 / 2 * eps)) x est fuel 0 garbage h = r at a b
      rcases r with ⟨x', h'⟩ | h' | _
      · exact Or.inr ⟨x', h', rfl, a x' h' rfl⟩
      · exact Or.inl ⟨h', rfl⟩
      · exact absurd rfl b

/-- **C122 (c)** At time zero, where every integration of the orbit program starts, a derivative that
is NaN keeps `step` in its loop for ever: the step size is halved without end, and the smallest size
allowed there is zero.  No number of attempts is enough. -/
theorem nan_derivative_hangs_counterexample (hr : Nearest rnd) (eps h : ℝ) (round : D)
    (hround : ¬ D.lt (.fin (rnd (1 / 2 * eps))) round) (garbage : ℤ) (fuel : ℕ) :
    stepD rnd eps 0 h true round .nan garbage (fun _ => ⟨.nan, .nan⟩) fuel = .running := by
  have f0 : fourU rnd 0 = 0 := by unfold fourU; rw [abs_zero, mul_zero, hr.zero]
  have loop : ∀ (fuel i : ℕ) (ifail : ℤ) (h : ℝ),
      stepLoopD rnd eps (rnd (1 / 2 * eps)) 0 (fun _ => ⟨.nan, .nan⟩) fuel i ifail h = .running := by
    intro fuel
    induction fuel with
    | zero => intro i ifail h; rfl
    | succ fuel ih =>
      intro i ifail h
      unfold stepLoopD
      rw [if_neg (by simp [D.leFin])]
      simp only
      rw [if_neg (not_not.2 (by rw [f0]; exact abs_nonneg _))]
      exact ih _ _ _
  unfold stepD
  rw [if_neg (by rw [f0, not_lt]; exact abs_nonneg _), if_neg hround, if_pos rfl]
  exact loop _ _ _ _

/-- With a tolerance of `2^-40` and a rounding estimate of `2^-50` the tolerance is not refused. -/
example (fuel : ℕ) : stepD (rnd64 : ℝ → ℝ) (1 / 2 ^ 40) 0 60 true (.fin (1 / 2 ^ 50)) .nan 0
    (fun _ => ⟨.nan, .nan⟩) fuel = .running :=
  nan_derivative_hangs_counterexample rnd64_nearest _ _ _ (by
    rw [rnd64_nearest.exact ⟨1, -41, by norm_num, by norm_num, by norm_num⟩]
    show ¬ (_ < _)
    norm_num) _ _

/-- **C122 (d)** The limit on the step size keeps the new time within a few roundings of the last
point allowed. -/
theorem last_point_partial (hr : Nearest rnd) {x h tend M : ℝ} (hM : 2 ^ (-1000 : ℤ) ≤ M)
    (hx : |x| ≤ M) (ht : |tend| ≤ M) :
    (x ≤ tend → rnd (x + limitD rnd tend x h) ≤ tend + 6 * u * M) ∧
    (tend ≤ x → tend - 6 * u * M ≤ rnd (x + limitD rnd tend x h)) := by
  have hu := u_pos
  have hu' := u_small
  have hM0 : 0 < M := lt_of_lt_of_le (zpow_pos (by norm_num) _) hM
  have hM2 : (2 : ℝ) ^ (-1022 : ℤ) ≤ M :=
    le_trans (zpow_le_zpow_right₀ (by norm_num) (by norm_num)) hM
  have huM : u * M ≤ M / 1000000000000000 := by
    have := mul_le_mul_of_nonneg_right hu' hM0.le; linarith
  have huM0 : 0 < u * M := mul_pos hu hM0
  rw [abs_le] at hx ht
  have e1 := hr.abs_err (x := tend - x) (M := 2 * M) (by linarith) (by
    rw [abs_le]; constructor <;> linarith)
  rw [abs_le] at e1
  have hl : |limitD rnd tend x h| ≤ |rnd (tend - x)| := by
    unfold limitD signed
    have : |min |h| (|rnd (tend - x)|)| ≤ |rnd (tend - x)| := by
      rw [abs_of_nonneg (le_min (abs_nonneg _) (abs_nonneg _))]; exact min_le_right _ _
    split
    · rw [abs_neg, abs_abs]; exact this
    · rw [abs_abs]; exact this
  set l := limitD rnd tend x h with hld
  constructor
  · intro hxt
    have r0 := hr.nonneg (x := tend - x) (by linarith)
    rw [abs_of_nonneg r0, abs_le] at hl
    have e2 := hr.abs_err (x := x + l) (M := 3.1 * M) (by linarith) (by
      rw [abs_le]; constructor <;> linarith)
    rw [abs_le] at e2
    linarith
  · intro hxt
    have r0 := hr.nonpos (x := tend - x) (by linarith)
    rw [abs_of_nonpos r0, abs_le] at hl
    have e2 := hr.abs_err (x := x + l) (M := 3.1 * M) (by linarith) (by
      rw [abs_le]; constructor <;> linarith)
    rw [abs_le] at e2
    linarith

/-- **C122 (e)** In the mode that must not go past the output time, a step from time -1 to the output
time `2^-53 (1 + 2^-52)` ends at `2^-52`, beyond it. -/
theorem past_output_counterexample (hr : Nearest rnd) (h : ℝ) (hh : 2 ≤ h) :
    let tout : ℝ := 2 ^ (-53 : ℤ) + 2 ^ (-105 : ℤ)
    IsDouble tout ∧ tout < rnd (-1 + limitD rnd (tendD rnd true (-1) tout) (-1) h) := by
  intro tout
  have hto : tout = 2 ^ (-53 : ℤ) + 2 ^ (-105 : ℤ) := rfl
  have d1 : IsDouble (1 + 2 ^ (-52 : ℤ) : ℝ) :=
    ⟨4503599627370497, -52, by norm_num, by norm_num, by norm_num⟩
  have r1 : rnd (tout - -1) = 1 + 2 ^ (-52 : ℤ) := by
    have := hr.eq_of_close (x := tout - -1) 4503599627370497 (-52) (by norm_num) (by norm_num)
      (by norm_num) (by rw [hto, abs_lt]; norm_num)
    rw [this]; norm_num
  refine ⟨⟨4503599627370497, -105, by norm_num, by norm_num, by rw [hto]; norm_num⟩, ?_⟩
  have l1 : limitD rnd (tendD rnd true (-1) tout) (-1) h = 1 + 2 ^ (-52 : ℤ) := by
    unfold limitD tendD signed
    rw [if_pos rfl, r1, if_neg (by linarith), abs_of_pos (show (0 : ℝ) < h by linarith),
      abs_of_pos (show (0 : ℝ) < 1 + 2 ^ (-52 : ℤ) by norm_num), min_eq_right, abs_of_pos]
    · norm_num
    · refine le_trans ?_ hh; norm_num
  rw [l1, show (-1 + (1 + 2 ^ (-52 : ℤ)) : ℝ) = 2 ^ (-52 : ℤ) by ring,
    hr.exact ⟨1, -52, by norm_num, by norm_num, by norm_num⟩, hto]
  norm_num

/-- All doubles are multiples of `2^-1074`. -/
theorem IsDouble.grid {x : ℝ} (hx : IsDouble x) : ∃ k : ℤ, x = k * 2 ^ (-1074 : ℤ) := by
  obtain ⟨m, e, hm, he, hx'⟩ := hx
  refine ⟨m * 2 ^ (e + 1074).toNat, ?_⟩
  rw [hx']
  push_cast
  rw [mul_assoc, ← zpow_natCast, ← zpow_add₀ (by norm_num : (2 : ℝ) ≠ 0), Int.toNat_of_nonneg (by omega)]
  congr 2; ring

/-- The computed difference of two different doubles is not zero. -/
theorem sub_ne_zero_of_ne (hr : Nearest rnd) {a b : ℝ} (ha : IsDouble a) (hb : IsDouble b)
    (h : a ≠ b) : rnd (a - b) ≠ 0 := by
  have key : ∀ {rnd : ℝ → ℝ}, Nearest rnd → ∀ {a b : ℝ}, IsDouble a → IsDouble b → b < a →
      0 < rnd (a - b) := by
    intro rnd hr a b ha hb h
    obtain ⟨i, hi⟩ := ha.grid
    obtain ⟨j, hj⟩ := hb.grid
    have hp : (0 : ℝ) < 2 ^ (-1074 : ℤ) := zpow_pos (by norm_num) _
    have hij : j < i := by
      rw [hi, hj] at h
      exact_mod_cast lt_of_mul_lt_mul_right h hp.le
    have hij' : (1 : ℝ) ≤ i - j := by
      have : (1 : ℤ) ≤ i - j := by omega
      exact_mod_cast this
    have h1 : (2 : ℝ) ^ (-1074 : ℤ) ≤ a - b := by
      rw [hi, hj, ← sub_mul]
      exact le_mul_of_one_le_left hp.le hij'
    exact lt_of_lt_of_le (half_pos (sub_pos.2 h)) (hr.half_le h1)
  rcases lt_or_gt_of_ne h with h | h
  · have := key hr.mirrorR ha.neg hb.neg (neg_lt_neg h)
    rw [show -(-a - -b) = a - b by ring] at this
    exact (neg_pos.1 this).ne
  · exact (key hr ha hb h).ne'

theorem tend_up (hr : Nearest rnd) {t tout : ℝ} (ht : IsDouble t) (hto : IsDouble tout)
    (hlt : t ≤ tout) : tout ≤ tendD rnd false t tout := by
  unfold tendD
  simp only [Bool.false_eq_true, if_false]
  apply hr.ge_of_ge hto
  have hy : tout - t ≤ 2 * rnd (tout - t) := by
    obtain ⟨a, ha⟩ := ht.grid
    obtain ⟨b, hb⟩ := hto.grid
    have hp : (0 : ℝ) < 2 ^ (-1074 : ℤ) := zpow_pos (by norm_num) _
    rcases eq_or_lt_of_le hlt with h | h
    · rw [h, sub_self, hr.zero, mul_zero]
    · have hab : a < b := by
        rw [ha, hb] at h
        exact_mod_cast lt_of_mul_lt_mul_right h hp.le
      have hab' : (1 : ℝ) ≤ b - a := by
        have : (1 : ℤ) ≤ b - a := by omega
        exact_mod_cast this
      have h1 : (2 : ℝ) ^ (-1074 : ℤ) ≤ tout - t := by
        rw [ha, hb, ← sub_mul]
        exact le_mul_of_one_le_left hp.le hab'
      have := hr.half_le h1
      clear h1 hp ha hb
      linarith
  have h0 : 0 ≤ rnd (tout - t) := hr.nonneg (by linarith)
  have h2 : IsDouble (2 * rnd (tout - t)) := by
    have := (hr.mem (tout - t)).scale 1
    rwa [pow_one, mul_comm] at this
  have := hr.ge_of_ge (x := 10 * rnd (tout - t)) h2 (by linarith)
  linarith

/-- **C122 (f)** As long as the output time has not been passed (src/integrators/sgode_de.cpp:90), the
last point allowed is not reached, so the limit never makes the step size zero nor turns it round. -/
theorem target_ahead (hr : Nearest rnd) (stop : Bool) {t tout x : ℝ} (ht : IsDouble t)
    (hto : IsDouble tout) (hx : IsDouble x) (h : |rnd (x - t)| < |rnd (tout - t)|) (s : ℝ)
    (hs : s ≠ 0) : x ≠ tendD rnd stop t tout ∧ 0 < s * limitD rnd (tendD rnd stop t tout) x s := by
  have key : x ≠ tendD rnd stop t tout := by
    rintro rfl
    revert h
    rw [imp_false, not_lt]
    cases stop
    · rcases le_total t tout with hle | hle
      · have h1 := tend_up hr ht hto hle
        have h2 := hr.mono (sub_le_sub_right h1 t)
        have h3 := hr.nonneg (x := tout - t) (by linarith)
        rw [abs_of_nonneg h3, abs_of_nonneg (h3.trans h2)]
        exact h2
      · have h1 := tend_up hr.mirrorR ht.neg hto.neg (neg_le_neg hle)
        have e : tendD (fun x => -rnd (-x)) false (-t) (-tout) = -tendD rnd false t tout := by
          unfold tendD
          simp only [Bool.false_eq_true, if_false]
          rw [show -(-tout - -t) = tout - t by ring,
            show -(10 * -rnd (tout - t)) = 10 * rnd (tout - t) by ring,
            show -(-t + -rnd (10 * rnd (tout - t))) = t + rnd (10 * rnd (tout - t)) by ring]
        rw [e, neg_le_neg_iff] at h1
        have h2 := hr.mono (sub_le_sub_right h1 t)
        have h3 := hr.nonpos (x := tout - t) (by linarith)
        rw [abs_of_nonpos h3, abs_of_nonpos (h2.trans h3)]
        exact neg_le_neg h2
    · simp [tendD]
  refine ⟨key, ?_⟩
  have hd : IsDouble (tendD rnd stop t tout) := by
    unfold tendD
    cases stop
    · exact hr.mem _
    · exact hto
  have hm : 0 < min |s| |rnd (tendD rnd stop t tout - x)| :=
    lt_min (abs_pos.2 hs) (abs_pos.2 (sub_ne_zero_of_ne hr hd hx (Ne.symm key)))
  unfold limitD signed
  rw [abs_of_pos hm]
  split
  · rename_i hn
    exact mul_pos_of_neg_of_neg hn (neg_neg_of_pos hm)
  · rename_i hn
    exact mul_pos (lt_of_le_of_ne (not_lt.1 hn) (Ne.symm hs)) hm

/-- A step of 30 s at 60 s with estimates that are NaN is refused after 51 attempts at most. -/
example (garbage : ℤ) : ∃ h', stepD (rnd64 : ℝ → ℝ) (1 / 1024) 60 30 false (.fin 0) (.fin 0) garbage
    (fun _ => ⟨.nan, .nan⟩) 51 = .refused h' := by
  have hr : Nearest (rnd64 : ℝ → ℝ) := rnd64_nearest
  have d60 : IsDouble (60 : ℝ) := by simpa using isDouble_int (K := ℝ) 60 (by norm_num)
  have d30 : IsDouble (30 : ℝ) := by simpa using isDouble_int (K := ℝ) 30 (by norm_num)
  have e1 : rnd64 (1 / 2 * (1 / 1024) : ℝ) = 1 / 2048 := by
    rw [show (1 / 2 * (1 / 1024) : ℝ) = 1 / 2048 by norm_num]
    exact hr.exact ⟨1, -11, by norm_num, by norm_num, by norm_num⟩
  have f60 : fourU (rnd64 : ℝ → ℝ) 60 = 2 ^ (-50 : ℤ) * 60 := by
    unfold fourU
    rw [abs_of_pos (by norm_num : (0 : ℝ) < 60)]
    exact hr.exact ⟨60, -50, by norm_num, by norm_num, by norm_num⟩
  rcases step_ends_partial hr (eps := 1 / 1024) (x := 60) (h := 30) (by rw [e1]; norm_num)
    (by rw [e1]; exact lt_trans (by norm_num) (one_lt_pow₀ (by norm_num : (1 : ℝ) < 2)
      (by norm_num : (1024 : ℕ) ≠ 0))) d60
    (by
      rw [abs_of_pos (by norm_num : (0 : ℝ) < 60)]
      have : (2 : ℝ) ^ (-900 : ℤ) ≤ 2 ^ (0 : ℤ) := zpow_le_zpow_right₀ (by norm_num) (by norm_num)
      rw [zpow_zero] at this
      exact this.trans (by norm_num))
    d30 (.fin 0) (.fin 0) garbage (fun _ => ⟨.nan, .nan⟩) 51 50 (by rw [f60]; norm_num)
    (by norm_num) with h | ⟨x', h', h, -⟩
  · exact h
  · exfalso
    revert h
    -- no attempt is accepted
    have loop : ∀ (fuel i : ℕ) (ifail : ℤ) (h : ℝ) (p : ℝ), stepLoopD (rnd64 : ℝ → ℝ) (1 / 1024) p 60
        (fun _ => ⟨.nan, .nan⟩) fuel i ifail h ≠ .accepted x' h' := by
      intro fuel
      induction fuel with
      | zero => intro i ifail h p; simp [stepLoopD]
      | succ fuel ih =>
        intro i ifail h p
        unfold stepLoopD
        rw [if_neg (by simp [D.leFin])]
        simp only
        split
        · simp
        · exact ih _ _ _ _
    unfold stepD
    split
    · simp
    · split
      · simp
      · rw [if_neg (by simp)]; exact loop _ _ _ _ _

/-- **C122** A step is accepted only after an attempt whose estimate is not above the tolerance. -/
theorem accepted_within {eps p5eps x : ℝ} (est : ℕ → Attempt) :
    ∀ (fuel i : ℕ) (ifail : ℤ) (h x' h' : ℝ), stepLoopD rnd eps p5eps x est fuel i ifail h = .accepted x' h' →
      ∃ j, i ≤ j ∧ j < i + fuel ∧ ((∃ a, (est j).err = .fin a ∧ a ≤ eps) ∨ (est j).err = .inf true) ∧
        ∀ l, i ≤ l → l < j → ∀ a, (est l).err = .fin a → eps < a := by
  intro fuel
  induction fuel with
  | zero => intro i ifail h x' h' he; simp [stepLoopD] at he
  | succ fuel ih =>
    intro i ifail h x' h' he
    unfold stepLoopD at he
    split at he
    · rename_i hle
      refine ⟨i, le_refl i, by omega, ?_, fun l h1 h2 => by omega⟩
      cases hest : (est i).err with
      | fin a => rw [hest] at hle; exact .inl ⟨a, rfl, hle⟩
      | inf s => rw [hest] at hle; right; rw [show s = true from hle]
      | nan => rw [hest] at hle; exact hle.elim
    · rename_i hle
      simp only at he
      split at he
      · cases he
      · obtain ⟨j, h1, h2, h3, h4⟩ := ih _ _ _ _ _ he
        refine ⟨j, by omega, by omega, h3, fun l hl1 hl2 a ha => ?_⟩
        rcases Nat.eq_or_lt_of_le hl1 with h | h
        · subst h
          rw [ha] at hle
          exact not_le.1 hle
        · exact h4 l h hl2 a ha

/-- **C122** The first step size, without rounding: a quarter of the root of tolerance over derivative if the given size is
larger than that, but not less than the smallest step at that time; its sign is that of the size given. -/
theorem first_size {eps x h s : ℝ} (he : 0 < eps) (hs : 0 < s) (h1 : |16 * s| < 2 ^ 1024)
    (h2 : |16 * s * h| < 2 ^ 1024) (h3 : |16 * s * h * h| < 2 ^ 1024) (h4 : eps / s < 2 ^ 1024) :
    firstH id eps x h (.fin s) = signed (max (min |h| (1 / 4 * √(eps / s))) (2 ^ (-50 : ℤ) * |x|)) h := by
  have hq : 0 < eps / s := div_pos he hs
  have big : (1 : ℝ) < 2 ^ 1024 := one_lt_pow₀ (by norm_num) (by norm_num)
  have hroot : |√(eps / s)| < 2 ^ 1024 := by
    rw [abs_of_nonneg (Real.sqrt_nonneg _)]
    by_cases hle : eps / s ≤ 1
    · exact lt_of_le_of_lt (Real.sqrt_le_one.2 hle) big
    · refine lt_of_le_of_lt ?_ h4
      rw [Real.sqrt_le_left hq.le]
      nlinarith [not_le.1 hle]
  have hsq : D.sqrt id (D.div id (.fin eps) (.fin s)) = .fin √(eps / s) := by
    simp only [D.div, if_neg hs.ne']
    rw [out_fin (by simpa [abs_of_pos hq] using h4)]
    simp only [D.sqrt, id]
    rw [if_neg (not_lt.2 hq.le), out_fin (by simpa using hroot)]
    rfl
  have hm : D.mul id (D.mul id (D.mul id (.fin 16) (.fin s)) (.fin h)) (.fin h) = .fin (16 * s * h * h) := by
    simp only [D.mul]
    rw [out_fin (by simpa using h1)]
    simp only [id]
    rw [out_fin (by simpa using h2)]
    simp only [id]
    rw [out_fin (by simpa using h3)]
    rfl
  have key : eps < 16 * s * h * h ↔ 1 / 4 * √(eps / s) < |h| := by
    have e : (1 / 4 * √(eps / s)) ^ 2 = eps / (16 * s) := by
      rw [mul_pow, Real.sq_sqrt hq.le]
      field_simp
      norm_num
    have e2 : 1 / 4 * √(eps / s) < |h| ↔ (1 / 4 * √(eps / s)) ^ 2 < |h| ^ 2 :=
      (pow_lt_pow_iff_left₀ (by positivity) (abs_nonneg h) (by norm_num)).symm
    rw [e2, e, sq_abs, div_lt_iff₀ (by positivity)]
    constructor <;> intro g <;> linarith
  unfold firstH
  simp only [hm, hsq, D.lt, fourU, id]
  congr 1
  by_cases hc : eps < 16 * s * h * h
  · rw [if_pos hc, min_eq_right (key.1 hc).le]
    split
    · rename_i hh; rw [max_eq_right hh.le]
    · rename_i hh; rw [max_eq_left (not_lt.1 hh)]
  · rw [if_neg hc, min_eq_left (not_lt.1 (fun h => hc (key.2 h)))]
    split
    · rename_i hh; rw [max_eq_right hh.le]
    · rename_i hh; rw [max_eq_left (not_lt.1 hh)]

/-- **C122** The factor of a rejected step, without rounding: at the first two failures the root of half the tolerance over
the estimate if that is less than one half, and one half otherwise and at every later failure. -/
theorem shrink_size {p5eps s : ℝ} (hp : 0 < p5eps) (hs : 0 < s) (h1 : s < 2 ^ 1024) (ifail : ℤ) :
    shrinkD id p5eps ifail (.fin s) = .fin (if ifail < 3 then min (√(p5eps / s)) (1 / 2) else 1 / 2) := by
  have hq : 0 < p5eps / s := div_pos hp hs
  have hm : D.mul id (.fin (1 / 4)) (.fin s) = .fin (1 / 4 * s) := by
    simp only [D.mul]
    rw [out_fin]
    · rfl
    · rw [id, abs_of_pos (by positivity)]; exact lt_of_le_of_lt (by linarith) h1
  have key : p5eps < 1 / 4 * s ↔ √(p5eps / s) < 1 / 2 := by
    rw [Real.sqrt_lt' (by norm_num), div_lt_iff₀ hs]
    constructor <;> intro g <;> linarith
  unfold shrinkD
  simp only [hm, D.lt]
  by_cases hi : ifail < 3
  · rw [if_pos hi]
    by_cases hc : p5eps < 1 / 4 * s
    · rw [if_pos ⟨hi, hc⟩, min_eq_left (key.1 hc).le]
      have hle : p5eps / s < 1 := by rw [div_lt_one hs]; linarith
      have big : (1 : ℝ) < 2 ^ 1024 := one_lt_pow₀ (by norm_num) (by norm_num)
      simp only [D.div, if_neg hs.ne']
      rw [out_fin (by rw [id, abs_of_pos hq]; exact hle.trans big)]
      simp only [D.sqrt, id]
      rw [if_neg (not_lt.2 hq.le), out_fin]
      · rfl
      · rw [id, abs_of_nonneg (Real.sqrt_nonneg _)]; exact ((key.1 hc).trans (by norm_num)).trans big
    · rw [if_neg (fun h => hc h.2), min_eq_right (not_lt.1 fun h => hc (key.2 h))]
  · rw [if_neg (fun h => hi h.1), if_neg hi]

end Verif.Float
