import Verif.Astro.KeplerConverge

/-
Newton's method for Kepler's equation with small errors in each step: sequences that follow the method up to
`5·10⁻¹³`, and up to `5·10⁻¹⁵` close to the solution, settle within `5.1·10⁻¹⁵` of it after at most 17 steps.
Lemmas for C140 (Verif/Float/KeplerProps.lean).
-/
namespace Verif.Astro

open Real

/-- A sequence following Newton's method with errors. -/
structure Pert (e M : ℝ) (S : ℕ → ℝ) : Prop where
  coarse : ∀ n, -1 ≤ S n → S n ≤ 2 * π + 1 → |resid e M (S n)| ≤ 6 → |S (n + 1) - newt e M (S n)| ≤ 5 / 10 ^ 13
  fine : ∀ n, -1 ≤ S n → S n ≤ 2 * π + 1 → |resid e M (S n)| ≤ 1 / 10 ^ 9 → |S (n + 1) - newt e M (S n)| ≤ 5 / 10 ^ 15

/-- Where the errors are controlled. -/
def InR (e M E : ℝ) : Prop := -1 ≤ E ∧ E ≤ 2 * π + 1 ∧ |resid e M E| ≤ 6

/-- Close to the solution, or right of it on the first half of the revolution. -/
def Inv (r b E : ℝ) : Prop := |E - r| ≤ 2 / 10 ^ 11 ∨ (r ≤ E ∧ E ≤ π ∧ E - r ≤ b)

theorem inR_of_close {e M r E : ℝ} (h0 : 0 ≤ e) (h1 : e ≤ 17 / 20) (hr : resid e M r = 0) (r0 : 0 ≤ r) (r1 : r ≤ 2 * π)
    (h : |E - r| ≤ 1) : InR e M E := by
  have h2 := resid_abs e M r E h0 (by linarith) hr
  have h3 := abs_le.mp h
  exact ⟨by linarith [h3.1], by linarith [h3.2], by linarith⟩

theorem inR_of_inv {e M r b E : ℝ} (h0 : 0 ≤ e) (h1 : e ≤ 17 / 20) (hr : resid e M r = 0) (r0 : 0 ≤ r) (r1 : r ≤ π)
    (h : Inv r b E) : InR e M E := by
  have pi2 := pi_lt_d4
  rcases h with h | ⟨ha, hb, -⟩
  · exact inR_of_close h0 h1 hr r0 (by linarith) (h.trans (by norm_num))
  · refine ⟨by linarith, by linarith, ?_⟩
    have := resid_mono e M r E h0 ha
    rw [hr, sub_zero] at this
    rw [abs_of_nonneg (le_trans (mul_nonneg (by linarith) (by linarith)) this.1)]
    nlinarith [this.2]

theorem inv_step {e M r E E' b b' : ℝ} (h0 : 0 ≤ e) (h1 : e ≤ 17 / 20) (hr : resid e M r = 0) (r0 : 0 ≤ r)
    (hI : Inv r b E) (hp : |E' - newt e M E| ≤ 1 / 10 ^ 12)
    (hb' : 17 / 6 * b ^ 2 ≤ (b' - 1 / 10 ^ 12) * (1 + 17 / 6 * b)) : Inv r b' E' := by
  have hp' := abs_le.mp hp
  have hclose : |E - r| ≤ 2 / 10 ^ 11 → |E' - r| ≤ 2 / 10 ^ 11 := by
    intro h
    have h2 := step_quad (b' := 1 / 10 ^ 12) h0 h1 hr h (by norm_num)
    have h3 := abs_sub_le E' (newt e M E) r
    have : (1 : ℝ) / 10 ^ 12 + 1 / 10 ^ 12 ≤ 2 / 10 ^ 11 := by norm_num
    linarith
  rcases hI with h | ⟨ha, hb, hc⟩
  · exact Or.inl (hclose h)
  · obtain ⟨s1, s2, s3⟩ := step_right h0 h1 hr r0 ha hb hc hb'
    by_cases hd : E - r ≤ 2 / 10 ^ 11
    · exact Or.inl (hclose (by rw [abs_of_nonneg (by linarith)]; exact hd))
    · rw [not_le] at hd
      obtain ⟨g1, g2⟩ := one_sub_ecos e E h0
      have hg : 0 < 1 - e * cos E := by linarith
      have hm := (resid_mono e M r E h0 ha).1
      rw [hr, sub_zero] at hm
      have hw : (E - newt e M E) * (1 - e * cos E) = resid e M E := by
        unfold newt
        rw [sub_sub_cancel, div_mul_cancel₀ _ hg.ne']
      have s4 : 1 / 10 ^ 12 ≤ E - newt e M E := by
        by_contra hcon
        rw [not_le] at hcon
        have a1 : (E - newt e M E) * (1 - e * cos E) ≤ 1 / 10 ^ 12 * (1 + e) := by
          by_cases hn : 0 ≤ E - newt e M E
          · exact mul_le_mul hcon.le g2 hg.le (by norm_num)
          · have : (E - newt e M E) * (1 - e * cos E) < 0 := mul_neg_of_neg_of_pos (not_le.mp hn) hg
            have : 0 ≤ 1 / 10 ^ 12 * (1 + e) := by positivity
            linarith
        have a2 : 3 / 20 * (2 / 10 ^ 11) ≤ (1 - e) * (E - r) := by
          apply mul_le_mul (by linarith) hd.le (by norm_num) (by linarith)
        have a3 : 1 / 10 ^ 12 * (1 + e) ≤ 1 / 10 ^ 12 * 2 := by
          apply mul_le_mul_of_nonneg_left (by linarith) (by norm_num)
        have : (1 : ℝ) / 10 ^ 12 * 2 < 3 / 20 * (2 / 10 ^ 11) := by norm_num
        linarith
      by_cases hl : r ≤ E'
      · exact Or.inr ⟨hl, by linarith [hp'.2], by linarith [hp'.2]⟩
      · left
        rw [abs_of_neg (by linarith)]
        have : (1 : ℝ) / 10 ^ 12 ≤ 2 / 10 ^ 11 := by norm_num
        linarith [hp'.1]

/-- Each bound follows from the one before, right of the solution, with an error. -/
def rightOkP : ℚ → List ℚ → Bool
  | _, [] => true
  | b, b' :: l => decide (17 / 6 * b ^ 2 ≤ (b' - 1 / 10 ^ 12) * (1 + 17 / 6 * b)) && rightOkP b' l

/-- Each bound follows from the one before, on either side, with an error. -/
def quadOkP : ℚ → List ℚ → Bool
  | _, [] => true
  | b, b' :: l => decide (17 / 6 * b ^ 2 ≤ b' - 1 / 10 ^ 12) && decide (b' ≤ 1) && quadOkP b' l

theorem chain_rightP {e M r : ℝ} {S : ℕ → ℝ} (h0 : 0 ≤ e) (h1 : e ≤ 17 / 20) (hr : resid e M r = 0) (r0 : 0 ≤ r)
    (r1 : r ≤ π) (hS : Pert e M S) :
    ∀ (l : List ℚ) (b : ℚ) (n : ℕ), rightOkP b l = true → Inv r b (S n) →
      (∀ k, k ≤ l.length → InR e M (S (n + k))) ∧ Inv r ((l.getLast?).getD b : ℚ) (S (n + l.length))
  | [], b, n, _, hI => by
    refine ⟨fun k hk => ?_, by simpa using hI⟩
    rw [show k = 0 by simpa using hk]
    exact inR_of_inv h0 h1 hr r0 r1 hI
  | b' :: l, b, n, hok, hI => by
    simp only [rightOkP, Bool.and_eq_true, decide_eq_true_eq] at hok
    have hc : (17 / 6 * (b : ℝ) ^ 2) ≤ ((b' : ℝ) - 1 / 10 ^ 12) * (1 + 17 / 6 * (b : ℝ)) := by
      have := (Rat.cast_le (K := ℝ)).mpr hok.1
      push_cast at this
      exact this
    have hR := inR_of_inv h0 h1 hr r0 r1 hI
    have hp := hS.coarse n hR.1 hR.2.1 hR.2.2
    have hI' := inv_step h0 h1 hr r0 hI (hp.trans (by norm_num)) hc
    obtain ⟨i1, i2⟩ := chain_rightP h0 h1 hr r0 r1 hS l b' (n + 1) hok.2 hI'
    refine ⟨fun k hk => ?_, ?_⟩
    · cases k with
      | zero => exact hR
      | succ k =>
        have := i1 k (by simpa using hk)
        rwa [show n + 1 + k = n + (k + 1) by omega] at this
    · rw [List.length_cons, List.getLast?_cons, Option.getD_some, show n + (l.length + 1) = n + 1 + l.length by omega]
      exact i2

theorem chain_quadP {e M r : ℝ} {S : ℕ → ℝ} (h0 : 0 ≤ e) (h1 : e ≤ 17 / 20) (hr : resid e M r = 0) (r0 : 0 ≤ r)
    (r1 : r ≤ 2 * π) (hS : Pert e M S) :
    ∀ (l : List ℚ) (b : ℚ) (n : ℕ), quadOkP b l = true → b ≤ 1 → |S n - r| ≤ b →
      (∀ k, k ≤ l.length → InR e M (S (n + k))) ∧ |S (n + l.length) - r| ≤ ((l.getLast?).getD b : ℚ)
  | [], b, n, _, hb1, hI => by
    refine ⟨fun k hk => ?_, by simpa using hI⟩
    rw [show k = 0 by simpa using hk]
    exact inR_of_close h0 h1 hr r0 r1 (hI.trans (by exact_mod_cast hb1))
  | b' :: l, b, n, hok, hb1, hI => by
    simp only [quadOkP, Bool.and_eq_true, decide_eq_true_eq] at hok
    have hc : (17 / 6 * (b : ℝ) ^ 2) ≤ (b' : ℝ) - 1 / 10 ^ 12 := by
      have := (Rat.cast_le (K := ℝ)).mpr hok.1.1
      push_cast at this
      exact this
    have hR := inR_of_close h0 h1 hr r0 r1 (hI.trans (by exact_mod_cast hb1))
    have hp := hS.coarse n hR.1 hR.2.1 hR.2.2
    have hI' : |S (n + 1) - r| ≤ b' := by
      have a1 := step_quad h0 h1 hr hI hc
      have a2 := abs_sub_le (S (n + 1)) (newt e M (S n)) r
      have : (5 : ℝ) / 10 ^ 13 ≤ 1 / 10 ^ 12 := by norm_num
      linarith
    obtain ⟨i1, i2⟩ := chain_quadP h0 h1 hr r0 r1 hS l b' (n + 1) hok.2 hok.1.2 hI'
    refine ⟨fun k hk => ?_, ?_⟩
    · cases k with
      | zero => exact hR
      | succ k =>
        have := i1 k (by simpa using hk)
        rwa [show n + 1 + k = n + (k + 1) by omega] at this
    · rw [List.length_cons, List.getLast?_cons, Option.getD_some, show n + (l.length + 1) = n + 1 + l.length by omega]
      exact i2

/-! ### The last steps -/

/-- Close to the solution the next iterate is within `5.1·10⁻¹⁵` of it. -/
theorem close_next {e M r : ℝ} {S : ℕ → ℝ} (h0 : 0 ≤ e) (h1 : e ≤ 17 / 20) (hr : resid e M r = 0) (r0 : 0 ≤ r)
    (r1 : r ≤ 2 * π) (hS : Pert e M S) {n : ℕ} (h : |S n - r| ≤ 1 / 10 ^ 10) : |S (n + 1) - r| ≤ 51 / 10 ^ 16 := by
  have hR := inR_of_close h0 h1 hr r0 r1 (h.trans (by norm_num))
  have h2 := resid_abs e M r (S n) h0 (by linarith) hr
  have hp := hS.fine n hR.1 hR.2.1 (by
    have : (2 : ℝ) * (1 / 10 ^ 10) ≤ 1 / 10 ^ 9 := by norm_num
    linarith)
  have a1 := step_quad (b' := 1 / 10 ^ 16) h0 h1 hr h (by norm_num)
  have a2 := abs_sub_le (S (n + 1)) (newt e M (S n)) r
  have : (5 : ℝ) / 10 ^ 15 + 1 / 10 ^ 16 ≤ 51 / 10 ^ 16 := by norm_num
  linarith

/-- The sequence stays where its errors are controlled, and is at the solution from the seventeenth step on. -/
def Settled (e M r : ℝ) (S : ℕ → ℝ) : Prop := (∀ n, InR e M (S n)) ∧ ∀ n, 17 ≤ n → |S n - r| ≤ 51 / 10 ^ 16

theorem settled_of_close {e M r : ℝ} {S : ℕ → ℝ} (h0 : 0 ≤ e) (h1 : e ≤ 17 / 20) (hr : resid e M r = 0) (r0 : 0 ≤ r)
    (r1 : r ≤ 2 * π) (hS : Pert e M S) {n : ℕ} (hn : n ≤ 16) (hR : ∀ k, k ≤ n → InR e M (S k))
    (h : |S n - r| ≤ 2 / 10 ^ 11) : Settled e M r S := by
  have hk : ∀ k, |S (n + k + 1) - r| ≤ 51 / 10 ^ 16 := by
    intro k
    induction k with
    | zero => exact close_next h0 h1 hr r0 r1 hS (h.trans (by norm_num))
    | succ k ih => exact close_next h0 h1 hr r0 r1 hS (ih.trans (by norm_num))
  refine ⟨fun m => ?_, fun m hm => ?_⟩
  · by_cases hle : m ≤ n
    · exact hR m hle
    · have := hk (m - n - 1)
      rw [show n + (m - n - 1) + 1 = m by omega] at this
      exact inR_of_close h0 h1 hr r0 r1 (this.trans (by norm_num))
  · have := hk (m - n - 1)
    rwa [show n + (m - n - 1) + 1 = m by omega] at this

theorem close_of_inv {r b E : ℝ} (hb : b ≤ 2 / 10 ^ 11) (h : Inv r b E) : |E - r| ≤ 2 / 10 ^ 11 := by
  rcases h with h | ⟨h, -, h2⟩
  · exact h
  · rw [abs_of_nonneg (by linarith)]
    exact h2.trans hb

/-! ### The starting values -/

/-- From the half revolution. -/
def pertPi : List ℚ := [2.520, 2.211, 1.907, 1.610, 1.321, 1.043, 0.7793, 0.5364, 0.3236, 0.1548, 0.0472, 0.005568,
  8.648e-05, 2.119e-08, 1.002e-12]

/-- From 1.4. -/
def pertMean : List ℚ := [1.119, 0.8507, 0.6013, 0.3789, 0.1962, 0.0701, 0.01162, 0.0003704, 3.884e-07, 1.428e-12]

/-- From 0.851. -/
def pertEcc : List ℚ := [0.6016, 0.3792, 0.1965, 0.07028, 0.01168, 0.0003742, 3.964e-07, 1.446e-12]

/-- From 0.308, on either side. -/
def pertFar : List ℚ := [0.2688, 0.2048, 0.1189, 0.04006, 0.004547, 5.858e-05, 9.724e-09, 1.001e-12]

/-- Starting from the half revolution, up to rounding. -/
theorem settled_pi {e M r : ℝ} {S : ℕ → ℝ} (h0 : 0 ≤ e) (h1 : e ≤ 17 / 20) (hM : 0 ≤ M) (hM' : M ≤ π)
    (hr : resid e M r = 0) (hS : Pert e M S) (hR : InR e M (S 0)) (hs : |S 1 - newt e M π| ≤ 1 / 10 ^ 12) :
    Settled e M r S := by
  obtain ⟨b1, b2, b3⟩ := root_bounds h0 (by linarith) hM hM' hr
  have pi2 := pi_lt_d4
  have hI : Inv r ((2.833 : ℚ) : ℝ) (S 1) := by
    have hI0 : Inv r (3.15 : ℝ) π := Or.inr ⟨b2, le_rfl, by linarith⟩
    refine inv_step h0 h1 hr (by linarith) hI0 hs ?_
    push_cast
    norm_num
  obtain ⟨i1, i2⟩ := chain_rightP h0 h1 hr (by linarith) b2 hS pertPi _ 1 (by decide +kernel) hI
  have hl : pertPi.length = 15 := rfl
  refine settled_of_close (n := 16) h0 h1 hr (by linarith) (by linarith) hS (by norm_num) (fun k hk => ?_) ?_
  · cases k with
    | zero => exact hR
    | succ k =>
      have := i1 k (by omega)
      rwa [Nat.add_comm] at this
  · rw [hl] at i2
    refine close_of_inv ?_ i2
    simp [pertPi]
    norm_num

/-- The first iterate from the mean anomaly. -/
theorem mean_first {e M : ℝ} (h0 : 0 ≤ e) (h1 : e ≤ 81 / 100) (hM : 0 ≤ M) (hM' : M ≤ π) :
    newt e M M - M ≤ 1.39 := by
  have pi1 := pi_gt_d4
  have s0 := sin_nonneg_of_nonneg_of_le_pi hM hM'
  obtain ⟨g1, -⟩ := one_sub_ecos e M h0
  have hg : 0 < 1 - e * cos M := by linarith
  have sc := sin_sq_add_cos_sq M
  have hw : newt e M M * (1 - e * cos M) = M * (1 - e * cos M) + e * sin M := by
    unfold newt
    rw [sub_mul, div_mul_cancel₀ _ hg.ne']
    unfold resid
    ring
  have h5 : 100 * sin M + 139 * cos M ≤ 171.3 := by
    have : (100 * sin M + 139 * cos M) ^ 2 ≤ 171.3 ^ 2 := by nlinarith [sq_nonneg (100 * cos M - 139 * sin M)]
    exact (abs_le_of_sq_le_sq' this (by norm_num)).2
  have : (newt e M M - M) * (1 - e * cos M) ≤ 1.39 * (1 - e * cos M) := by
    rw [sub_mul, hw]
    nlinarith
  exact le_of_mul_le_mul_right this hg

/-- How far the first iterate from the mean anomaly is from the half revolution. -/
theorem mean_pi {e M : ℝ} (h0 : 0 ≤ e) (h1 : e ≤ 81 / 100) (hM : 0 ≤ M) (hM' : M ≤ π) :
    newt e M M ≤ π - (π - M) / 20 := by
  have pi1 := pi_gt_d4
  have s0 := sin_nonneg_of_nonneg_of_le_pi hM hM'
  obtain ⟨g1, -⟩ := one_sub_ecos e M h0
  have hg : 0 < 1 - e * cos M := by linarith
  have sc := sin_sq_add_cos_sq M
  have hw : newt e M M * (1 - e * cos M) = M * (1 - e * cos M) + e * sin M := by
    unfold newt
    rw [sub_mul, div_mul_cancel₀ _ hg.ne']
    unfold resid
    ring
  have : newt e M M * (1 - e * cos M) ≤ (π - (π - M) / 20) * (1 - e * cos M) := by
    rw [hw]
    have hs0 : 0 ≤ π - M := by linarith
    have : e * (sin M + 19 / 20 * (π - M) * cos M) ≤ 19 / 20 * (π - M) := by
      rcases le_total (cos M) 0 with hc0 | hc0
      · have hsin : sin M ≤ π - M := by
          rw [← sin_pi_sub]
          exact sin_le hs0
        have a1 : sin M + 19 / 20 * (π - M) * cos M ≤ π - M := by nlinarith
        nlinarith
      · have hM2 : M ≤ π / 2 := by
          by_contra hcon
          have := cos_neg_of_pi_div_two_lt_of_lt (not_le.mp hcon) (by linarith)
          linarith
        have a1 : (sin M + 19 / 20 * (π - M) * cos M) ^ 2 ≤ (61 / 50 * (19 / 20 * (π - M))) ^ 2 := by
          have a2 : (sin M + 19 / 20 * (π - M) * cos M) ^ 2 ≤ 1 + (19 / 20 * (π - M)) ^ 2 := by
            nlinarith [sq_nonneg (cos M - 19 / 20 * (π - M) * sin M)]
          nlinarith
        have a3 := abs_le_of_sq_le_sq' a1 (by linarith)
        nlinarith [a3.2]
    nlinarith
  exact le_of_mul_le_mul_right this hg

/-- Starting from the mean anomaly. -/
theorem settled_mean {e M r : ℝ} {S : ℕ → ℝ} (h0 : 0 ≤ e) (h1 : e ≤ 81 / 100) (hM : 0 ≤ M) (hM' : M ≤ π)
    (hr : resid e M r = 0) (hS : Pert e M S) (hs : S 0 = M) : Settled e M r S := by
  obtain ⟨b1, b2, b3⟩ := root_bounds h0 (by linarith) hM hM' hr
  have pi1 := pi_gt_d4
  have pi2 := pi_lt_d4
  have s0 := sin_nonneg_of_nonneg_of_le_pi hM hM'
  have s1 := sin_le_one M
  have hR : InR e M (S 0) := by
    rw [hs]
    refine ⟨by linarith, by linarith, ?_⟩
    rw [show resid e M M = -(e * sin M) by unfold resid; ring, abs_neg, abs_of_nonneg (mul_nonneg h0 s0)]
    nlinarith
  have hp := hS.coarse 0 hR.1 hR.2.1 hR.2.2
  rw [hs, zero_add] at hp
  have hp' := abs_le.mp hp
  obtain ⟨g1, -⟩ := one_sub_ecos e M h0
  have hg : 0 < 1 - e * cos M := by linarith
  have hn := newt_sub e M r M hr hg.ne'
  have hc := sin_tangent (a := M) (b := r) hM hM' (by linarith) b2
  have hw : newt e M M * (1 - e * cos M) = M * (1 - e * cos M) + e * sin M := by
    unfold newt
    rw [sub_mul, div_mul_cancel₀ _ hg.ne']
    unfold resid
    ring
  have k1 : r ≤ newt e M M := by
    by_contra hcon
    have : (newt e M M - r) * (1 - e * cos M) < 0 := mul_neg_of_neg_of_pos (by linarith) hg
    have : 0 ≤ e * (sin M - sin r - (M - r) * cos M) := mul_nonneg h0 (by linarith)
    linarith
  have k2 := mean_first h0 h1 hM hM'
  have k3 := mean_pi h0 h1 hM hM'
  have hI : Inv r ((1.4 : ℚ) : ℝ) (S 1) := by
    by_cases hd : π - M ≤ 10 / 10 ^ 12
    · left
      have e12 : (5 : ℝ) / 10 ^ 13 + 10 / 10 ^ 12 ≤ 2 / 10 ^ 11 := by norm_num
      rw [abs_le]
      constructor <;> linarith [hp'.1, hp'.2]
    · rw [not_le] at hd
      by_cases hl : r ≤ S 1
      · right
        refine ⟨hl, ?_, ?_⟩
        · have : (5 : ℝ) / 10 ^ 13 ≤ 10 / 10 ^ 12 / 20 := by norm_num
          linarith [hp'.2]
        · push_cast
          have : (5 : ℝ) / 10 ^ 13 ≤ 1 / 100 := by norm_num
          linarith [hp'.2]
      · left
        rw [abs_of_neg (by linarith)]
        have : (5 : ℝ) / 10 ^ 13 ≤ 2 / 10 ^ 11 := by norm_num
        linarith [hp'.1]
  obtain ⟨i1, i2⟩ := chain_rightP h0 (by linarith) hr (by linarith) b2 hS pertMean _ 1 (by decide +kernel) hI
  have hl : pertMean.length = 10 := rfl
  refine settled_of_close (n := 11) h0 (by linarith) hr (by linarith) (by linarith) hS (by norm_num) (fun k hk => ?_) ?_
  · cases k with
    | zero => exact hR
    | succ k =>
      have := i1 k (by omega)
      rwa [Nat.add_comm] at this
  · rw [hl] at i2
    refine close_of_inv ?_ i2
    simp [pertMean]
    norm_num

/-- Starting from the mean anomaly plus the eccentricity, up to rounding. -/
theorem settled_ecc {e M r : ℝ} {S : ℕ → ℝ} (h0 : 0 ≤ e) (h1 : e ≤ 17 / 20) (hM : 0 ≤ M) (hM' : M ≤ π)
    (hr : resid e M r = 0) (hS : Pert e M S) (hs : |S 0 - (M + e)| ≤ 1 / 10 ^ 13) : Settled e M r S := by
  obtain ⟨b1, b2, b3⟩ := root_bounds h0 (by linarith) hM hM' hr
  have pi1 := pi_gt_d4
  have pi2 := pi_lt_d4
  have hs' := abs_le.mp hs
  have t13 : (1 : ℝ) / 10 ^ 13 ≤ 1 / 1000 := by norm_num
  by_cases hle : S 0 ≤ π
  · have hI : Inv r ((0.851 : ℚ) : ℝ) (S 0) := by
      by_cases hl : r ≤ S 0
      · right
        refine ⟨hl, hle, ?_⟩
        push_cast
        linarith [hs'.2]
      · left
        rw [abs_of_neg (by linarith)]
        have : (1 : ℝ) / 10 ^ 13 ≤ 2 / 10 ^ 11 := by norm_num
        linarith [hs'.1]
    obtain ⟨i1, i2⟩ := chain_rightP h0 h1 hr (by linarith) b2 hS pertEcc _ 0 (by decide +kernel) hI
    have hl : pertEcc.length = 8 := rfl
    refine settled_of_close (n := 8) h0 h1 hr (by linarith) (by linarith) hS (by norm_num) (fun k hk => ?_) ?_
    · have := i1 k (by omega)
      rwa [Nat.zero_add] at this
    · rw [hl] at i2
      refine close_of_inv ?_ i2
      simp [pertEcc]
      norm_num
  · rw [not_le] at hle
    have hd0 : |S 0 - r| ≤ 0.851 := by
      rw [abs_of_nonneg (by linarith)]
      linarith [hs'.2]
    have hR := inR_of_close h0 h1 hr (by linarith) (by linarith) (hd0.trans (by norm_num))
    have hp := hS.coarse 0 hR.1 hR.2.1 hR.2.2
    rw [zero_add] at hp
    have hcos : cos (S 0) ≤ 0 := by
      apply cos_nonpos_of_pi_div_two_le_of_le <;> linarith [hs'.2]
    have hg : 1 ≤ 1 - e * cos (S 0) := by nlinarith
    have hn := newt_sub e M r (S 0) hr (by linarith)
    have ht := sin_taylor (S 0) (S 0 - r)
    rw [sub_sub_cancel] at ht
    have hd : (S 0 - r) ^ 2 ≤ 0.851 ^ 2 := by
      rw [← sq_abs]
      exact pow_le_pow_left₀ (abs_nonneg _) hd0 2
    have h2 : |newt e M (S 0) - r| * (1 - e * cos (S 0)) ≤ e * (0.851 ^ 2 / 2) := by
      rw [← abs_of_nonneg (by linarith : (0:ℝ) ≤ 1 - e * cos (S 0)), ← abs_mul, hn, abs_mul, abs_of_nonneg h0]
      exact mul_le_mul_of_nonneg_left (by linarith) h0
    have h3 : |S 1 - r| ≤ ((0.308 : ℚ) : ℝ) := by
      have := mul_le_mul_of_nonneg_left hg (abs_nonneg (newt e M (S 0) - r))
      have h4 : |newt e M (S 0) - r| ≤ 0.3079 := by nlinarith
      have h5 := abs_sub_le (S 1) (newt e M (S 0)) r
      have : (5 : ℝ) / 10 ^ 13 ≤ 1 / 10000 := by norm_num
      push_cast
      linarith
    obtain ⟨i1, i2⟩ := chain_quadP h0 h1 hr (by linarith) (by linarith) hS pertFar _ 1 (by decide +kernel)
      (by norm_num) h3
    have hl : pertFar.length = 8 := rfl
    refine settled_of_close (n := 9) h0 h1 hr (by linarith) (by linarith) hS (by norm_num) (fun k hk => ?_) ?_
    · cases k with
      | zero => exact hR
      | succ k =>
        have := i1 k (by omega)
        rwa [Nat.add_comm] at this
    · rw [hl] at i2
      refine i2.trans ?_
      simp [pertFar]
      norm_num

/-! ### The second half of the revolution -/

theorem resid_reflect (e M E : ℝ) : resid e (2 * π - M) (2 * π - E) = -resid e M E := by
  unfold resid
  rw [sin_two_pi_sub]
  ring

theorem Pert.reflect {e M : ℝ} {S : ℕ → ℝ} (hS : Pert e M S) : Pert e (2 * π - M) (fun n => 2 * π - S n) := by
  have key : ∀ n, |2 * π - S (n + 1) - newt e (2 * π - M) (2 * π - S n)| = |S (n + 1) - newt e M (S n)| := by
    intro n
    rw [newt_reflect, show 2 * π - S (n + 1) - (2 * π - newt e M (S n)) = -(S (n + 1) - newt e M (S n)) by ring, abs_neg]
  constructor
  · intro n ha hb hc
    simp only [resid_reflect, abs_neg, key] at *
    exact hS.coarse n (by linarith) (by linarith) hc
  · intro n ha hb hc
    simp only [resid_reflect, abs_neg, key] at *
    exact hS.fine n (by linarith) (by linarith) hc

theorem Settled.reflect {e M r : ℝ} {S : ℕ → ℝ} (h : Settled e (2 * π - M) (2 * π - r) (fun n => 2 * π - S n)) :
    Settled e M r S := by
  refine ⟨fun n => ?_, fun n hn => ?_⟩
  · obtain ⟨h1, h2, h3⟩ := h.1 n
    simp only [resid_reflect, abs_neg] at h3
    exact ⟨by linarith, by linarith, h3⟩
  · have := h.2 n hn
    rwa [show 2 * π - S n - (2 * π - r) = -(S n - r) by ring, abs_neg] at this

end Verif.Astro
