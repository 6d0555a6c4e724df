import Verif.Float.KeplerLemmas

/-
C140: the solvers of Kepler's equation in double arithmetic (src/astrodynamics/kepler.cpp).
-/
namespace Verif.Float

open Real
open Verif.Astro (resid newt maxIt one_sub_ecos InR Pert Settled Solves)

variable {rnd sn cs : ℝ → ℝ} {fused : Bool}

/-! ### The loop -/

theorem loopD_ok (f step : ℝ → ℝ) (tol : ℝ) : ∀ (fuel : Nat) (E : ℝ) (it : Nat), it + fuel = maxIt →
    (∃ i, i < fuel ∧ |f (step^[i] E)| ≤ tol) →
      (loopD f step tol fuel E it).2 < maxIt ∧
        ∃ j, |f (step^[j] E)| ≤ tol ∧ (loopD f step tol fuel E it).1 = step^[j + 1] E
  | 0, _, _, _, h => by obtain ⟨i, hi, _⟩ := h; omega
  | fuel + 1, E, it, hs, h => by
    obtain ⟨i, hi, hr⟩ := h
    simp only [loopD]
    split
    · rename_i h1
      cases i with
      | zero => exact absurd hr (not_le.mpr h1)
      | succ j =>
        rw [if_pos (show it + 1 < maxIt by omega)]
        rw [Function.iterate_succ_apply] at hr
        obtain ⟨a, k, b, c⟩ := loopD_ok f step tol fuel (step E) (it + 1) (by omega) ⟨j, by omega, hr⟩
        exact ⟨a, k + 1, b, c⟩
    · rename_i h1
      exact ⟨by show it < maxIt; omega, 0, not_lt.mp h1, rfl⟩

/-! ### The iterates settle -/

theorem newt_near_pi {e M E : ℝ} (h0 : 0 ≤ e) (h1 : e ≤ 17 / 20) (hf : |resid e M π| ≤ 6)
    (hE : |E - π| ≤ 1.25 / 10 ^ 16) : |newt e M E - newt e M π| ≤ 2 / 10 ^ 13 := by
  obtain ⟨g1, -⟩ := one_sub_ecos e π h0
  have hs := Verif.Astro.abs_sin_sub_le E π
  have hc : |cos E - cos π| ≤ |E - π| := by
    have := Verif.Astro.abs_sin_sub_le (E + π / 2) (π + π / 2)
    rwa [sin_add_pi_div_two, sin_add_pi_div_two, show E + π / 2 - (π + π / 2) = E - π by ring] at this
  have a1 : |resid e M E - resid e M π| ≤ 2.5 / 10 ^ 16 := by
    rw [show resid e M E - resid e M π = (E - π) - e * (sin E - sin π) by unfold resid; ring]
    have b1 := abs_sub (E - π) (e * (sin E - sin π))
    rw [abs_mul, abs_of_nonneg h0] at b1
    have b2 : e * |sin E - sin π| ≤ 1 * (1.25 / 10 ^ 16) :=
      mul_le_mul (by linarith) (hs.trans hE) (abs_nonneg _) (by norm_num)
    linarith
  have a2 : |(1 - e * cos E) - (1 - e * cos π)| ≤ 3 / 10 ^ 16 := by
    rw [show (1 - e * cos E) - (1 - e * cos π) = -(e * (cos E - cos π)) by ring, abs_neg, abs_mul, abs_of_nonneg h0]
    have b2 : e * |cos E - cos π| ≤ 1 * (1.25 / 10 ^ 16) :=
      mul_le_mul (by linarith) (hc.trans hE) (abs_nonneg _) (by norm_num)
    exact b2.trans (by norm_num)
  have a3 := quot_err a1 a2 (by linarith)
  have a4 : |newt e M E - newt e M π| ≤ |E - π| + |resid e M E / (1 - e * cos E) - resid e M π / (1 - e * cos π)| := by
    rw [show newt e M E - newt e M π
      = (E - π) - (resid e M E / (1 - e * cos E) - resid e M π / (1 - e * cos π)) by unfold newt; ring]
    exact abs_sub _ _
  have a5 : 2 / 10 ^ 14 * |resid e M π| ≤ 2 / 10 ^ 14 * 6 := mul_le_mul_of_nonneg_left hf (by norm_num)
  have : (1.25 : ℝ) / 10 ^ 16 + (6.7 * (2.5 / 10 ^ 16) + 2 / 10 ^ 14 * 6) ≤ 2 / 10 ^ 13 := by norm_num
  linarith

theorem root_range {e M r : ℝ} (h0 : 0 ≤ e) (h1 : e ≤ 17 / 20) (hM : 0 ≤ M) (hM' : M ≤ 2 * π) (hr : resid e M r = 0) :
    0 ≤ r ∧ r ≤ 2 * π := by
  rcases le_total M π with h | h
  · obtain ⟨b1, b2, -⟩ := Verif.Astro.root_bounds h0 (by linarith) hM h hr
    exact ⟨by linarith, by linarith [pi_pos]⟩
  · have hr' : resid e (2 * π - M) (2 * π - r) = 0 := by rw [Verif.Astro.resid_reflect, hr, neg_zero]
    obtain ⟨b1, b2, -⟩ := Verif.Astro.root_bounds h0 (by linarith) (by linarith) (by linarith) hr'
    exact ⟨by linarith [pi_pos], by linarith⟩

theorem kepler_settled (hr : Nearest rnd) (hl : LibM sn cs) {e M r : ℝ} (h0 : 0 ≤ e) (h1 : e ≤ 17 / 20) (hM : 0 ≤ M)
    (hM' : M ≤ 2 * π) (hroot : resid e M r = 0) :
    Settled e M r (fun n => (stepK rnd sn cs fused e M)^[n] (if e < rnd (8 / 10) then M else rnd π)) := by
  have hS := stepK_pert (fused := fused) hr hl h0 h1 hM hM' (if e < rnd (8 / 10) then M else rnd π)
  have pi1 := pi_gt_d4
  have pi2 := pi_lt_d4
  have hroot' : resid e (2 * π - M) (2 * π - r) = 0 := by rw [Verif.Astro.resid_reflect, hroot, neg_zero]
  by_cases he : e < rnd (8 / 10)
  · simp only [if_pos he] at *
    have he' : e ≤ 81 / 100 := by
      have := abs_le.mp (round_err hr (x := 8 / 10) 0 (by norm_num) (by
        rw [abs_of_pos (by norm_num)]; norm_num))
      have s : (2 : ℝ) ^ ((0 : ℤ) - 54) ≤ 1 / 100 := by norm_num
      have := this.2.trans s
      linarith
    rcases le_total M π with hm | hm
    · exact Verif.Astro.settled_mean h0 he' hM hm hroot hS rfl
    · exact Settled.reflect (Verif.Astro.settled_mean h0 he' (by linarith) (by linarith) hroot' hS.reflect rfl)
  · simp only [if_neg he] at *
    obtain ⟨q1, q2⟩ := rnd_pi_err hr
    have hE : |rnd π - π| ≤ 1.25 / 10 ^ 16 := by
      rw [abs_of_nonpos (by linarith)]
      linarith
    have hfp : |resid e M π| ≤ π := by
      unfold resid
      rw [sin_pi, mul_zero, sub_zero, abs_le]
      constructor <;> linarith
    have hR : InR e M (rnd π) := by
      refine ⟨by linarith [show (1.25 : ℝ) / 10 ^ 16 ≤ 1 by norm_num], by linarith, ?_⟩
      have b1 := abs_sub_abs_le_abs_sub (resid e M (rnd π)) (resid e M π)
      rw [show resid e M (rnd π) - resid e M π = (rnd π - π) - e * (sin (rnd π) - sin π) by unfold resid; ring] at b1
      have b2 := abs_sub (rnd π - π) (e * (sin (rnd π) - sin π))
      rw [abs_mul, abs_of_nonneg h0] at b2
      have b3 : e * |sin (rnd π) - sin π| ≤ 1 * (1.25 / 10 ^ 16) :=
        mul_le_mul (by linarith) ((Verif.Astro.abs_sin_sub_le _ _).trans hE) (abs_nonneg _) (by norm_num)
      have : (1.25 : ℝ) / 10 ^ 16 + 1 * (1.25 / 10 ^ 16) ≤ 1 := by norm_num
      linarith
    have hs : |stepK rnd sn cs fused e M (rnd π) - newt e M π| ≤ 1 / 10 ^ 12 := by
      have b1 := stepK_coarse (fused := fused) hr hl h0 h1 hR
      have b2 := newt_near_pi h0 h1 (by linarith) hE
      have b3 := abs_sub_le (stepK rnd sn cs fused e M (rnd π)) (newt e M (rnd π)) (newt e M π)
      have : (4 : ℝ) / 10 ^ 13 + 2 / 10 ^ 13 ≤ 1 / 10 ^ 12 := by norm_num
      linarith
    rcases le_total M π with hm | hm
    · exact Verif.Astro.settled_pi h0 h1 hM hm hroot hS hR hs
    · refine Settled.reflect (Verif.Astro.settled_pi h0 h1 (by linarith) (by linarith) hroot' hS.reflect ?_ ?_)
      · obtain ⟨c1, c2, c3⟩ := hR
        refine ⟨?_, ?_, ?_⟩
        · show -1 ≤ 2 * π - rnd π
          linarith
        · show 2 * π - rnd π ≤ 2 * π + 1
          linarith
        · show |resid e (2 * π - M) (2 * π - rnd π)| ≤ 6
          rwa [Verif.Astro.resid_reflect, abs_neg]
      · show |2 * π - stepK rnd sn cs fused e M (rnd π) - newt e (2 * π - M) π| ≤ 1 / 10 ^ 12
        have := Verif.Astro.newt_reflect e M π
        rw [show 2 * π - π = π by ring] at this
        rw [this, show 2 * π - stepK rnd sn cs fused e M (rnd π) - (2 * π - newt e M π)
          = -(stepK rnd sn cs fused e M (rnd π) - newt e M π) by ring, abs_neg]
        exact hs

theorem vallado_settled (hr : Nearest rnd) (hl : LibM sn cs) {e M r : ℝ} (h0 : 0 ≤ e) (h1 : e ≤ 17 / 20) (hM : 0 ≤ M)
    (hM' : M ≤ 2 * π) (hd : IsDouble M) (hroot : resid e M r = 0) (mr : Prop) [Decidable mr]
    (hmr : mr ↔ (M > -rnd π ∧ M < 0) ∨ M > rnd π) :
    Settled e M r (fun n => (stepV rnd sn cs fused e M)^[n] (rnd (M + (if mr then -e else e)))) := by
  have hS := stepV_pert (fused := fused) hr hl (M := M) h0 h1 (rnd (M + (if mr then -e else e)))
  have pi1 := pi_gt_d4
  have pi2 := pi_lt_d4
  have hroot' : resid e (2 * π - M) (2 * π - r) = 0 := by rw [Verif.Astro.resid_reflect, hroot, neg_zero]
  have herr : ∀ s, |s| ≤ 17 / 20 → |rnd (M + s) - (M + s)| ≤ 1 / 10 ^ 13 := by
    intro s hs
    have hs' := abs_le.mp hs
    exact (round_err hr (x := M + s) 3 (by norm_num) (by
      rw [abs_le]; constructor <;> norm_num <;> linarith [hs'.1, hs'.2])).trans (by norm_num)
  by_cases hm : mr
  · have hm' : π < M := by
      rcases hmr.mp hm with h | h
      · exact absurd h.2 (not_lt.mpr hM)
      · exact gt_pi_of_gt hr hd h
    simp only [if_pos hm] at *
    refine Settled.reflect (Verif.Astro.settled_ecc h0 h1 (by linarith) (by linarith) hroot' hS.reflect ?_)
    show |2 * π - rnd (M + -e) - (2 * π - M + e)| ≤ 1 / 10 ^ 13
    rw [show 2 * π - rnd (M + -e) - (2 * π - M + e) = -(rnd (M + -e) - (M + -e)) by ring, abs_neg]
    exact herr (-e) (by rw [abs_neg, abs_of_nonneg h0]; exact h1)
  · have hm' : M ≤ π := by
      have : ¬ M > rnd π := fun h => hm (hmr.mpr (Or.inr h))
      linarith [(rnd_pi_err hr).1]
    simp only [if_neg hm] at *
    exact Verif.Astro.settled_ecc h0 h1 hM hm' hroot hS (herr e (by rw [abs_of_nonneg h0]; exact h1))

/-! ### The value returned -/

/-- Size of the error from the size of the residual. -/
theorem error_of_resid {e M r E b : ℝ} (h0 : 0 ≤ e) (h1 : e ≤ 17 / 20) (hroot : resid e M r = 0)
    (h : |resid e M E| ≤ b) : |E - r| ≤ 20 / 3 * b := by
  have hs := Verif.Astro.kepler_slope e E r h0
  rw [show (E - e * sin E) - (r - e * sin r) = resid e M E - resid e M r by unfold resid; ring, hroot, sub_zero] at hs
  have := abs_nonneg (E - r)
  nlinarith

/-- The tolerances that a theorem below speaks of: the default one, `1e2 * epsilon` (src/astrodynamics.hpp:168-169,
188-189), is among them. -/
def TolOk (tol : ℝ) : Prop := 11 / 10 ^ 15 ≤ tol ∧ tol ≤ 1 / 10 ^ 12

theorem kepler_core (hr : Nearest rnd) (hl : LibM sn cs) {e M r tol : ℝ} (h0 : 0 ≤ e) (h1 : e ≤ 17 / 20) (hM : IsDouble M)
    (ht : TolOk tol) (hroot : resid e (arg02piD rnd M) r = 0) :
    (keplerD rnd sn cs fused e M tol).2 = 0 ∧ |(keplerD rnd sn cs fused e M tol).1 - r| ≤ 5.1 / 10 ^ 15 := by
  obtain ⟨m0, m1, -, -⟩ := arg02piD_spec hr hM
  unfold keplerD
  simp only
  generalize arg02piD rnd M = m at *
  have hset := kepler_settled (fused := fused) hr hl h0 h1 m0 m1 hroot
  have hS := stepK_pert (fused := fused) hr hl h0 h1 m0 m1 (if e < rnd (8 / 10) then m else rnd π)
  obtain ⟨r0, r1⟩ := root_range h0 h1 m0 m1 hroot
  generalize (if e < rnd (8 / 10) then m else rnd π) = E0 at *
  obtain ⟨a, j, b, c⟩ := loopD_ok (residD rnd sn fused e m) (stepK rnd sn cs fused e m) tol maxIt E0 0 (by simp)
    ⟨17, by norm_num [maxIt], by
      have h17 := hset.2 17 le_rfl
      have hres := Verif.Astro.resid_abs e m r ((stepK rnd sn cs fused e m)^[17] E0) h0 (by linarith) hroot
      simp only at h17
      generalize (stepK rnd sn cs fused e m)^[17] E0 = E at *
      have s1 : (2 : ℝ) * (51 / 10 ^ 16) ≤ 1 / 10 ^ 9 := by norm_num
      have hf := residD_fine (fused := fused) hr hl h0 h1 m0 m1 (E := E) (by linarith)
      have := abs_sub_abs_le_abs_sub (residD rnd sn fused e m E) (resid e m E)
      have s2 : (2 : ℝ) * (51 / 10 ^ 16) + 6 / 10 ^ 16 ≤ 11 / 10 ^ 15 := by norm_num
      linarith [ht.1]⟩
  refine ⟨by rw [if_neg (not_le.mpr a)], ?_⟩
  rw [c]
  have hj : |(stepK rnd sn cs fused e m)^[j] E0 - r| ≤ 1 / 10 ^ 10 := by
    have hc := residD_coarse (fused := fused) hr hl h0 h1 (hset.1 j)
    simp only at hc
    have b1 := abs_sub_abs_le_abs_sub (resid e m ((stepK rnd sn cs fused e m)^[j] E0))
      (residD rnd sn fused e m ((stepK rnd sn cs fused e m)^[j] E0))
    rw [abs_sub_comm] at b1
    have b2 : |resid e m ((stepK rnd sn cs fused e m)^[j] E0)| ≤ 11 / 10 ^ 13 := by
      have : (1 : ℝ) / 10 ^ 12 + 2 / 10 ^ 15 ≤ 11 / 10 ^ 13 := by norm_num
      linarith [ht.2]
    exact (error_of_resid h0 h1 hroot b2).trans (by norm_num)
  exact (Verif.Astro.close_next h0 h1 hroot r0 r1 hS hj).trans (by norm_num)

theorem vallado_core (hr : Nearest rnd) (hl : LibM sn cs) {e M r tol : ℝ} (h0 : 0 ≤ e) (h1 : e ≤ 17 / 20)
    (hM : IsDouble M) (ht : TolOk tol) (hroot : resid e (arg02piD rnd M) r = 0) :
    (valladoD rnd sn cs fused e M tol).2 = 0 ∧ |(valladoD rnd sn cs fused e M tol).1 - r| ≤ 5.1 / 10 ^ 15 := by
  obtain ⟨m0, m1, md, -⟩ := arg02piD_spec hr hM
  unfold valladoD
  simp only
  generalize arg02piD rnd M = m at *
  classical
  have hset := vallado_settled (fused := fused) hr hl h0 h1 m0 m1 md hroot _ Iff.rfl
  obtain ⟨r0, r1⟩ := root_range h0 h1 m0 m1 hroot
  generalize hE0 : rnd (m + _) = E0
  have hset' : Settled e m r (fun n => (stepV rnd sn cs fused e m)^[n] E0) := by
    rw [← hE0]
    convert hset
  clear hset hE0
  have hS := stepV_pert (fused := fused) hr hl (M := m) h0 h1 E0
  obtain ⟨a, j, b, c⟩ := loopD_ok (fun E => rnd (E - stepV rnd sn cs fused e m E)) (stepV rnd sn cs fused e m) tol maxIt E0 0
    (by simp) ⟨17, by norm_num [maxIt], by
      have h17 := hset'.2 17 le_rfl
      have h18 := hset'.2 18 (by norm_num)
      simp only [Function.iterate_succ_apply' _ 17] at h17 h18 ⊢
      generalize (stepV rnd sn cs fused e m)^[17] E0 = E at *
      have b1 := abs_sub_le E r (stepV rnd sn cs fused e m E)
      rw [abs_sub_comm r] at b1
      have s1 : (2 : ℝ) * (51 / 10 ^ 16) ≤ 2 ^ (-10 : ℤ) := by norm_num
      have b2 := round_err hr (x := E - stepV rnd sn cs fused e m E) (-10) (by norm_num)
        (le_trans (by linarith) s1)
      have b3 := abs_sub_abs_le_abs_sub (rnd (E - stepV rnd sn cs fused e m E)) (E - stepV rnd sn cs fused e m E)
      have b2' := b2.trans (show (2 : ℝ) ^ ((-10 : ℤ) - 54) ≤ 1 / 10 ^ 16 by norm_num)
      have s2 : (2 : ℝ) * (51 / 10 ^ 16) + 1 / 10 ^ 16 ≤ 11 / 10 ^ 15 := by norm_num
      linarith [ht.1]⟩
  refine ⟨by rw [if_neg (not_le.mpr a)], ?_⟩
  rw [c]
  have hj : |(stepV rnd sn cs fused e m)^[j] E0 - r| ≤ 1 / 10 ^ 10 := by
    have hR := hset'.1 j
    have hR' := hset'.1 (j + 1)
    simp only [Function.iterate_succ_apply'] at hR hR' b
    generalize (stepV rnd sn cs fused e m)^[j] E0 = E at *
    have hc := stepV_coarse (fused := fused) hr hl h0 h1 hR
    generalize stepV rnd sn cs fused e m E = E' at *
    have e1 := abs_le.mp (abs_E hR.1 hR.2.1)
    have e2 := abs_le.mp (abs_E hR'.1 hR'.2.1)
    have b1 := (round_err hr (x := E - E') 4 (by norm_num) (by
      rw [abs_le]; constructor <;> norm_num <;> linarith [e1.1, e1.2, e2.1, e2.2])).trans
      (show (2 : ℝ) ^ ((4 : ℤ) - 54) ≤ 1 / 10 ^ 15 by norm_num)
    have b2 := abs_sub_abs_le_abs_sub (E - E') (rnd (E - E'))
    rw [abs_sub_comm (E - E')] at b2
    have b3 := abs_sub_le E E' (newt e m E)
    have b4 : |E - newt e m E| ≤ 15 / 10 ^ 13 := by
      have : (1 : ℝ) / 10 ^ 12 + 1 / 10 ^ 15 + 4 / 10 ^ 13 ≤ 15 / 10 ^ 13 := by norm_num
      linarith [ht.2]
    obtain ⟨g1, g2⟩ := one_sub_ecos e E h0
    have hg : 0 < 1 - e * cos E := by linarith
    have b5 : |resid e m E| ≤ 3 / 10 ^ 12 := by
      have : resid e m E = (E - newt e m E) * (1 - e * cos E) := by
        unfold newt
        rw [sub_sub_cancel, div_mul_cancel₀ _ hg.ne']
      rw [this, abs_mul, abs_of_pos hg]
      have := mul_le_mul b4 (show 1 - e * cos E ≤ 2 by linarith) hg.le (by norm_num)
      exact this.trans (by norm_num)
    exact (error_of_resid h0 h1 hroot b5).trans (by norm_num)
  exact (Verif.Astro.close_next h0 h1 hroot r0 r1 hS hj).trans (by norm_num)

/-! ### The properties -/

/-- `E` is the eccentric anomaly for the mean anomaly `M` up to whole turns and an error of `5.1·10⁻¹⁵`, the errors of
the reduction to the first revolution apart: half a unit in the last place, and `2.5·10⁻¹⁶` for each of the `k` turns. -/
def Accurate (e M E : ℝ) : Prop :=
  ∃ (k : ℤ) (r : ℝ), |(k : ℝ)| ≤ |M| / 6 + 1 ∧ Solves e (M - 2 * π * k) r ∧
    |E - r| ≤ 5.1 / 10 ^ 15 + (4.5 / 10 ^ 16 + 2.5 / 10 ^ 16 * |(k : ℝ)|) / (1 - e)

theorem exists_root (e M : ℝ) (h0 : 0 ≤ e) (h1 : e ≤ 17 / 20) : ∃ r, resid e M r = 0 :=
  Verif.Astro.exists_resid e M h0 (by linarith)

theorem accurate_of (hr : Nearest rnd) {e M E : ℝ} (h0 : 0 ≤ e) (h1 : e ≤ 17 / 20) (hM : IsDouble M)
    (h : ∀ r, resid e (arg02piD rnd M) r = 0 → |E - r| ≤ 5.1 / 10 ^ 15) : Accurate e M E := by
  obtain ⟨-, -, -, k, hk, hm⟩ := arg02piD_spec hr hM
  obtain ⟨r, hr1⟩ := exists_root e (arg02piD rnd M) h0 h1
  obtain ⟨r', hr2⟩ := exists_root e (M - 2 * π * k) h0 h1
  refine ⟨k, r', hk, by unfold Solves; unfold resid at hr2; linarith, ?_⟩
  have hs := Verif.Astro.kepler_slope e r r' h0
  rw [show (r - e * sin r) - (r' - e * sin r') = arg02piD rnd M - (M - 2 * π * k) by
    unfold resid at hr1 hr2; linear_combination hr1 - hr2] at hs
  have h3 : |r - r'| ≤ (4.5 / 10 ^ 16 + 2.5 / 10 ^ 16 * |(k : ℝ)|) / (1 - e) := by
    rw [le_div_iff₀ (by linarith), mul_comm]
    exact hs.trans hm
  have := abs_sub_le E r r'
  linarith [h r hr1]

/-- **C140** `kepler` in double arithmetic: for every eccentricity up to 0.85 and every finite mean anomaly it reports
success, and the anomaly is accurate. -/
theorem kepler_double_partial (hr : Nearest rnd) (hl : LibM sn cs) (fused : Bool) {e M tol : ℝ} (h0 : 0 ≤ e) (h1 : e ≤ 17 / 20)
    (hM : IsDouble M) (ht : TolOk tol) :
    (keplerD rnd sn cs fused e M tol).2 = 0 ∧ Accurate e M (keplerD rnd sn cs fused e M tol).1 := by
  obtain ⟨r, hroot⟩ := exists_root e (arg02piD rnd M) h0 h1
  exact ⟨(kepler_core hr hl h0 h1 hM ht hroot).1,
    accurate_of hr h0 h1 hM fun _ h => (kepler_core hr hl h0 h1 hM ht h).2⟩

/-- **C140** The same for `kepler_vallado`. -/
theorem vallado_double_partial (hr : Nearest rnd) (hl : LibM sn cs) (fused : Bool) {e M tol : ℝ} (h0 : 0 ≤ e)
    (h1 : e ≤ 17 / 20) (hM : IsDouble M) (ht : TolOk tol) :
    (valladoD rnd sn cs fused e M tol).2 = 0 ∧ Accurate e M (valladoD rnd sn cs fused e M tol).1 := by
  obtain ⟨r, hroot⟩ := exists_root e (arg02piD rnd M) h0 h1
  exact ⟨(vallado_core hr hl h0 h1 hM ht hroot).1,
    accurate_of hr h0 h1 hM fun _ h => (vallado_core hr hl h0 h1 hM ht h).2⟩

/-- **C140** On the first revolution both functions give the solution of Kepler's equation to `5.1·10⁻¹⁵`. -/
theorem first_revolution (hr : Nearest rnd) (hl : LibM sn cs) (fused : Bool) {e M tol r : ℝ} (h0 : 0 ≤ e) (h1 : e ≤ 17 / 20)
    (hM : IsDouble M) (hM0 : 0 ≤ M) (hM1 : M < rnd (2 * π)) (ht : TolOk tol) (hsol : Solves e M r) :
    |(keplerD rnd sn cs fused e M tol).1 - r| ≤ 5.1 / 10 ^ 15 ∧
      |(valladoD rnd sn cs fused e M tol).1 - r| ≤ 5.1 / 10 ^ 15 := by
  have hroot : resid e (arg02piD rnd M) r = 0 := by
    rw [arg02piD_id hM0 hM1]
    unfold resid
    unfold Solves at hsol
    linarith
  exact ⟨(kepler_core hr hl h0 h1 hM ht hroot).2, (vallado_core hr hl h0 h1 hM ht hroot).2⟩

/-- **C140** The mean anomaly is reduced with the rounded 2π: after `2^50` of its revolutions `kepler` reports success
and the anomaly 0, but the mean anomaly is more than a quarter of a radian from all full turns (`e = 0`: the anomalies
are equal). -/
theorem large_counterexample (hr : Nearest rnd) (fused : Bool) {tol : ℝ} (ht : 0 ≤ tol) :
    IsDouble (2 ^ 50 * rnd (2 * π)) ∧ keplerD rnd sn cs fused 0 (2 ^ 50 * rnd (2 * π)) tol = (0, 0) ∧
      ∀ (k : ℤ) (r : ℝ), Solves 0 (2 ^ 50 * rnd (2 * π) - 2 * π * k) r → 1 / 4 < |0 - r| := by
  have h2 := rnd_two_pi hr
  have hpos : 0 < rnd (2 * π) := by rw [h2]; norm_num
  have hm : arg02piD rnd (2 ^ 50 * rnd (2 * π)) = 0 := by
    have hq : 2 ^ 50 * rnd (2 * π) / rnd (2 * π) = ((2 ^ 50 : ℤ) : ℝ) := by
      rw [mul_div_assoc, div_self hpos.ne']
      norm_num
    have hf : Verif.Astro.fmod (2 ^ 50 * rnd (2 * π)) (rnd (2 * π)) = 0 := by
      rw [fmod_eq]
      unfold truncQ
      rw [hq, if_pos (by positivity), Int.floor_intCast]
      push_cast
      ring
    unfold arg02piD
    simp only
    rw [hf, if_neg (lt_irrefl _)]
  refine ⟨?_, ?_, ?_⟩
  · have := (hr.mem (2 * π)).scale 50
    rwa [mul_comm] at this
  · have h8 : 0 < rnd (8 / 10) := by
      have := abs_le.mp ((round_err hr (x := 8 / 10) 0 (by norm_num) (by
        rw [abs_of_pos (by norm_num)]; norm_num)).trans (show (2 : ℝ) ^ ((0 : ℤ) - 54) ≤ 1 / 100 by norm_num))
      linarith [this.1]
    have hz : ∀ x : ℝ, mulR rnd fused (0 * x) = 0 := by
      intro x
      unfold mulR
      rw [zero_mul, hr.zero, ite_self]
    have hres : residD rnd sn fused 0 0 0 = 0 := by
      unfold residD
      rw [hz, sub_zero, sub_zero, hr.zero, hr.zero]
    have hstep : stepK rnd sn cs fused 0 0 0 = 0 := by
      unfold stepK
      rw [hres, zero_div, hr.zero, sub_zero, hr.zero]
    unfold keplerD
    simp only
    rw [hm, if_pos h8]
    rw [show maxIt = 19 + 1 from rfl]
    unfold loopD
    rw [if_neg (by rw [hres, abs_zero]; exact not_lt.mpr ht), hstep]
    simp
  · intro k r hs
    unfold Solves at hs
    rw [zero_mul, sub_zero] at hs
    have p1 := pi_gt_d20
    have p2 := pi_lt_d20
    have e1 : 2 ^ 50 * rnd (2 * π) = 7074237752028440 := by rw [h2]; norm_num
    rw [zero_sub, abs_neg, hs, e1]
    have c1 : 2 * π * ((2 ^ 50 : ℤ) : ℝ) - 7074237752028440 ≤ 0.28 := by push_cast; norm_num at *; linarith
    have c2 : 0.27 ≤ 2 * π * ((2 ^ 50 : ℤ) : ℝ) - 7074237752028440 := by push_cast; norm_num at *; linarith
    rcases lt_trichotomy k (2 ^ 50) with h | h | h
    · have hk : (k : ℝ) + 1 ≤ ((2 ^ 50 : ℤ) : ℝ) := by exact_mod_cast h
      have : 2 * π * ((k : ℝ) + 1) ≤ 2 * π * ((2 ^ 50 : ℤ) : ℝ) := mul_le_mul_of_nonneg_left hk (by linarith)
      generalize ((2 ^ 50 : ℤ) : ℝ) = N at *
      rw [lt_abs]
      left
      linarith
    · rw [h, lt_abs]
      right
      linarith
    · have hk : ((2 ^ 50 : ℤ) : ℝ) + 1 ≤ (k : ℝ) := by exact_mod_cast h
      have : 2 * π * (((2 ^ 50 : ℤ) : ℝ) + 1) ≤ 2 * π * (k : ℝ) := mul_le_mul_of_nonneg_left hk (by linarith)
      generalize ((2 ^ 50 : ℤ) : ℝ) = N at *
      rw [lt_abs]
      right
      linarith

/-! ### Examples -/

/-- Sine and cosine rounded to nearest. -/
theorem libM_rnd (hr : Nearest rnd) : LibM (fun x => rnd (sin x)) (fun x => rnd (cos x)) := by
  constructor
  · intro x
    refine (round_err hr (x := sin x) 0 (by norm_num) (by simpa using abs_sin_le_one x)).trans (by norm_num)
  · intro x
    refine (round_err hr (x := cos x) 0 (by norm_num) (by simpa using abs_cos_le_one x)).trans (by norm_num)

/-- The default tolerance. -/
theorem tolOk_default : TolOk (100 * 2 ^ (-52 : ℤ)) := by
  constructor <;> norm_num

example : (keplerD rnd64 (fun x => rnd64 (sin x)) (fun x => rnd64 (cos x)) false (3 / 4) (-5) (100 * 2 ^ (-52 : ℤ))).2 = 0 :=
  (kepler_double_partial rnd64_nearest (libM_rnd rnd64_nearest) false (by norm_num) (by norm_num)
    (by have := isDouble_int (K := ℝ) (-5) (by norm_num); exact_mod_cast this) tolOk_default).1

example : (valladoD rnd64 (fun x => rnd64 (sin x)) (fun x => rnd64 (cos x)) true (3 / 4) 4 (100 * 2 ^ (-52 : ℤ))).2 = 0 :=
  (vallado_double_partial rnd64_nearest (libM_rnd rnd64_nearest) true (by norm_num) (by norm_num)
    (by have := isDouble_int (K := ℝ) 4 (by norm_num); exact_mod_cast this) tolOk_default).1

/-- A mean anomaly of the first revolution. -/
example : ∃ r, Solves (1 / 2) 3 r ∧
    |(keplerD rnd64 (fun x => rnd64 (sin x)) (fun x => rnd64 (cos x)) false (1 / 2) 3 (100 * 2 ^ (-52 : ℤ))).1 - r|
      ≤ 5.1 / 10 ^ 15 := by
  obtain ⟨r, hr, -⟩ := Verif.Astro.kepler_unique (1 / 2) 3 (by norm_num) (by norm_num)
  refine ⟨r, hr, (first_revolution rnd64_nearest (libM_rnd rnd64_nearest) false (by norm_num) (by norm_num)
    (by have := isDouble_int (K := ℝ) 3 (by norm_num); exact_mod_cast this) (by norm_num) ?_ tolOk_default hr).1⟩
  rw [rnd_two_pi rnd64_nearest]
  norm_num

end Verif.Float
