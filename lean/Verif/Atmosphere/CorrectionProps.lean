import Verif.Atmosphere.EffectProps
import Verif.Atmosphere.ProfileProps
import Mathlib.Analysis.SpecialFunctions.Pow.Real
import Mathlib.Analysis.SpecialFunctions.Log.Basic
import Mathlib.Tactic.Linarith
import Mathlib.Tactic.FieldSimp
import Mathlib.Tactic.Ring
import Mathlib.Tactic.Positivity

/-!
C123: the corrections of the atmosphere model: chemistry and dissociation (`ccor`, `ccor2`), turbopause (`dnet`) and the
weighted magnetic history (`g0`, `sg0`).
-/
namespace Verif.Atmosphere.Msis

open Verif.Atmosphere.Profile (RealFns)
open Data

/-! ### Specification -/

/-- The smooth step of height `r`, one half at `zh`. -/
noncomputable def logistic (r e : ℝ) : ℝ := r / (1 + Real.exp e)

/-- A function of the altitude that falls from `exp r` to one if `r` is positive and rises from `exp r` to one if it is
negative, half-way (in the exponent) at `zh`. -/
structure Transition (f : ℝ → ℝ) (r zh : ℝ) : Prop where
  falls : 0 ≤ r → Antitone f
  rises : r ≤ 0 → Monotone f
  half : f zh = Real.exp (r / 2)
  lower : ∀ z, min 1 (Real.exp r) ≤ f z
  upper : ∀ z, f z ≤ max 1 (Real.exp r)
  far : ∃ b, ∀ z, b ≤ z → f z = 1
  near : ∃ a, ∀ z, z ≤ a → f z = Real.exp r

/-- A weight that falls from one to zero gives a transition. -/
theorem Transition.of_weight (w : ℝ → ℝ) (r zh : ℝ) (hw : Antitone w) (h0 : ∀ z, 0 ≤ w z) (h1 : ∀ z, w z ≤ 1)
    (hh : w zh = 1 / 2) (hb : ∃ b, ∀ z, b ≤ z → w z = 0) (ha : ∃ a, ∀ z, z ≤ a → w z = 1) :
    Transition (fun z => Real.exp (r * w z)) r zh where
  falls := fun hr a b hab => Real.exp_le_exp.2 (mul_le_mul_of_nonneg_left (hw hab) hr)
  rises := fun hr a b hab => Real.exp_le_exp.2 (mul_le_mul_of_nonpos_left (hw hab) hr)
  half := by show Real.exp (r * w zh) = _; rw [hh]; congr 1; ring
  lower := by
    intro z
    rcases le_total 0 r with h | h
    · refine le_trans (min_le_left _ _) ?_
      rw [← Real.exp_zero]
      exact Real.exp_le_exp.2 (mul_nonneg h (h0 z))
    · refine le_trans (min_le_right _ _) (Real.exp_le_exp.2 ?_)
      nlinarith [h1 z]
  upper := by
    intro z
    rcases le_total 0 r with h | h
    · refine le_trans (Real.exp_le_exp.2 ?_) (le_max_right _ _)
      nlinarith [h1 z]
    · refine le_trans ?_ (le_max_left _ _)
      rw [← Real.exp_zero]
      exact Real.exp_le_exp.2 (mul_nonpos_of_nonpos_of_nonneg h (h0 z))
  far := by
    obtain ⟨b, hb⟩ := hb
    refine ⟨b, fun z hz => ?_⟩
    show Real.exp (r * w z) = 1
    rw [hb z hz, mul_zero, Real.exp_zero]
  near := by
    obtain ⟨a, ha⟩ := ha
    refine ⟨a, fun z hz => ?_⟩
    show Real.exp (r * w z) = _
    rw [ha z hz, mul_one]

/-- The weight of `ccor` as a function of `e`. -/
noncomputable def weight1 (e : ℝ) : ℝ := if e > 70 then 0 else if e < -70 then 1 else 1 / (1 + Real.exp e)

theorem weight1_nonneg (e : ℝ) : 0 ≤ weight1 e := by
  unfold weight1
  split
  · exact le_rfl
  · split
    · exact zero_le_one
    · have := Real.exp_pos e; positivity

theorem weight1_le (e : ℝ) : weight1 e ≤ 1 := by
  unfold weight1
  split
  · exact zero_le_one
  · split
    · exact le_rfl
    · have := Real.exp_pos e
      rw [div_le_one (by positivity)]
      linarith

theorem weight1_anti : Antitone weight1 := by
  intro a b hab
  by_cases hb : b > 70
  · have : weight1 b = 0 := if_pos hb
    rw [this]; exact weight1_nonneg a
  by_cases ha : a < -70
  · have : weight1 a = 1 := by
      unfold weight1
      rw [if_neg (by linarith), if_pos ha]
    rw [this]; exact weight1_le b
  · unfold weight1
    rw [if_neg hb, if_neg (by linarith), if_neg (by linarith), if_neg ha]
    have h1 := Real.exp_pos a
    have h2 := Real.exp_le_exp.2 hab
    exact one_div_le_one_div_of_le (by positivity) (by linarith)

/-- **C123** The chemistry correction falls or rises steadily with altitude between `exp r` and one, over the limits where
the code gives up computing the exponential too, and is half-way at `zh`. -/
theorem ccor_transition (F : Fns ℝ) (hF : RealFns F) (r h1 zh : ℝ) (hh : 0 < h1) :
    Transition (fun z => ccor F z r h1 zh) r zh := by
  have e : (fun z => ccor F z r h1 zh) = fun z => Real.exp (r * weight1 ((z - zh) / h1)) := by
    funext z
    unfold ccor weight1
    rw [hF.exp]
    dsimp only
    by_cases c1 : (z - zh) / h1 > 70
    · rw [if_pos c1, if_pos c1, mul_zero]
    rw [if_neg c1, if_neg c1]
    by_cases c2 : (z - zh) / h1 < -70
    · rw [if_pos c2, if_pos c2, mul_one]
    rw [if_neg c2, if_neg c2, mul_one_div]
  rw [e]
  refine Transition.of_weight _ r zh ?_ (fun _ => weight1_nonneg _) (fun _ => weight1_le _) ?_ ⟨zh + 71 * h1, ?_⟩
    ⟨zh - 71 * h1, ?_⟩
  · intro a b hab
    refine weight1_anti ?_
    exact div_le_div_of_nonneg_right (by linarith) hh.le
  · rw [sub_self, zero_div]
    unfold weight1
    rw [if_neg (by norm_num), if_neg (by norm_num), Real.exp_zero]
    norm_num
  · intro z hz
    have : (70 : ℝ) < (z - zh) / h1 := by rw [lt_div_iff₀ hh]; nlinarith
    exact if_pos this
  · intro z hz
    have : (z - zh) / h1 < -70 := by rw [div_lt_iff₀ hh]; nlinarith
    unfold weight1
    rw [if_neg (by linarith), if_pos this]

/-- **C123** Where the code gives up computing the exponential, the exponent is off by no more than `|r| exp (-70)`. -/
theorem ccor_limit (F : Fns ℝ) (hF : RealFns F) (alt r h1 zh : ℝ) :
    ∃ x, ccor F alt r h1 zh = Real.exp x ∧ |x - logistic r ((alt - zh) / h1)| ≤ |r| * Real.exp (-70) := by
  unfold ccor logistic
  rw [hF.exp]
  set e := (alt - zh) / h1
  refine ⟨_, rfl, ?_⟩
  have hp := Real.exp_pos e
  split
  · rename_i h
    rw [zero_sub, abs_neg, abs_div, abs_of_pos (by positivity : 0 < 1 + Real.exp e), div_eq_mul_inv]
    refine mul_le_mul_of_nonneg_left ?_ (abs_nonneg r)
    rw [Real.exp_neg]
    refine inv_anti₀ (Real.exp_pos _) ?_
    have := Real.exp_le_exp.2 h.le
    linarith
  · split
    · rename_i h
      have : r - r / (1 + Real.exp e) = r * (Real.exp e / (1 + Real.exp e)) := by field_simp; ring
      rw [this, abs_mul, abs_of_pos (by positivity : 0 < Real.exp e / (1 + Real.exp e))]
      refine mul_le_mul_of_nonneg_left ?_ (abs_nonneg r)
      refine le_trans ?_ (Real.exp_le_exp.2 h.le)
      exact div_le_self hp.le (by linarith)
    · rw [sub_self, abs_zero]
      positivity

/-- The weight of `ccor2`. -/
noncomputable def weight2 (e1 e2 : ℝ) : ℝ :=
  if e1 > 70 ∨ e2 > 70 then 0 else if e1 < -70 ∧ e2 < -70 then 1 else 1 / (1 + 0.5 * (Real.exp e1 + Real.exp e2))

theorem weight2_nonneg (a b : ℝ) : 0 ≤ weight2 a b := by
  unfold weight2
  split
  · exact le_rfl
  · split
    · exact zero_le_one
    · have := Real.exp_pos a; have := Real.exp_pos b; positivity

theorem weight2_le (a b : ℝ) : weight2 a b ≤ 1 := by
  unfold weight2
  split
  · exact zero_le_one
  · split
    · exact le_rfl
    · have := Real.exp_pos a
      have := Real.exp_pos b
      rw [div_le_one (by positivity)]
      linarith

theorem weight2_anti {a b c d : ℝ} (h1 : a ≤ c) (h2 : b ≤ d) : weight2 c d ≤ weight2 a b := by
  by_cases hb : c > 70 ∨ d > 70
  · have : weight2 c d = 0 := if_pos hb
    rw [this]; exact weight2_nonneg a b
  rw [not_or] at hb
  by_cases ha : a < -70 ∧ b < -70
  · have : weight2 a b = 1 := by
      unfold weight2
      rw [if_neg (by rw [not_or]; constructor <;> linarith [ha.1, ha.2, hb.1, hb.2]), if_pos ha]
    rw [this]; exact weight2_le c d
  · unfold weight2
    rw [if_neg (not_or.2 hb), if_neg (fun h => ha ⟨by linarith [h.1], by linarith [h.2]⟩),
      if_neg (by rw [not_or]; constructor <;> linarith [hb.1, hb.2]), if_neg ha]
    have q1 := Real.exp_pos a
    have q2 := Real.exp_pos b
    have q3 := Real.exp_le_exp.2 h1
    have q4 := Real.exp_le_exp.2 h2
    exact one_div_le_one_div_of_le (by positivity) (by linarith)

/-- **C123** The same for the correction with two scale lengths. -/
theorem ccor2_transition (F : Fns ℝ) (hF : RealFns F) (r h1 zh h2 : ℝ) (p1 : 0 < h1) (p2 : 0 < h2) :
    Transition (fun z => ccor2 F z r h1 zh h2) r zh := by
  have e : (fun z => ccor2 F z r h1 zh h2) = fun z => Real.exp (r * weight2 ((z - zh) / h1) ((z - zh) / h2)) := by
    funext z
    unfold ccor2 weight2
    rw [hF.exp]
    dsimp only
    by_cases c1 : (z - zh) / h1 > 70 ∨ (z - zh) / h2 > 70
    · rw [if_pos c1, if_pos c1, mul_zero]
    rw [if_neg c1, if_neg c1]
    by_cases c2 : (z - zh) / h1 < -70 ∧ (z - zh) / h2 < -70
    · rw [if_pos c2, if_pos c2, mul_one]
    rw [if_neg c2, if_neg c2, mul_one_div]
  rw [e]
  refine Transition.of_weight _ r zh ?_ (fun _ => weight2_nonneg _ _) (fun _ => weight2_le _ _) ?_ ⟨zh + 71 * h1, ?_⟩
    ⟨zh - 71 * (max h1 h2), ?_⟩
  · intro a b hab
    exact weight2_anti (div_le_div_of_nonneg_right (by linarith) p1.le) (div_le_div_of_nonneg_right (by linarith) p2.le)
  · rw [sub_self, zero_div, zero_div]
    unfold weight2
    rw [if_neg (by norm_num), if_neg (by norm_num), Real.exp_zero]
    norm_num
  · intro z hz
    have : (70 : ℝ) < (z - zh) / h1 := by rw [lt_div_iff₀ p1]; nlinarith
    exact if_pos (Or.inl this)
  · intro z hz
    have a1 : (z - zh) / h1 < -70 := by rw [div_lt_iff₀ p1]; nlinarith [le_max_left h1 h2]
    have a2 : (z - zh) / h2 < -70 := by rw [div_lt_iff₀ p2]; nlinarith [le_max_right h1 h2]
    unfold weight2
    rw [if_neg (by rw [not_or]; constructor <;> linarith), if_pos ⟨a1, a2⟩]

/-- Between the limits the exponent is `r` over one plus the mean of the two exponentials. -/
theorem ccor2_between (F : Fns ℝ) (hF : RealFns F) (alt r h1 zh h2 : ℝ) (u1 : (alt - zh) / h1 ≤ 70)
    (u2 : (alt - zh) / h2 ≤ 70) (l1 : -70 ≤ (alt - zh) / h1) :
    ccor2 F alt r h1 zh h2 =
      Real.exp (r / (1 + (Real.exp ((alt - zh) / h1) + Real.exp ((alt - zh) / h2)) / 2)) := by
  unfold ccor2
  rw [hF.exp]
  dsimp only
  rw [if_neg (by rw [not_or]; constructor <;> linarith), if_neg (fun h => by linarith [h.1])]
  congr 2
  ring

/-- **C123** With both scale lengths negative, as for the second correction of molecular oxygen, the direction is reversed. -/
theorem ccor2_reversed (F : Fns ℝ) (hF : RealFns F) (r h1 zh h2 : ℝ) (p1 : h1 < 0) (p2 : h2 < 0) :
    Transition (fun z => ccor2 F (zh - (z - zh)) r h1 zh h2) r zh := by
  have e : (fun z => ccor2 F (zh - (z - zh)) r h1 zh h2) = fun z => ccor2 F z r (-h1) zh (-h2) := by
    funext z
    have e1 : (zh - (z - zh) - zh) / h1 = (z - zh) / -h1 := by rw [div_neg, ← neg_div]; congr 1; ring
    have e2 : (zh - (z - zh) - zh) / h2 = (z - zh) / -h2 := by rw [div_neg, ← neg_div]; congr 1; ring
    unfold ccor2
    rw [e1, e2]
  rw [e]
  exact ccor2_transition F hF r (-h1) zh (-h2) (by linarith) (by linarith)

/-- **C123** The scale lengths in the tables: those of all corrections are positive, except that both of the second correction
of molecular oxygen are negative. -/
theorem scale_lengths :
    (∀ h ∈ [tabR.pdm 0 5 * tabR.pdl 1 1, tabR.pdm 1 5 * tabR.pdl 1 3, tabR.pdm 1 5 * tabR.pdl 1 4,
        tabR.pdm 1 7 * tabR.pdl 1 13, tabR.pdm 3 5 * tabR.pdl 1 7, tabR.pdm 4 5 * tabR.pdl 1 9,
        tabR.pdm 5 5 * tabR.pdl 1 11, tabR.pdm 5 7 * tabR.pdl 1 19, tabR.pdm 6 5 * tabR.pdl 0 1,
        tabR.pdm 6 7 * tabR.pdl 0 4], 0 < h) ∧
      tabR.pdm 3 7 * tabR.pdl 1 22 < 0 ∧ tabR.pdm 3 7 * tabR.pdl 0 22 < 0 := by
  have q : (∀ h ∈ [tabQ.pdm 0 5 * tabQ.pdl 1 1, tabQ.pdm 1 5 * tabQ.pdl 1 3, tabQ.pdm 1 5 * tabQ.pdl 1 4,
        tabQ.pdm 1 7 * tabQ.pdl 1 13, tabQ.pdm 3 5 * tabQ.pdl 1 7, tabQ.pdm 4 5 * tabQ.pdl 1 9,
        tabQ.pdm 5 5 * tabQ.pdl 1 11, tabQ.pdm 5 7 * tabQ.pdl 1 19, tabQ.pdm 6 5 * tabQ.pdl 0 1,
        tabQ.pdm 6 7 * tabQ.pdl 0 4], 0 < h) ∧
      tabQ.pdm 3 7 * tabQ.pdl 1 22 < 0 ∧ tabQ.pdm 3 7 * tabQ.pdl 0 22 < 0 := by decide +kernel
  simp only [List.forall_mem_cons, List.not_mem_nil, IsEmpty.forall_iff, implies_true, and_true] at q ⊢
  simp only [tabR]
  exact_mod_cast q

/-! ### Turbopause -/

/-- Specification: the sum of powers by which diffusive and mixed density are combined. -/
noncomputable def powerSum (a dd dm : ℝ) : ℝ := (dd ^ a + dm ^ a) ^ (1 / a)

/-- The library functions, with the logarithm. -/
structure RealFnsLog (F : Fns ℝ) : Prop extends RealFns F where
  log : F.log = Real.log

theorem powerSum_eq (a dd dm : ℝ) (ha : a ≠ 0) (h1 : 0 < dd) (h2 : 0 < dm) :
    powerSum a dd dm = dd * (1 + Real.exp (a * Real.log (dm / dd))) ^ (1 / a) := by
  have e : Real.exp (a * Real.log (dm / dd)) = (dm / dd) ^ a := by
    rw [Real.rpow_def_of_pos (by positivity), mul_comm]
  have f : dd ^ a + dm ^ a = dd ^ a * (1 + (dm / dd) ^ a) := by
    rw [Real.div_rpow h2.le h1.le]
    have := (Real.rpow_pos_of_pos h1 a).ne'
    field_simp
  unfold powerSum
  rw [f, e, Real.mul_rpow (by positivity) (by positivity), ← Real.rpow_mul h1.le, mul_one_div, div_self ha, Real.rpow_one]

/-- **C123** The net density of two positive densities is the sum of powers with exponent `zhm / (xmm - xm)`, up to a factor
that differs from one only where one of the densities is negligible, and then by no more than about `exp (-10)` over that
exponent. -/
theorem dnet_powerSum (F : Fns ℝ) (hF : RealFnsLog F) (dd dm zhm xmm xm : ℝ) (h1 : 0 < dd) (h2 : 0 < dm)
    (ha : zhm / (xmm - xm) ≠ 0) :
    ∃ d, dnet F dd dm zhm xmm xm = powerSum (zhm / (xmm - xm)) dd dm * Real.exp d ∧
      |d| ≤ Real.exp (-10) / |zhm / (xmm - xm)| ∧
      (|zhm / (xmm - xm) * Real.log (dm / dd)| ≤ 10 → d = 0) := by
  rw [powerSum_eq _ dd dm ha h1 h2]
  unfold dnet
  rw [hF.exp, hF.log, hF.pow]
  dsimp only
  rw [if_neg (by rw [not_or]; constructor <;> linarith)]
  generalize zhm / (xmm - xm) = a at ha ⊢
  set y := a * Real.log (dm / dd) with hy
  have hp := Real.exp_pos y
  have hpa : (0 : ℝ) < |a| := abs_pos.2 ha
  have small : ∀ t : ℝ, t ≤ -10 → |1 / a * Real.log (1 + Real.exp t)| ≤ Real.exp (-10) / |a| := by
    intro t ht
    have q := Real.exp_pos t
    have l0 : 0 ≤ Real.log (1 + Real.exp t) := Real.log_nonneg (by linarith)
    have l1 : Real.log (1 + Real.exp t) ≤ Real.exp t := by
      have := Real.log_le_sub_one_of_pos (by linarith : 0 < 1 + Real.exp t)
      linarith
    rw [abs_mul, abs_div, abs_one, abs_of_nonneg l0, one_div, mul_comm, ← div_eq_mul_inv]
    exact div_le_div_of_nonneg_right (l1.trans (Real.exp_le_exp.2 ht)) hpa.le
  have pw : ∀ t : ℝ, (1 + Real.exp t) ^ (1 / a) = Real.exp (1 / a * Real.log (1 + Real.exp t)) := by
    intro t
    have q := Real.exp_pos t
    rw [Real.rpow_def_of_pos (by positivity), mul_comm]
  by_cases c1 : y < -10
  · rw [if_pos c1]
    refine ⟨-(1 / a * Real.log (1 + Real.exp y)), ?_, ?_, ?_⟩
    · rw [pw, mul_assoc, ← Real.exp_add, add_neg_cancel, Real.exp_zero, mul_one]
    · rw [abs_neg]; exact small y c1.le
    · intro h; rw [abs_le] at h; linarith [h.1]
  rw [if_neg c1]
  by_cases c2 : y > 10
  · rw [if_pos c2]
    refine ⟨-(1 / a * Real.log (1 + Real.exp (-y))), ?_, ?_, ?_⟩
    · have e1 : 1 + Real.exp y = Real.exp y * (1 + Real.exp (-y)) := by
        rw [mul_add, ← Real.exp_add, add_neg_cancel, Real.exp_zero]; ring
      have q := Real.exp_pos (-y)
      have e2 : Real.exp y ^ (1 / a) = dm / dd := by
        rw [← Real.exp_mul, hy, mul_comm a, mul_assoc, mul_one_div, div_self ha, mul_one,
          Real.exp_log (by positivity)]
      rw [e1, Real.mul_rpow hp.le (by positivity), e2, pw, mul_assoc, mul_assoc, ← Real.exp_add, add_neg_cancel,
        Real.exp_zero, mul_one]
      field_simp
    · rw [abs_neg]; exact small (-y) (by linarith)
    · intro h; rw [abs_le] at h; linarith [h.2]
  · rw [if_neg c2]
    refine ⟨0, ?_, ?_, fun _ => rfl⟩
    · rw [Real.exp_zero, mul_one]
    · rw [abs_zero]; positivity

/-- **C123** For gases lighter than the mixture the net density is at least either density, for heavier ones at most. -/
theorem dnet_bounds (F : Fns ℝ) (hF : RealFnsLog F) (dd dm zhm xmm xm : ℝ) (h1 : 0 < dd) (h2 : 0 < dm) (hz : 0 < zhm) :
    (xm < xmm → max dd dm ≤ dnet F dd dm zhm xmm xm) ∧ (xmm < xm → dnet F dd dm zhm xmm xm ≤ min dd dm) := by
  unfold dnet
  rw [hF.exp, hF.log, hF.pow]
  dsimp only
  rw [if_neg (by rw [not_or]; constructor <;> linarith)]
  have hl : ∀ {t : ℝ}, Real.log (dm / dd) ≤ 0 → dm ≤ dd := by
    intro _ h
    rw [Real.log_nonpos_iff (by positivity), div_le_one h1] at h
    exact h
  have hg : ∀ {t : ℝ}, 0 ≤ Real.log (dm / dd) → dd ≤ dm := by
    intro _ h
    rw [Real.log_nonneg_iff (by positivity), one_le_div h1] at h
    exact h
  have key : ∀ a : ℝ, a ≠ 0 → Real.exp (a * Real.log (dm / dd)) ^ (1 / a) = dm / dd := by
    intro a ha
    rw [← Real.exp_mul, mul_comm a, mul_assoc, mul_one_div, div_self ha, mul_one, Real.exp_log (by positivity)]
  have hp : ∀ a : ℝ, 0 < Real.exp (a * Real.log (dm / dd)) := fun a => Real.exp_pos _
  constructor
  · intro hx
    have ha : 0 < zhm / (xmm - xm) := div_pos hz (by linarith)
    generalize zhm / (xmm - xm) = a at ha ⊢
    split
    · rename_i c
      exact max_le le_rfl (hl (t := 0) (by by_contra h; nlinarith))
    split
    · rename_i c
      exact max_le (hg (t := 0) (by by_contra h; nlinarith)) le_rfl
    · have q := hp a
      refine max_le ?_ ?_
      · exact le_mul_of_one_le_right h1.le (Real.one_le_rpow (by linarith) (by positivity))
      · have := Real.rpow_le_rpow q.le (by linarith : _ ≤ 1 + Real.exp (a * Real.log (dm / dd))) (by positivity : 0 ≤ 1 / a)
        rw [key a ha.ne', div_le_iff₀ h1] at this
        linarith
  · intro hx
    have ha : zhm / (xmm - xm) < 0 := div_neg_of_pos_of_neg hz (by linarith)
    generalize zhm / (xmm - xm) = a at ha ⊢
    have hia : 1 / a ≤ 0 := one_div_nonpos.2 ha.le
    split
    · rename_i c
      exact le_min le_rfl (hg (t := 0) (by by_contra h; nlinarith))
    split
    · rename_i c
      exact le_min (hl (t := 0) (by by_contra h; nlinarith)) le_rfl
    · have q := hp a
      refine le_min ?_ ?_
      · exact mul_le_of_le_one_right h1.le (Real.rpow_le_one_of_one_le_of_nonpos (by linarith) hia)
      · have := Real.rpow_le_rpow_of_nonpos q (by linarith : _ ≤ 1 + Real.exp (a * Real.log (dm / dd))) hia
        rw [key a ha.ne, le_div_iff₀ h1] at this
        linarith

/-- **C123** If one density is zero and the other is not below the threshold, the net density is the other one. -/
theorem dnet_one_zero_partial (F : Fns ℝ) (d zhm xmm xm : ℝ) (hd : 1e-6 ≤ d) :
    dnet F d 0 zhm xmm xm = d ∧ dnet F 0 d zhm xmm xm = d := by
  have hn : (nearzero : ℝ) = 1e-6 := by unfold nearzero; norm_num
  have h0 : |(0 : ℝ)| < nearzero := by rw [abs_zero, hn]; norm_num
  have h1 : ¬ |d| < nearzero := by rw [hn, not_lt]; exact hd.trans (le_abs_self d)
  constructor
  · unfold dnet
    dsimp only
    rw [if_pos (Or.inl le_rfl), if_pos h0, if_neg (fun h => h1 h.1)]
  · unfold dnet
    dsimp only
    have h2 : ¬ (|(0 : ℝ)| < nearzero ∧ |d| < nearzero) := fun h => h1 h.2
    rw [if_pos (Or.inr le_rfl), if_neg h1, if_neg h2, if_pos h0]

/-- **C123 (counterexample)**  Where diffusive and mixed density vanish, or one vanishes and the other is below a millionth of
a particle per cubic centimetre, the net density is one particle per cubic centimetre, more than both. -/
theorem dnet_vanishing_counterexample (F : Fns ℝ) (zhm xmm xm : ℝ) :
    dnet F 0 0 zhm xmm xm = 1 ∧ dnet F 1e-7 0 zhm xmm xm = 1 ∧ dnet F 0 1e-7 zhm xmm xm = 1 := by
  have hn : (nearzero : ℝ) = 1e-6 := by unfold nearzero; norm_num
  have h0 : |(0 : ℝ)| < nearzero := by rw [abs_zero, hn]; norm_num
  have h1 : |(1e-7 : ℝ)| < nearzero := by rw [hn, abs_of_pos (by norm_num)]; norm_num
  refine ⟨?_, ?_, ?_⟩ <;> unfold dnet <;> dsimp only
  · rw [if_pos (Or.inl le_rfl), if_pos h0, if_pos ⟨h0, h0⟩]
  · rw [if_pos (Or.inl le_rfl), if_pos h0, if_pos ⟨h1, h0⟩]
  · rw [if_pos (Or.inr le_rfl), if_pos h1, if_pos ⟨h0, h1⟩]

/-! ### Magnetic history -/

/-- Specification: the twenty three-hourly values of the history: the first four indexes, then eight times the fifth and eight
times the sixth. -/
def history (ap : ℕ → ℝ) (k : ℕ) : ℝ := if k < 4 then ap (k + 1) else if k < 12 then ap 5 else ap 6

/-- **C123** The response to an index of at least four lies between the excess over four and `p25` times this excess. -/
theorem g0_bounds (F : Fns ℝ) (hF : RealFns F) (a p25 q : ℝ) (ha : 4 ≤ a) (hq : q ≠ 0) :
    min 1 p25 * (a - 4) ≤ g0 F a p25 q ∧ g0 F a p25 q ≤ max 1 p25 * (a - 4) := by
  unfold g0
  rw [hF.exp]
  have hq' : 0 < |q| := abs_pos.2 hq
  have hx : 0 ≤ a - 4 := by linarith
  generalize a - 4 = x at hx ⊢
  generalize |q| = r at hq' ⊢
  have e1 := Real.add_one_le_exp (-r * x)
  have e2 : Real.exp (-r * x) ≤ 1 := Real.exp_le_one_iff.2 (by nlinarith)
  obtain ⟨u, hu⟩ : ∃ u, u = x + (Real.exp (-r * x) - 1) / r := ⟨_, rfl⟩
  have u0 : 0 ≤ u := by
    have : -x ≤ (Real.exp (-r * x) - 1) / r := by rw [le_div_iff₀ hq']; nlinarith
    linarith
  have u1 : u ≤ x := by
    have : (Real.exp (-r * x) - 1) / r ≤ 0 := div_nonpos_of_nonpos_of_nonneg (by linarith) hq'.le
    linarith
  rw [← hu]
  rcases le_total 1 p25 with h | h
  · rw [min_eq_left h, max_eq_right h]
    constructor <;> nlinarith
  · rw [min_eq_right h, max_eq_left h]
    constructor <;> nlinarith

theorem rpow_num (x : ℝ) (n : ℕ) (y : ℝ) (h : y = n) : x ^ y = x ^ n := by rw [h, Real.rpow_natCast]

/-- **C123** The weighted history is the sum over the twenty values with weights that fall by the factor `ex` from one to the
next, over one plus the sum of nineteen weights that start at the root of `ex`. -/
theorem sg0_sum (F : Fns ℝ) (hF : RealFns F) (ex p25 q : ℝ) (ap : ℕ → ℝ) (h0 : 0 < ex) (h1 : ex < 1) :
    sg0 F ex p25 q ap = (∑ k ∈ Finset.range 20, ex ^ k * g0 F (history ap k) p25 q) /
      (1 + ∑ k ∈ Finset.range 19, ex ^ k * Real.sqrt ex) := by
  have hne : 1 - ex ≠ 0 := by linarith
  have h19 : ex ^ (19 : ℝ) = ex ^ 19 := rpow_num ex 19 _ (by norm_num)
  have h3 : ex ^ (3 : ℝ) = ex ^ 3 := rpow_num ex 3 _ (by norm_num)
  have h4 : ex ^ (4 : ℝ) = ex ^ 4 := rpow_num ex 4 _ (by norm_num)
  have h12 : ex ^ (12 : ℝ) = ex ^ 12 := rpow_num ex 12 _ (by norm_num)
  have h8 : ex ^ (8 : ℝ) = ex ^ 8 := rpow_num ex 8 _ (by norm_num)
  have hs : ex ^ (0.5 : ℝ) = Real.sqrt ex := by rw [Real.sqrt_eq_rpow]; norm_num
  unfold sg0 sumex
  rw [hF.pow]
  dsimp only
  rw [h19, h3, h4, h12, h8, hs]
  have g8 : (1 - ex ^ 8) / (1 - ex) = ∑ k ∈ Finset.range 8, ex ^ k := by
    rw [div_eq_iff hne]
    simp only [Finset.sum_range_succ, Finset.sum_range_zero]
    ring
  have g19 : (1 - ex ^ 19) / (1 - ex) = ∑ k ∈ Finset.range 19, ex ^ k := by
    rw [div_eq_iff hne]
    simp only [Finset.sum_range_succ, Finset.sum_range_zero]
    ring
  rw [g19, ← Finset.sum_mul, mul_div_assoc, g8]
  congr 1
  simp only [Finset.sum_range_succ, Finset.sum_range_zero, history]
  norm_num
  ring

theorem weights_le (ex : ℝ) (h0 : 0 < ex) (h1 : ex < 1) :
    ∑ k ∈ Finset.range 20, ex ^ k < 1 + ∑ k ∈ Finset.range 19, ex ^ k * Real.sqrt ex := by
  have hs : ex < Real.sqrt ex := by
    rw [Real.lt_sqrt h0.le]
    nlinarith
  rw [Finset.sum_range_succ']
  have : ∑ k ∈ Finset.range 19, ex ^ (k + 1) < ∑ k ∈ Finset.range 19, ex ^ k * Real.sqrt ex := by
    refine Finset.sum_lt_sum_of_nonempty (by decide) fun k _ => ?_
    rw [pow_succ]
    exact mul_lt_mul_of_pos_left hs (by positivity)
  rw [pow_zero]
  linarith

/-- **C123** The magnetic index formed from a history of indexes between 4 and `A` is not negative and not above the largest
response to one of them. -/
theorem sg0_bounds (F : Fns ℝ) (hF : RealFns F) (ex p25 q A : ℝ) (ap : ℕ → ℝ) (h0 : 0 < ex) (h1 : ex < 1) (hp : 0 ≤ p25)
    (hq : q ≠ 0) (hA : ∀ i, 1 ≤ i → i ≤ 6 → 4 ≤ ap i ∧ ap i ≤ A) :
    0 ≤ sg0 F ex p25 q ap ∧ sg0 F ex p25 q ap ≤ max 1 p25 * (A - 4) := by
  have hh : ∀ k, 4 ≤ history ap k ∧ history ap k ≤ A := by
    intro k
    unfold history
    split
    · exact hA _ (by omega) (by omega)
    · split
      · exact hA 5 (by omega) (by omega)
      · exact hA 6 (by omega) (by omega)
  have hg : ∀ k, 0 ≤ g0 F (history ap k) p25 q ∧ g0 F (history ap k) p25 q ≤ max 1 p25 * (A - 4) := by
    intro k
    obtain ⟨a, b⟩ := g0_bounds F hF _ p25 q (hh k).1 hq
    have h4 : 0 ≤ history ap k - 4 := by linarith [(hh k).1]
    refine ⟨le_trans (mul_nonneg (le_min zero_le_one hp) h4) a, b.trans ?_⟩
    exact mul_le_mul_of_nonneg_left (by linarith [(hh k).2]) (le_trans zero_le_one (le_max_left _ _))
  have hB : 0 ≤ max 1 p25 * (A - 4) := (hg 0).1.trans (hg 0).2
  have hD : 0 < 1 + ∑ k ∈ Finset.range 19, ex ^ k * Real.sqrt ex := by positivity
  rw [sg0_sum F hF ex p25 q ap h0 h1]
  constructor
  · exact div_nonneg (Finset.sum_nonneg fun k _ => mul_nonneg (by positivity) (hg k).1) hD.le
  · rw [div_le_iff₀ hD]
    calc ∑ k ∈ Finset.range 20, ex ^ k * g0 F (history ap k) p25 q
        ≤ ∑ k ∈ Finset.range 20, ex ^ k * (max 1 p25 * (A - 4)) :=
          Finset.sum_le_sum fun k _ => mul_le_mul_of_nonneg_left (hg k).2 (by positivity)
      _ = (∑ k ∈ Finset.range 20, ex ^ k) * (max 1 p25 * (A - 4)) := by rw [Finset.sum_mul]
      _ ≤ _ := by
        rw [mul_comm]
        exact mul_le_mul_of_nonneg_left (weights_le ex h0 h1).le hB

/-- **C123 (counterexample)**  The weighted history is not a mean: for a history that is constantly above quiet conditions the
result is below the response to that constant. -/
theorem constant_history_counterexample (F : Fns ℝ) (hF : RealFns F) (ex p25 q c : ℝ) (h0 : 0 < ex) (h1 : ex < 1)
    (hp : 0 < p25) (hq : q ≠ 0) (hc : 4 < c) : sg0 F ex p25 q (fun _ => c) < g0 F c p25 q := by
  have hh : ∀ k, history (fun _ => c) k = c := by
    intro k; unfold history; split
    · rfl
    · split <;> rfl
  have hg : 0 < g0 F c p25 q := by
    refine lt_of_lt_of_le ?_ (g0_bounds F hF c p25 q hc.le hq).1
    exact mul_pos (lt_min one_pos hp) (by linarith)
  have hD : 0 < 1 + ∑ k ∈ Finset.range 19, ex ^ k * Real.sqrt ex := by positivity
  rw [sg0_sum F hF ex p25 q _ h0 h1, div_lt_iff₀ hD]
  simp only [hh]
  rw [← Finset.sum_mul, mul_comm]
  exact mul_lt_mul_of_pos_left (weights_le ex h0 h1) hg

theorem exp1Of_range (F : Fns ℝ) (hF : RealFns F) (p : ℕ → ℝ) (x : In ℝ) : 0 < exp1Of F p x ∧ exp1Of F p x < 1 := by
  unfold exp1Of
  rw [hF.exp]
  dsimp only
  split
  · norm_num
  · rename_i h
    exact ⟨Real.exp_pos _, lt_of_le_of_lt (not_lt.1 h) (by norm_num)⟩

theorem clamp24_ge (q : ℝ) : 1e-4 ≤ clamp24 q := by
  unfold clamp24
  split
  · exact le_rfl
  · exact not_lt.1 ‹_›

/-- **C123** With the array of indexes in use, each evaluation of the harmonics stores a magnetic index that is not negative
and not above the largest response, whatever the state, for histories between 4 and `A`; the parameter by which the response
is divided is kept at or above a ten-thousandth. -/
theorem magnetic_index_bounds (F : Fns ℝ) (hF : RealFns F) (T : Tab ℝ) (x : In ℝ) (a : Arr) (s : St ℝ) (A : ℝ)
    (h8 : x.sw 8 < 0) (h51 : |T.p a 51| > nearzero) (hp : 0 ≤ T.p a 25)
    (hA : ∀ i, 1 ≤ i → i ≤ 6 → 4 ≤ x.aparr i ∧ x.aparr i ≤ A) :
    0 ≤ (apStep F T x a s).2.apt0 ∧ (apStep F T x a s).2.apt0 ≤ max 1 (T.p a 25) * (A - 4) ∧
      1e-4 ≤ (apStep F T x a s).2.p24 a ∧ (s.p24 a < 1e-4 ∨ (apStep F T x a s).2.p24 a = s.p24 a) := by
  have h9 : ¬ |sw9 x + 1| > nearzero := fun h => (sw9_test x).mp h h8
  have e : (apStep F T x a s).2 = { s with
      p24 := fun b => if b = a then clamp24 (s.p24 a) else s.p24 b
      apt0 := sg0 F (exp1Of F (T.p a) x) (T.p a 25) (clamp24 (s.p24 a)) x.aparr } := by
    unfold apStep upd
    dsimp only
    rw [if_neg h9, if_pos h51]
  have hc := clamp24_ge (s.p24 a)
  have hq : clamp24 (s.p24 a) ≠ 0 := by
    intro h; rw [h] at hc; norm_num at hc
  obtain ⟨e1, e2⟩ := exp1Of_range F hF (T.p a) x
  obtain ⟨b1, b2⟩ := sg0_bounds F hF _ _ _ A x.aparr e1 e2 hp hq hA
  rw [e]
  refine ⟨b1, b2, ?_, ?_⟩
  · show (1e-4 : ℝ) ≤ if a = a then _ else _
    rw [if_pos rfl]; exact hc
  · by_cases h : s.p24 a < 1e-4
    · exact Or.inl h
    · refine Or.inr ?_
      show (if a = a then _ else _) = _
      rw [if_pos rfl]
      exact if_neg h

/-- **C123** The same for the daily index of at least four. -/
theorem daily_index_bounds (F : Fns ℝ) (hF : RealFns F) (p : ℕ → ℝ) (x : In ℝ) (hp : p 43 ≠ 0) (hx : 4 ≤ x.ap) :
    min 1 (p 44) * (x.ap - 4) ≤ apdfOf F p x ∧ apdfOf F p x ≤ max 1 (p 44) * (x.ap - 4) := by
  have hq : 0 < (if p 43 < 0 then 1e-5 else p 43) := by
    split
    · norm_num
    · rename_i h
      exact lt_of_le_of_ne (not_lt.1 h) (Ne.symm hp)
  have := g0_bounds F hF x.ap (p 44) _ hx hq.ne'
  unfold g0 at this
  rw [abs_of_pos hq] at this
  exact this

/-- The tables meet the conditions on the parameters of the responses. -/
theorem response_tables : ∀ a ∈ [Arr.pt, .ps, .pd 0, .pd 1, .pd 2, .pd 3, .pd 4, .pd 5, .pd 6, .pd 7, .pd 8],
    0 < tabR.p a 25 ∧ 0 < tabR.p a 44 ∧ tabR.p a 43 ≠ 0 := by
  have q : ∀ a ∈ [Arr.pt, .ps, .pd 0, .pd 1, .pd 2, .pd 3, .pd 4, .pd 5, .pd 6, .pd 7, .pd 8],
      0 < tabQ.p a 25 ∧ 0 < tabQ.p a 44 ∧ tabQ.p a 43 ≠ 0 := by decide +kernel
  intro a ha
  obtain ⟨h1, h2, h3⟩ := q a ha
  exact ⟨by simp only [tabR]; exact_mod_cast h1, by simp only [tabR]; exact_mod_cast h2,
    by simp only [tabR]; exact_mod_cast h3⟩

/-- **C123** At the reference flux the factors by which daily variations are scaled are one. -/
theorem flux_factors (p : ℕ → ℝ) (x : In ℝ) (h : x.f107 = 150) (hA : x.f107A = 150) :
    gF1 p x (x.f107A - 150) = 1 ∧ gF2 p x (x.f107A - 150) = 1 := by
  unfold gF1 gF2
  rw [h, hA]
  norm_num

/-! ### Instances -/

theorem realFns_real : RealFnsLog realFns := ⟨⟨rfl, rfl⟩, rfl⟩

/-- Helium below 200 km. -/
example : Transition (fun z => ccor realFns z (-1) (tabR.pdm 0 5 * tabR.pdl 1 1) 90) (-1) 90 :=
  ccor_transition _ realFns_real.toRealFns _ _ _ (scale_lengths.1 _ (by simp))

/-- Oxygen. -/
example : Transition (fun z => ccor2 realFns z 1 (tabR.pdm 1 5 * tabR.pdl 1 3) 110 (tabR.pdm 1 5 * tabR.pdl 1 4)) 1 110 :=
  ccor2_transition _ realFns_real.toRealFns _ _ _ _ (scale_lengths.1 _ (by simp)) (scale_lengths.1 _ (by simp))

/-- A diffusive density of 3 and a mixed one of 4 with exponent 2 combine to 5. -/
example : ∃ d, dnet realFns 3 4 2 29 28 = powerSum (2 / (29 - 28)) 3 4 * Real.exp d ∧
    |d| ≤ Real.exp (-10) / |(2 : ℝ) / (29 - 28)| ∧ (|(2 : ℝ) / (29 - 28) * Real.log (4 / 3)| ≤ 10 → d = 0) :=
  dnet_powerSum _ realFns_real 3 4 2 29 28 (by norm_num) (by norm_num) (by norm_num)

example : powerSum 2 3 4 = 5 := by
  unfold powerSum
  rw [Real.rpow_two, Real.rpow_two, show (3 : ℝ) ^ 2 + 4 ^ 2 = 5 ^ 2 by norm_num, ← Real.sqrt_eq_rpow]
  exact Real.sqrt_sq (by norm_num)

/-- A disturbed history. -/
example : 0 ≤ sg0 realFns (1 / 2) (tabR.p .pt 25) 1 (fun i => 10 * i) ∧
    sg0 realFns (1 / 2) (tabR.p .pt 25) 1 (fun i => 10 * i) ≤ max 1 (tabR.p .pt 25) * (60 - 4) :=
  sg0_bounds _ realFns_real.toRealFns _ _ _ 60 _ (by norm_num) (by norm_num) (response_tables _ (by simp)).1.le one_ne_zero
    (by
      intro i h1 h6
      have a : (1 : ℝ) ≤ i := by exact_mod_cast h1
      have b : (i : ℝ) ≤ 6 := by exact_mod_cast h6
      constructor <;> linarith)

/-- A constant history of 20. -/
example : sg0 realFns (1 / 2) (tabR.p .pt 25) 1 (fun _ => 20) < g0 realFns 20 (tabR.p .pt 25) 1 :=
  constant_history_counterexample _ realFns_real.toRealFns _ _ _ _ (by norm_num) (by norm_num)
    (response_tables _ (by simp)).1 one_ne_zero (by norm_num)

end Verif.Atmosphere.Msis
