import Mathlib.Analysis.SpecialFunctions.Trigonometric.InverseDeriv
import Mathlib.Analysis.SpecialFunctions.Sqrt
import Mathlib.MeasureTheory.Measure.Lebesgue.Integral
import Mathlib.MeasureTheory.Integral.IntervalIntegral.FundThmCalculus
import Mathlib.Tactic.FieldSimp
import Mathlib.Tactic.Ring
import Mathlib.Tactic.Linarith

/-!
The area common to two discs of the plane, by integration.
-/
namespace Verif.Forces

open Real MeasureTheory Set

/-- The open disc of radius `r` about the point `c` of the first axis. -/
def disc (c r : ℝ) : Set (ℝ × ℝ) := {p | (p.1 - c) ^ 2 + p.2 ^ 2 < r ^ 2}

/-- The area of a set of the plane. -/
noncomputable def area (s : Set (ℝ × ℝ)) : ℝ := (volume s).toReal

/-- Half the chord of a disc of radius `r` about the origin. -/
noncomputable def chord (r x : ℝ) : ℝ := √(r ^ 2 - x ^ 2)

theorem chord_continuous (r : ℝ) : Continuous (chord r) := by
  unfold chord
  fun_prop

/-- The part of a disc beyond `c`. -/
theorem segment_integral (r a : ℝ) (hr : 0 < r) (h0 : 0 ≤ a) (h1 : a ≤ π) :
    ∫ x in (r * cos a)..r, 2 * chord r x = r ^ 2 * (a - sin a * cos a) := by
  have hc1 : r * cos a ≤ r := by nlinarith [cos_le_one a]
  have hcm : -r ≤ r * cos a := by nlinarith [neg_one_le_cos a]
  have key := intervalIntegral.integral_eq_sub_of_hasDerivAt_of_le
    (f := fun x => x * chord r x - r ^ 2 * arccos (x / r)) (f' := fun x => 2 * chord r x) hc1
    (by
      apply Continuous.continuousOn
      have := chord_continuous r
      have h2 : Continuous fun x : ℝ => arccos (x / r) := continuous_arccos.comp (by fun_prop)
      exact (continuous_id.mul this).sub (continuous_const.mul h2))
    (by
      intro x hx
      have hxr : x < r := hx.2
      have hxm : -r < x := lt_of_le_of_lt hcm hx.1
      have hp : 0 < r ^ 2 - x ^ 2 := by nlinarith
      have hs : HasDerivAt (chord r) (-x / chord r x) x := by
        unfold chord
        have h := ((hasDerivAt_const x (r ^ 2)).sub (hasDerivAt_pow 2 x)).sqrt hp.ne'
        refine h.congr_deriv ?_
        simp
        field_simp
      have hd := hasDerivAt_arccos (x := x / r)
        (by
          intro h
          rw [div_eq_iff hr.ne'] at h
          linarith)
        (by
          intro h
          rw [div_eq_iff hr.ne'] at h
          linarith)
      have hq : √(1 - (x / r) ^ 2) = chord r x / r := by
        unfold chord
        rw [show 1 - (x / r) ^ 2 = (r ^ 2 - x ^ 2) / r ^ 2 by field_simp, sqrt_div hp.le, sqrt_sq hr.le]
      rw [hq] at hd
      have hcomp := hd.comp x ((hasDerivAt_id x).div_const r)
      have hpos : 0 < chord r x := sqrt_pos.2 hp
      have hsq : chord r x * chord r x = r ^ 2 - x ^ 2 := mul_self_sqrt hp.le
      have hfin := ((hasDerivAt_id x).mul hs).sub (hcomp.const_mul (r ^ 2))
      refine hfin.congr_deriv ?_
      simp only [id]
      generalize chord r x = q at hpos hsq
      field_simp
      nlinarith)
    ((continuous_const.mul (chord_continuous r)).intervalIntegrable _ _)
  rw [key]
  have hcr : chord r r = 0 := by
    unfold chord
    rw [sub_self, sqrt_zero]
  have hca : chord r (r * cos a) = r * sin a := by
    unfold chord
    have hs := sin_nonneg_of_nonneg_of_le_pi h0 h1
    rw [show r ^ 2 - (r * cos a) ^ 2 = (r * sin a) ^ 2 by linear_combination (-r ^ 2) * sin_sq_add_cos_sq a,
      sqrt_sq (mul_nonneg hr.le hs)]
  rw [hcr, hca, div_self hr.ne', arccos_one, mul_div_cancel_left₀ _ hr.ne', arccos_cos h0 h1]
  ring

theorem disc_measurable (c r : ℝ) : MeasurableSet (disc c r) := by
  apply measurableSet_lt <;> fun_prop

/-- Half the chord common to two discs. -/
noncomputable def common (s d t x : ℝ) : ℝ := min (chord s x) (chord t (d - x))

theorem common_continuous (s d t : ℝ) : Continuous (common s d t) := by
  unfold common
  exact (chord_continuous s).min ((chord_continuous t).comp (by fun_prop))

theorem sq_lt_iff (y q : ℝ) : y ^ 2 < q ↔ -√q < y ∧ y < √q := by
  rw [← abs_lt, ← sq_abs, lt_sqrt (abs_nonneg y)]

theorem mem_both (s d t : ℝ) (p : ℝ × ℝ) :
    p ∈ disc 0 s ∩ disc d t ↔ -common s d t p.1 < p.2 ∧ p.2 < common s d t p.1 := by
  unfold disc common chord
  simp only [mem_inter_iff, mem_ofPred_eq]
  rw [show (p.1 - 0) ^ 2 + p.2 ^ 2 < s ^ 2 ↔ p.2 ^ 2 < s ^ 2 - p.1 ^ 2 by constructor <;> intro h <;> linarith,
    show (p.1 - d) ^ 2 + p.2 ^ 2 < t ^ 2 ↔ p.2 ^ 2 < t ^ 2 - (d - p.1) ^ 2 by
      constructor <;> intro h <;> linarith [show (p.1 - d) ^ 2 = (d - p.1) ^ 2 by ring], sq_lt_iff, sq_lt_iff, lt_min_iff]
  constructor
  · rintro ⟨⟨h1, h2⟩, h3, h4⟩
    refine ⟨?_, h2, h4⟩
    rcases min_cases √(s ^ 2 - p.1 ^ 2) √(t ^ 2 - (d - p.1) ^ 2) with h | h <;> rw [h.1] <;> assumption
  · rintro ⟨h1, h2, h3⟩
    have a := min_le_left √(s ^ 2 - p.1 ^ 2) √(t ^ 2 - (d - p.1) ^ 2)
    have b := min_le_right √(s ^ 2 - p.1 ^ 2) √(t ^ 2 - (d - p.1) ^ 2)
    exact ⟨⟨by linarith, h2⟩, by linarith, h3⟩

theorem common_nonneg (s d t x : ℝ) : 0 ≤ common s d t x := le_min (sqrt_nonneg _) (sqrt_nonneg _)

/-- The common area as an integral. -/
theorem area_both (s d t : ℝ) (hs : 0 < s) :
    area (disc 0 s ∩ disc d t) = ∫ x in (-s)..s, 2 * common s d t x := by
  have he : disc 0 s ∩ disc d t = regionBetween (-common s d t) (common s d t) (Ioc (-s) s) := by
    ext p
    rw [mem_both]
    unfold regionBetween
    simp only [mem_ofPred_eq, mem_Ioo, mem_Ioc, Pi.neg_apply]
    constructor
    · intro h
      refine ⟨?_, h⟩
      have h1 := (mem_both s d t p).2 h
      have h2 : (p.1 - 0) ^ 2 + p.2 ^ 2 < s ^ 2 := h1.1
      constructor <;> nlinarith [sq_nonneg p.2]
    · exact fun h => h.2
  have hc := common_continuous s d t
  unfold area
  rw [he, Measure.volume_eq_prod, volume_regionBetween_eq_integral
    ((hc.neg.integrableOn_Icc (a := -s) (b := s)).mono_set Ioc_subset_Icc_self)
    ((hc.integrableOn_Icc (a := -s) (b := s)).mono_set Ioc_subset_Icc_self) measurableSet_Ioc
    (fun x _ => by simp only [Pi.neg_apply]; linarith [common_nonneg s d t x]), ENNReal.toReal_ofReal, intervalIntegral.integral_of_le (by linarith)]
  · congr 1
    ext x
    simp only [Pi.sub_apply, Pi.neg_apply]
    ring
  · apply setIntegral_nonneg measurableSet_Ioc
    intro x _
    simp only [Pi.sub_apply, Pi.neg_apply]
    linarith [common_nonneg s d t x]

/-- The area of a disc. -/
theorem area_disc (s : ℝ) (hs : 0 < s) : area (disc 0 s) = π * s ^ 2 := by
  have h := area_both s 0 s hs
  rw [inter_self] at h
  rw [h]
  have : ∀ x, common s 0 s x = chord s x := by
    intro x
    unfold common chord
    rw [zero_sub, neg_sq, min_self]
  simp only [this]
  have hi := segment_integral s π hs pi_pos.le le_rfl
  rw [cos_pi, mul_neg_one, sin_pi] at hi
  rw [hi]
  ring

theorem area_finite (s : ℝ) (hs : 0 < s) : volume (disc 0 s) ≠ ⊤ := by
  intro h
  have := area_disc s hs
  unfold area at this
  rw [h, ENNReal.toReal_top] at this
  have hp : 0 < π * s ^ 2 := by positivity
  linarith

/-- Two discs that intersect without containing each other. -/
theorem area_lens (s d t a b : ℝ) (hs : 0 < s) (ht : 0 < t) (h2 : s < d + t) (h3 : t < d + s)
    (ha0 : 0 ≤ a) (ha1 : a ≤ π) (hb0 : 0 ≤ b) (hb1 : b ≤ π)
    (ha : 2 * s * d * cos a = s ^ 2 + d ^ 2 - t ^ 2) (hb : 2 * t * d * cos b = t ^ 2 + d ^ 2 - s ^ 2) :
    area (disc 0 s ∩ disc d t) = s ^ 2 * (a - sin a * cos a) + t ^ 2 * (b - sin b * cos b) := by
  have hd : 0 < d := by linarith
  have hsum : s * cos a + t * cos b = d := by
    have : 2 * d * (s * cos a + t * cos b) = 2 * d * d := by linarith
    exact mul_left_cancel₀ (by positivity) this
  have hac : s * cos a ≤ s := by nlinarith [cos_le_one a]
  have hbc : t * cos b ≤ t := by nlinarith [cos_le_one b]
  have hc := common_continuous s d t
  have hint : ∀ x y : ℝ, IntervalIntegrable (fun x => 2 * common s d t x) volume x y :=
    fun x y => (continuous_const.mul hc).intervalIntegrable _ _
  rw [area_both s d t hs, ← intervalIntegral.integral_add_adjacent_intervals (hint (-s) (d - t)) (hint (d - t) s),
    ← intervalIntegral.integral_add_adjacent_intervals (hint (d - t) (s * cos a)) (hint (s * cos a) s)]
  have e1 : ∫ x in (-s)..(d - t), 2 * common s d t x = 0 := by
    rw [intervalIntegral.integral_congr (g := fun _ => 0)]
    · simp
    · intro x hx
      rw [uIcc_of_le (by linarith)] at hx
      have h0 : chord t (d - x) = 0 := sqrt_eq_zero_of_nonpos (by nlinarith [hx.2])
      simp only
      unfold common
      rw [h0, min_eq_right (show (0 : ℝ) ≤ chord s x from sqrt_nonneg _), mul_zero]
  have e2 : ∫ x in (d - t)..(s * cos a), 2 * common s d t x = t ^ 2 * (b - sin b * cos b) := by
    rw [← segment_integral t b ht hb0 hb1]
    have := intervalIntegral.integral_comp_sub_left (a := d - t) (b := s * cos a) (fun x => 2 * chord t x) d
    rw [show d - s * cos a = t * cos b by linarith, sub_sub_cancel] at this
    rw [← this]
    apply intervalIntegral.integral_congr
    intro x hx
    rw [uIcc_of_le (by linarith)] at hx
    simp only
    unfold common
    rw [min_eq_right]
    apply sqrt_le_sqrt
    have := hx.2
    nlinarith
  have e3 : ∫ x in (s * cos a)..s, 2 * common s d t x = s ^ 2 * (a - sin a * cos a) := by
    rw [← segment_integral s a hs ha0 ha1]
    apply intervalIntegral.integral_congr
    intro x hx
    rw [uIcc_of_le hac] at hx
    simp only
    unfold common
    rw [min_eq_left]
    apply sqrt_le_sqrt
    have := hx.1
    nlinarith
  rw [e1, e2, e3]
  ring

/-- Discs apart. -/
theorem area_apart (s d t : ℝ) (hs : 0 < s) (ht : 0 < t) (h : s + t ≤ d) : area (disc 0 s ∩ disc d t) = 0 := by
  have : disc 0 s ∩ disc d t = ∅ := by
    ext p
    simp only [mem_inter_iff, mem_empty_iff_false, iff_false, not_and]
    intro h1 h2
    have h1 : (p.1 - 0) ^ 2 + p.2 ^ 2 < s ^ 2 := h1
    have h2 : (p.1 - d) ^ 2 + p.2 ^ 2 < t ^ 2 := h2
    have a : p.1 < s := by nlinarith [sq_nonneg p.2]
    have b : d - p.1 < t := by nlinarith [sq_nonneg p.2]
    linarith
  rw [this]
  simp [area]

/-- The first disc inside the second. -/
theorem area_inside (s d t : ℝ) (hs : 0 < s) (hd : 0 ≤ d) (h : d ≤ t - s) :
    area (disc 0 s ∩ disc d t) = area (disc 0 s) := by
  have : disc 0 s ∩ disc d t = disc 0 s := by
    apply inter_eq_left.2
    intro p h1
    have h1 : (p.1 - 0) ^ 2 + p.2 ^ 2 < s ^ 2 := h1
    show (p.1 - d) ^ 2 + p.2 ^ 2 < t ^ 2
    have a : -s < p.1 := by nlinarith [sq_nonneg p.2]
    nlinarith
  rw [this]

end Verif.Forces
