import Verif.Astro.Kepler
import Mathlib.Analysis.SpecialFunctions.Trigonometric.Deriv
import Mathlib.Analysis.Calculus.DSlope
import Mathlib.Analysis.Calculus.Deriv.Slope
import Mathlib.Analysis.Calculus.Deriv.Add
import Mathlib.Analysis.Calculus.Deriv.Mul

/-
The solution of Kepler's equation is differentiable along every differentiable curve of
eccentricities and mean anomalies, with the derivative of the implicit function theorem.
-/
namespace Verif.Orbit

open Real Verif.Astro Filter Topology

/-- A function that vanishes at a point, times a continuous one. -/
theorem hasDerivAt_mul_of_zero {f g : ℝ → ℝ} {s f' : ℝ} (hf : HasDerivAt f f' s) (h0 : f s = 0)
    (hg : ContinuousAt g s) : HasDerivAt (fun t => f t * g t) (f' * g s) s := by
  rw [hasDerivAt_iff_tendsto_slope] at *
  have h := hf.mul (hg.tendsto.mono_left (nhdsWithin_le_nhds (s := {s}ᶜ)))
  refine h.congr fun t => ?_
  simp only [slope, h0, zero_mul, vsub_eq_sub, sub_zero, smul_eq_mul]
  ring

theorem anomaly_continuous {e M E : ℝ → ℝ} {s : ℝ} (he : ContinuousAt e s) (hM : ContinuousAt M s)
    (h0 : 0 ≤ e s) (h1 : e s < 1) (hK : ∀ᶠ t in 𝓝 s, Solves (e t) (M t) (E t)) : ContinuousAt E s := by
  have hpos : 0 < 1 - e s := by linarith
  have hs : Solves (e s) (M s) (E s) := hK.self_of_nhds
  have hb : ∀ᶠ t in 𝓝 s, |E t - E s| ≤ (|M t - M s| + |e t - e s|) / (1 - e s) := by
    filter_upwards [hK] with t ht
    rw [le_div_iff₀ hpos, mul_comm]
    refine (kepler_slope (e s) (E t) (E s) h0).trans ?_
    unfold Solves at ht hs
    rw [show E t - e s * sin (E t) - (E s - e s * sin (E s)) = (M t - M s) + (e t - e s) * sin (E t) by
      rw [← ht, ← hs]; ring]
    refine (abs_add_le _ _).trans ?_
    rw [abs_mul]
    have := abs_sin_le_one (E t)
    have h2 := abs_nonneg (e t - e s)
    nlinarith
  have hz : Tendsto (fun t => (|M t - M s| + |e t - e s|) / (1 - e s)) (𝓝 s) (𝓝 0) := by
    have hc : ContinuousAt (fun t => (|M t - M s| + |e t - e s|) / (1 - e s)) s :=
      (((hM.sub continuousAt_const).abs).add ((he.sub continuousAt_const).abs)).div_const _
    have := hc.tendsto
    simpa using this
  have h3 : Tendsto (fun t => |E t - E s|) (𝓝 s) (𝓝 0) :=
    tendsto_of_tendsto_of_tendsto_of_le_of_le' tendsto_const_nhds hz
      (Eventually.of_forall fun t => abs_nonneg _) hb
  have h4 := (tendsto_zero_iff_abs_tendsto_zero _).2 h3
  have h5 := h4.add_const (E s)
  rw [zero_add] at h5
  exact h5.congr fun t => by ring

/-- **The derivative of the eccentric anomaly** along a curve. -/
theorem anomaly_deriv {e M E : ℝ → ℝ} {s e' M' : ℝ} (he : HasDerivAt e e' s) (hM : HasDerivAt M M' s)
    (h0 : 0 ≤ e s) (h1 : e s < 1) (hK : ∀ᶠ t in 𝓝 s, Solves (e t) (M t) (E t)) :
    HasDerivAt E ((M' + e' * sin (E s)) / (1 - e s * cos (E s))) s := by
  have hE := anomaly_continuous he.continuousAt hM.continuousAt h0 h1 hK
  have hpos : 0 < 1 - e s * cos (E s) := lt_of_lt_of_le (by linarith) (one_sub_ecos (e s) (E s) h0).1
  have hs : Solves (e s) (M s) (E s) := hK.self_of_nhds
  -- the left-hand side with the eccentricity held fixed
  let F : ℝ → ℝ := fun u => u - e s * sin u
  have hF : HasDerivAt F (1 - e s * cos (E s)) (E s) := by
    have := (hasDerivAt_id (E s)).sub ((hasDerivAt_sin (E s)).const_mul (e s))
    exact this
  have hq : ContinuousAt (dslope F (E s)) (E s) := continuousAt_dslope_same.2 hF.differentiableAt
  have hq0 : dslope F (E s) (E s) = 1 - e s * cos (E s) := by rw [dslope_same, hF.deriv]
  have hqE : ContinuousAt (fun t => dslope F (E s) (E t)) s :=
    ContinuousAt.comp (f := E) (g := dslope F (E s)) hq hE
  have hne : ∀ᶠ t in 𝓝 s, dslope F (E s) (E t) ≠ 0 := by
    apply hqE.eventually_ne
    rw [hq0]
    exact hpos.ne'
  -- the right-hand side
  have hsin : ContinuousAt (fun t => sin (E t)) s := continuous_sin.continuousAt.comp hE
  have hG : HasDerivAt (fun t => (M t - M s) + (e t - e s) * sin (E t)) (M' + e' * sin (E s)) s := by
    refine (hM.sub_const _).add ?_
    exact hasDerivAt_mul_of_zero (he.sub_const _) (by simp) hsin
  have hprod := hasDerivAt_mul_of_zero hG (by simp) (hqE.inv₀ (by rw [hq0]; exact hpos.ne'))
  simp only [Pi.inv_apply, hq0] at hprod
  have hfin := hprod.const_add (E s)
  refine (hfin.congr_of_eventuallyEq ?_)
  filter_upwards [hK, hne] with t ht hn
  have hd := sub_smul_dslope F (E s) (E t)
  rw [smul_eq_mul] at hd
  have hFF : F (E t) - F (E s) = (M t - M s) + (e t - e s) * sin (E t) := by
    unfold Solves at ht hs
    simp only [F]
    rw [← ht, ← hs]
    ring
  rw [hFF] at hd
  rw [← hd, mul_assoc, mul_inv_cancel₀ hn]
  ring

end Verif.Orbit
