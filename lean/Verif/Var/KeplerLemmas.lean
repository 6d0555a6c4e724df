import Verif.Var.KeplerModel
import Verif.Orbit.ClassicProps
import Mathlib.Analysis.SpecialFunctions.Complex.Arctan

/-
Lemmas for the four conversions: quantities of a state on an ellipse, eccentric anomaly, inverse functions.
-/
namespace Verif.Var.Kepler

open Verif.Astro Verif.Orbit Real

/-- An inclined ellipse that is not a circle, with angles in the ranges of `atan2`, away from the apogee. -/
structure Valid (k : Classic) : Prop where
  h : 0 < k.h
  e0 : 0 < k.e
  e1 : k.e < 1
  i0 : 0 < k.i
  i1 : k.i < π
  O0 : -π < k.Omega
  O1 : k.Omega ≤ π
  f0 : -π < k.theta
  f1 : k.theta < π

/-- `E` is the eccentric anomaly for the true anomaly `f`. -/
structure IsEcc (e f E : ℝ) : Prop where
  lo : -π < E
  hi : E < π
  cos : cos E * (1 + e * cos f) = e + cos f
  sin : sin E * (1 + e * Real.cos f) = √(1 - e * e) * sin f

theorem rad_pos' {e f : ℝ} (h0 : 0 < e) (h1 : e < 1) : 0 < 1 + e * cos f := by
  nlinarith [neg_one_le_cos f]

/-- The distance. -/
noncomputable def rho (k : Classic) (m : ℝ) : ℝ := k.h ^ 2 / m / (1 + k.e * cos k.theta)

/-- The semi-major axis. -/
noncomputable def axis (k : Classic) (m : ℝ) : ℝ := k.h ^ 2 / m / (1 - k.e * k.e)

structure Facts (k : Classic) (m : ℝ) (x v : V3) : Prop where
  r : √(x.dot x) = rho k m
  hx : (x.cross v).x = k.h * sin k.i * sin k.Omega
  hy : (x.cross v).y = -(k.h * sin k.i * cos k.Omega)
  hz : (x.cross v).z = k.h * cos k.i
  rv : x.dot v = rho k m * (m / k.h) * (k.e * sin k.theta)
  vv : v.dot v = (m / k.h) ^ 2 * (1 + 2 * k.e * cos k.theta + k.e ^ 2)
  along : cos k.Omega * x.x + sin k.Omega * x.y = rho k m * cos (k.omega + k.theta)
  across : -cos k.i * sin k.Omega * x.x + cos k.i * cos k.Omega * x.y + sin k.i * x.z = rho k m * sin (k.omega + k.theta)
  z : x.z = rho k m * sin k.i * sin (k.omega + k.theta)

theorem rho_pos {k : Classic} {m : ℝ} (hk : Valid k) (hm : 0 < m) : 0 < rho k m := by
  have := rad_pos' (f := k.theta) hk.e0 hk.e1
  have := hk.h
  unfold rho
  positivity

theorem facts {k : Classic} {m : ℝ} (hk : Valid k) (hm : 0 < m) : Facts k m (k.position m) (k.velocity m) := by
  have hrho := rho_pos hk hm
  have hh := hk.h
  have hw := rad_pos' (f := k.theta) hk.e0 hk.e1
  have hO := sin_sq_add_cos_sq k.Omega
  have hi := sin_sq_add_cos_sq k.i
  have hu := sin_sq_add_cos_sq (k.omega + k.theta)
  have hom := sin_sq_add_cos_sq k.omega
  have hpos : k.position m = (((node k.Omega).smul (cos (k.omega + k.theta))).add
      ((quarter k.Omega k.i).smul (sin (k.omega + k.theta)))).smul (rho k m) := rfl
  have hf1 : cos k.theta = cos (k.omega + k.theta) * cos k.omega + sin (k.omega + k.theta) * sin k.omega := by
    rw [← cos_sub]; congr 1; ring
  have hf2 : sin k.theta = sin (k.omega + k.theta) * cos k.omega - cos (k.omega + k.theta) * sin k.omega := by
    rw [← sin_sub]; congr 1; ring
  have hrm : rho k m * (m / k.h) * (1 + k.e * cos k.theta) = k.h := by
    unfold rho
    field_simp
  have hxx : (k.position m).dot (k.position m) = rho k m ^ 2 := by
    rw [hpos]
    simp only [V3.smul, V3.add, V3.dot, node, quarter]
    generalize sin (k.omega + k.theta) = su at *
    generalize cos (k.omega + k.theta) = cu at *
    linear_combination (rho k m ^ 2 * (cu ^ 2 + su ^ 2 * cos k.i ^ 2)) * hO + rho k m ^ 2 * su ^ 2 * hi + rho k m ^ 2 * hu
  refine ⟨?_, ?_, ?_, ?_, ?_, ?_, ?_, ?_, ?_⟩
  · rw [hxx, Real.sqrt_sq hrho.le]
  all_goals
    simp only [hpos, Classic.velocity, V3.smul, V3.add, V3.dot, V3.cross, node, quarter]
    generalize sin (k.omega + k.theta) = su at *
    generalize cos (k.omega + k.theta) = cu at *
  · rw [hf1] at hrm
    linear_combination (sin k.i * sin k.Omega) * hrm + rho k m * (m / k.h) * sin k.i * sin k.Omega * hu
  · rw [hf1] at hrm
    linear_combination -(sin k.i * cos k.Omega) * hrm - rho k m * (m / k.h) * sin k.i * cos k.Omega * hu
  · rw [hf1] at hrm
    linear_combination cos k.i * hrm + rho k m * (m / k.h) * cos k.i * hu +
      rho k m * (m / k.h) * cos k.i * (cu * (cu + k.e * cos k.omega) + su * (su + k.e * sin k.omega)) * hO
  · rw [hf2]
    linear_combination rho k m * (m / k.h) * ((-(cu * (su + k.e * sin k.omega))) + su * (cu + k.e * cos k.omega) * cos k.i ^ 2) * hO +
      rho k m * (m / k.h) * su * (cu + k.e * cos k.omega) * hi
  · rw [hf1]
    linear_combination (m / k.h) ^ 2 * ((su + k.e * sin k.omega) ^ 2 + (cu + k.e * cos k.omega) ^ 2 * cos k.i ^ 2) * hO +
      (m / k.h) ^ 2 * (cu + k.e * cos k.omega) ^ 2 * hi + (m / k.h) ^ 2 * hu + (m / k.h) ^ 2 * k.e ^ 2 * hom
  · linear_combination rho k m * cu * hO
  · linear_combination rho k m * su * cos k.i ^ 2 * hO + rho k m * su * hi
  · ring

/-! ### Inverse functions -/

/-- The two-argument function to the right of the axis. -/
theorem atan2_right {y x : ℝ} (hx : 0 < x) : atan2 y x = arctan (y / x) := by
  have hc := cos_arctan_pos (y / x)
  have h := atan2_polar_eq (x / cos (arctan (y / x))) (arctan (y / x)) (by positivity)
    (by linarith [neg_pi_div_two_lt_arctan (y / x), pi_pos]) (by linarith [arctan_lt_pi_div_two (y / x), pi_pos])
  have e1 : x / cos (arctan (y / x)) * cos (arctan (y / x)) = x := by field_simp
  have e2 : x / cos (arctan (y / x)) * sin (arctan (y / x)) = y := by
    have : sin (arctan (y / x)) = y / x * cos (arctan (y / x)) := by
      rw [← tan_mul_cos hc.ne', tan_arctan]
    rw [this]
    field_simp
  rw [e1, e2] at h
  exact h

/-- Every angle is, up to half turns, the arc tangent of its tangent. -/
theorem arctan_tan_mod (t : ℝ) (hc : cos t ≠ 0) : ∃ k : ℤ, arctan (tan t) = t + k * π ∧ (0 < cos t ↔ Even k) := by
  have hd : tan (arctan (tan t)) = tan t := tan_arctan _
  have hc' := cos_arctan_pos (tan t)
  have hs : sin (arctan (tan t) - t) = 0 := by
    rw [sin_sub]
    generalize arctan (tan t) = w at *
    rw [tan_eq_sin_div_cos, tan_eq_sin_div_cos, div_eq_div_iff hc'.ne' hc] at hd
    linarith
  obtain ⟨k, hk⟩ := sin_eq_zero_iff.mp hs
  refine ⟨k, by linarith, ?_⟩
  have hcos : cos (arctan (tan t)) = (-1) ^ k * cos t := by
    rw [show arctan (tan t) = t + k * π by linarith]
    rw [cos_add_int_mul_pi]
  rw [hcos] at hc'
  rcases Int.even_or_odd k with h | h
  · rw [h.neg_one_zpow, one_mul] at hc'
    exact ⟨fun _ => h, fun _ => hc'⟩
  · rw [h.neg_one_zpow] at hc'
    exact ⟨fun hp => by linarith, fun he => absurd h (Int.not_odd_iff_even.mpr he)⟩

/-! ### The eccentric anomaly -/

theorem half_anomaly {e f : ℝ} (h0 : 0 < e) (h1 : e < 1) (f0 : -π < f) (f1 : f < π) :
    IsEcc e f (2 * arctan (√((1 - e) / (1 + e)) * (sin (f / 2) / cos (f / 2)))) := by
  have hc : 0 < cos (f / 2) := cos_pos_of_mem_Ioo ⟨by linarith, by linarith⟩
  have hs2 : √((1 - e) / (1 + e)) ^ 2 = (1 - e) / (1 + e) := Real.sq_sqrt (div_nonneg (by linarith) (by linarith))
  have hs1 : √((1 - e) / (1 + e)) * (1 + e) = √(1 - e * e) := by
    have hp : (0 : ℝ) ≤ √((1 - e) / (1 + e)) * (1 + e) := mul_nonneg (Real.sqrt_nonneg _) (by linarith)
    rw [eq_comm, Real.sqrt_eq_iff_mul_self_eq (by nlinarith) hp,
      show √((1 - e) / (1 + e)) * (1 + e) * (√((1 - e) / (1 + e)) * (1 + e)) = √((1 - e) / (1 + e)) ^ 2 * (1 + e) ^ 2 by ring, hs2]
    have : (1 + e) ≠ 0 := by linarith
    field_simp
    ring
  have hw := rad_pos' (f := f) h0 h1
  have hcf : cos f = 2 * cos (f / 2) ^ 2 - 1 := by rw [← cos_two_mul]; congr 1; ring
  have hsf : sin f = 2 * sin (f / 2) * cos (f / 2) := by rw [← sin_two_mul]; congr 1; ring
  have hp := sin_sq_add_cos_sq (f / 2)
  generalize ht : √((1 - e) / (1 + e)) * (sin (f / 2) / cos (f / 2)) = t
  have ha1 := arctan_lt_pi_div_two t
  have ha2 := neg_pi_div_two_lt_arctan t
  have hct := cos_arctan_pos t
  have hst : sin (arctan t) = t * cos (arctan t) := by rw [← tan_mul_cos hct.ne', tan_arctan]
  have hcc : cos (arctan t) ^ 2 = 1 / (1 + t ^ 2) := cos_sq_arctan t
  have ht2 : t ^ 2 = (1 - e) / (1 + e) * (sin (f / 2) ^ 2 / cos (f / 2) ^ 2) := by
    rw [← ht, mul_pow, div_pow, hs2]
  have hden : 1 + t ^ 2 = (1 + e * cos f) / ((1 + e) * cos (f / 2) ^ 2) := by
    have : (1 + e) ≠ 0 := by linarith
    rw [ht2, hcf]
    field_simp
    linear_combination (1 - e) * hp
  refine ⟨by linarith, by linarith, ?_, ?_⟩
  · rw [cos_two_mul, hcc, hden]
    have : (1 + e) ≠ 0 := by linarith
    rw [one_div_div]
    field_simp
    rw [hcf]
    ring
  · rw [sin_two_mul, hst, show 2 * (t * cos (arctan t)) * cos (arctan t) = 2 * t * cos (arctan t) ^ 2 by ring, hcc, hden,
      one_div_div, ← ht, hsf, ← hs1]
    field_simp

theorem ecc_unique {e f E E' : ℝ} (h0 : 0 < e) (h1 : e < 1) (h : IsEcc e f E) (h' : IsEcc e f E') : E = E' := by
  have hw := rad_pos' (f := f) h0 h1
  have hc : cos E = cos E' := mul_right_cancel₀ hw.ne' (h.cos.trans h'.cos.symm)
  have hs : sin E = sin E' := mul_right_cancel₀ hw.ne' (h.sin.trans h'.sin.symm)
  have a := atan2_polar_eq 1 E one_pos h.lo h.hi.le
  have b := atan2_polar_eq 1 E' one_pos h'.lo h'.hi.le
  rw [hc, hs] at a
  exact a.symm.trans b

/-- Kepler's function is strictly increasing. -/
theorem kepler_strict {e : ℝ} (h0 : 0 < e) (h1 : e < 1) {E E' : ℝ} (h : E < E') : E - e * sin E < E' - e * sin E' := by
  have h2 : |sin E' - sin E| ≤ |E' - E| := by
    have := Real.abs_sin_sub_sin_le E' E
    exact this
  have h3 : |E' - E| = E' - E := abs_of_pos (by linarith)
  have h4 := le_abs_self (sin E' - sin E)
  nlinarith

end Verif.Var.Kepler
