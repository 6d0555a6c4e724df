import Mathlib.Analysis.SpecialFunctions.Trigonometric.Bounds
import Mathlib.Topology.Order.IntermediateValue
import Mathlib.Tactic.Linarith
import Mathlib.Tactic.FieldSimp

/-
C44: Kepler's equation (src/astrodynamics/kepler.cpp).  Real numbers stand for `double`.
-/
namespace Verif.Astro

open Real

/-! ### Model -/

/-- `max_it` (line 5). -/
def maxIt : Nat := 20

/-- `std::fmod`: the remainder of the division truncated towards zero. -/
noncomputable def fmod (x y : ℝ) : ℝ := x - y * (if 0 ≤ x / y then (⌊x / y⌋ : ℝ) else (⌈x / y⌉ : ℝ))

/-- `arg02pi` (lines 10-13). -/
noncomputable def arg02pi (a : ℝ) : ℝ :=
  fmod a (2 * π) + (if fmod a (2 * π) < 0 then 1 else 0) * (2 * π)

/-- The loop of `kepler` (lines 24-27), `it` iterations being counted: last `E`, counter. -/
noncomputable def keplerLoop (e M tol : ℝ) : Nat → ℝ → Nat → ℝ × Nat
  | 0, E, it => (E, it)
  | fuel + 1, E, it =>
    let f := E - e * sin E - M
    let E' := E - f / (1 - e * cos E)
    if |f| > tol then
      if it + 1 < maxIt then keplerLoop e M tol fuel E' (it + 1) else (E', it + 1)
    else (E', it)

/-- `kepler` (lines 15-35): anomaly, status (0: converged). -/
noncomputable def kepler (e M tol : ℝ) : ℝ × Nat :=
  let M := arg02pi M
  let E := if e < 8 / 10 then M else π
  let r := keplerLoop e M tol maxIt E 0
  (r.1, if r.2 ≥ maxIt then 1 else 0)

/-- The loop of `kepler_vallado` (lines 47-50). -/
noncomputable def valladoLoop (e M tol : ℝ) : Nat → ℝ → Nat → ℝ × Nat
  | 0, En, it => (En, it)
  | fuel + 1, En, it =>
    let E := En
    let En' := E + (M - E + e * sin E) / (1 - e * cos E)
    if |E - En'| > tol then
      if it + 1 < maxIt then valladoLoop e M tol fuel En' (it + 1) else (En', it + 1)
    else (En', it)

/-- `kepler_vallado` (lines 37-58). -/
noncomputable def keplerVallado (e M tol : ℝ) : ℝ × Nat :=
  let M := arg02pi M
  let mr := (M > -π ∧ M < 0) ∨ M > π
  open Classical in
  let E := M + (if mr then -e else e)
  let r := valladoLoop e M tol maxIt E 0
  (r.1, if r.2 ≥ maxIt then 1 else 0)

/-! ### Specification -/

/-- `E` solves Kepler's equation for the mean anomaly `M`. -/
def Solves (e M E : ℝ) : Prop := E - e * sin E = M

/-! ### Lemmas -/

theorem abs_sin_sub_le (a b : ℝ) : |sin a - sin b| ≤ |a - b| := by
  rw [sin_sub_sin]
  rw [abs_mul, abs_mul, abs_two]
  have h1 : |sin ((a - b) / 2)| ≤ |(a - b) / 2| := abs_sin_le_abs
  have h2 : |cos ((a + b) / 2)| ≤ 1 := abs_cos_le_one _
  have h3 : |(a - b) / 2| = |a - b| / 2 := by rw [abs_div, abs_two]
  calc 2 * |sin ((a - b) / 2)| * |cos ((a + b) / 2)| ≤ 2 * |sin ((a - b) / 2)| * 1 := by
        apply mul_le_mul_of_nonneg_left h2
        positivity
    _ ≤ |a - b| := by rw [h3] at h1; linarith

/-- The left-hand side of Kepler's equation grows at least with slope `1-e`. -/
theorem kepler_slope (e a b : ℝ) (h0 : 0 ≤ e) : (1 - e) * |a - b| ≤ |(a - e * sin a) - (b - e * sin b)| := by
  have h1 : |e * (sin a - sin b)| ≤ e * |a - b| := by
    rw [abs_mul, abs_of_nonneg h0]
    exact mul_le_mul_of_nonneg_left (abs_sin_sub_le a b) h0
  have h2 : |a - b| ≤ |(a - e * sin a) - (b - e * sin b)| + |e * (sin a - sin b)| := by
    have := abs_add_le ((a - e * sin a) - (b - e * sin b)) (e * (sin a - sin b))
    rw [show (a - e * sin a) - (b - e * sin b) + e * (sin a - sin b) = a - b by ring] at this
    exact this
  linarith

theorem one_sub_ecos (e E : ℝ) (h0 : 0 ≤ e) : 1 - e ≤ 1 - e * cos E ∧ 1 - e * cos E ≤ 1 + e := by
  have h1 := cos_le_one E
  have h2 := neg_one_le_cos E
  constructor <;> nlinarith

/-- **C44** Kepler's equation has exactly one solution. -/
theorem kepler_unique (e M : ℝ) (h0 : 0 ≤ e) (h1 : e < 1) : ∃! E, Solves e M E := by
  have hc : Continuous fun E : ℝ => E - e * sin E := by
    exact continuous_id.sub (continuous_const.mul continuous_sin)
  have hs1 := neg_one_le_sin (M - e)
  have hs1' := sin_le_one (M - e)
  have hs2 := sin_le_one (M + e)
  have hs2' := neg_one_le_sin (M + e)
  have hle : M - e ≤ M + e := by linarith
  have hmem : M ∈ Set.Icc ((M - e) - e * sin (M - e)) ((M + e) - e * sin (M + e)) := by
    constructor <;> nlinarith
  obtain ⟨E, _, hE⟩ := intermediate_value_Icc hle hc.continuousOn hmem
  refine ⟨E, hE, ?_⟩
  intro E' hE'
  have := kepler_slope e E' E h0
  rw [show E' - e * sin E' = M from hE', show E - e * sin E = M from hE, sub_self, abs_zero] at this
  have h2 : |E' - E| ≤ 0 := by
    by_contra hcon
    have : 0 < (1 - e) * |E' - E| := mul_pos (by linarith) (not_le.1 hcon)
    linarith
  have h3 : |E' - E| = 0 := le_antisymm h2 (abs_nonneg _)
  linarith [abs_eq_zero.1 h3]

/-- One Newton step from a point with a small residual. -/
theorem newton_bound (e M tol E Es : ℝ) (h0 : 0 ≤ e) (h1 : e < 1) (hs : Solves e M Es)
    (hf : |E - e * sin E - M| ≤ tol) :
    |E - (E - e * sin E - M) / (1 - e * cos E) - Es| ≤ 2 * tol / (1 - e) := by
  have hpos : 0 < 1 - e := by linarith
  have hd := (one_sub_ecos e E h0).1
  have hdpos : 0 < 1 - e * cos E := lt_of_lt_of_le hpos hd
  have ha : |E - Es| ≤ tol / (1 - e) := by
    rw [le_div_iff₀ hpos]
    have := kepler_slope e E Es h0
    rw [show Es - e * sin Es = M from hs] at this
    linarith
  have hb : |(E - e * sin E - M) / (1 - e * cos E)| ≤ tol / (1 - e) := by
    rw [abs_div, abs_of_pos hdpos]
    exact div_le_div₀ (le_trans (abs_nonneg _) hf) hf hpos hd
  calc |E - (E - e * sin E - M) / (1 - e * cos E) - Es|
      = |(E - Es) - (E - e * sin E - M) / (1 - e * cos E)| := by ring_nf
    _ ≤ |E - Es| + |(E - e * sin E - M) / (1 - e * cos E)| := abs_sub _ _
    _ ≤ tol / (1 - e) + tol / (1 - e) := add_le_add ha hb
    _ = 2 * tol / (1 - e) := by ring

theorem keplerLoop_spec (e M tol : ℝ) : ∀ (fuel : Nat) (E : ℝ) (it : Nat), it + fuel = maxIt → 1 ≤ fuel →
    (keplerLoop e M tol fuel E it).2 ≤ maxIt ∧
    ((keplerLoop e M tol fuel E it).2 < maxIt →
      ∃ E0, |E0 - e * sin E0 - M| ≤ tol ∧
        (keplerLoop e M tol fuel E it).1 = E0 - (E0 - e * sin E0 - M) / (1 - e * cos E0))
  | 0, _, _, _, h => by omega
  | fuel + 1, E, it, hs, _ => by
    simp only [keplerLoop]
    split
    · split
      · rename_i h1 h2
        exact keplerLoop_spec e M tol fuel _ (it + 1) (by omega) (by omega)
      · rename_i h1 h2
        exact ⟨by simp only; omega, fun h => by simp only at h; omega⟩
    · rename_i h1
      exact ⟨by simp only; omega, fun _ => ⟨E, not_lt.1 h1, rfl⟩⟩

theorem valladoLoop_spec (e M tol : ℝ) : ∀ (fuel : Nat) (E : ℝ) (it : Nat), it + fuel = maxIt → 1 ≤ fuel →
    (valladoLoop e M tol fuel E it).2 ≤ maxIt ∧
    ((valladoLoop e M tol fuel E it).2 < maxIt →
      ∃ E0, |E0 - (valladoLoop e M tol fuel E it).1| ≤ tol ∧
        (valladoLoop e M tol fuel E it).1 = E0 + (M - E0 + e * sin E0) / (1 - e * cos E0))
  | 0, _, _, _, h => by omega
  | fuel + 1, E, it, hs, _ => by
    simp only [valladoLoop]
    split
    · split
      · rename_i h1 h2
        exact valladoLoop_spec e M tol fuel _ (it + 1) (by omega) (by omega)
      · rename_i h1 h2
        exact ⟨by simp only; omega, fun h => by simp only at h; omega⟩
    · rename_i h1
      exact ⟨by simp only; omega, fun _ => ⟨E, not_lt.1 h1, rfl⟩⟩

theorem arg02pi_spec (a : ℝ) : (∃ k : ℤ, arg02pi a = a + k * (2 * π)) ∧ 0 ≤ arg02pi a ∧ arg02pi a ≤ 2 * π := by
  have hp : 0 < 2 * π := by positivity
  have hdiv : a = 2 * π * (a / (2 * π)) := by field_simp
  by_cases hq : 0 ≤ a / (2 * π)
  · have hf : fmod a (2 * π) = a - 2 * π * (⌊a / (2 * π)⌋ : ℝ) := by simp [fmod, hq]
    have h1 := Int.floor_le (a / (2 * π))
    have h2 := Int.lt_floor_add_one (a / (2 * π))
    have h3 : 0 ≤ fmod a (2 * π) := by
      rw [hf]
      nlinarith
    have h4 : fmod a (2 * π) ≤ 2 * π := by
      rw [hf]
      nlinarith
    have h5 : arg02pi a = fmod a (2 * π) := by
      unfold arg02pi
      rw [if_neg (not_lt.2 h3)]
      ring
    rw [h5]
    refine ⟨⟨-⌊a / (2 * π)⌋, ?_⟩, h3, h4⟩
    rw [hf]
    push_cast
    ring
  · have hf : fmod a (2 * π) = a - 2 * π * (⌈a / (2 * π)⌉ : ℝ) := by simp [fmod, hq]
    have h1 := Int.le_ceil (a / (2 * π))
    have h2 := Int.ceil_lt_add_one (a / (2 * π))
    have h3 : fmod a (2 * π) ≤ 0 := by
      rw [hf]
      nlinarith
    have h4 : -(2 * π) ≤ fmod a (2 * π) := by
      rw [hf]
      nlinarith
    unfold arg02pi
    split
    · refine ⟨⟨1 - ⌈a / (2 * π)⌉, ?_⟩, by linarith, by linarith⟩
      rw [hf]
      push_cast
      ring
    · rename_i h
      refine ⟨⟨-⌈a / (2 * π)⌉, ?_⟩, by linarith [not_lt.1 h], by linarith⟩
      rw [hf]
      push_cast
      ring

/-! ### C44 -/

/-- **C44** When `kepler` reports success, the anomaly returned differs from the exact solution (for
the mean anomaly reduced to one revolution) by at most `2 tol / (1-e)`. -/
theorem kepler_accurate (e M tol Es : ℝ) (h0 : 0 ≤ e) (h1 : e < 1) (hok : (kepler e M tol).2 = 0)
    (hs : Solves e (arg02pi M) Es) : |(kepler e M tol).1 - Es| ≤ 2 * tol / (1 - e) := by
  unfold kepler at hok ⊢
  simp only at hok ⊢
  generalize (if e < 8 / 10 then arg02pi M else π) = Ei at hok ⊢
  have hl := keplerLoop_spec e (arg02pi M) tol maxIt Ei 0 (by simp) (by decide)
  split at hok
  · simp at hok
  · rename_i h
    obtain ⟨E0, hf, hE⟩ := hl.2 (not_le.1 h)
    rw [hE]
    exact newton_bound e _ tol E0 Es h0 h1 hs hf

/-- **C44** The same for `kepler_vallado`, which tests the size of the last step. -/
theorem vallado_accurate (e M tol Es : ℝ) (h0 : 0 ≤ e) (h1 : e < 1) (hok : (keplerVallado e M tol).2 = 0)
    (hs : Solves e (arg02pi M) Es) : |(keplerVallado e M tol).1 - Es| ≤ 2 * tol / (1 - e) := by
  unfold keplerVallado at hok ⊢
  simp only at hok ⊢
  generalize hE0 : (arg02pi M + _ : ℝ) = Ei at hok ⊢
  have hl := valladoLoop_spec e (arg02pi M) tol maxIt Ei 0 (by simp) (by decide)
  split at hok
  · simp at hok
  · rename_i h
    obtain ⟨E0, hf, hE⟩ := hl.2 (not_le.1 h)
    generalize (valladoLoop e (arg02pi M) tol maxIt Ei 0).1 = En at hf hE ⊢
    have hpos : 0 < 1 - e := by linarith
    obtain ⟨hd1, hd2⟩ := one_sub_ecos e E0 h0
    have hdpos : 0 < 1 - e * cos E0 := lt_of_lt_of_le hpos hd1
    have hres : E0 - e * sin E0 - arg02pi M = (E0 - En) * (1 - e * cos E0) := by
      rw [hE]
      field_simp
      ring
    have htol : 0 ≤ tol := le_trans (abs_nonneg _) hf
    have hfb : |E0 - e * sin E0 - arg02pi M| ≤ tol * (1 + e) := by
      rw [hres, abs_mul, abs_of_pos hdpos]
      exact mul_le_mul hf hd2 hdpos.le htol
    have hsl := kepler_slope e E0 Es h0
    rw [show Es - e * sin Es = arg02pi M from hs] at hsl
    have ha : |E0 - Es| ≤ tol * (1 + e) / (1 - e) := by
      rw [le_div_iff₀ hpos]
      linarith
    calc |En - Es| = |(E0 - Es) - (E0 - En)| := by ring_nf
      _ ≤ |E0 - Es| + |E0 - En| := abs_sub _ _
      _ ≤ tol * (1 + e) / (1 - e) + tol := add_le_add ha hf
      _ = 2 * tol / (1 - e) := by field_simp; ring

/-- **C44** The mean anomaly used is the given one up to whole revolutions, within `[0, 2π]`. -/
theorem reduced_anomaly (a : ℝ) :
    (∃ k : ℤ, arg02pi a = a + k * (2 * π)) ∧ 0 ≤ arg02pi a ∧ arg02pi a ≤ 2 * π := arg02pi_spec a

/-- **C44** At most 20 iterations: the counter never passes 20, and it is 20 only when the
residual of the last point tested was above the tolerance, which is reported. -/
theorem iterations_bounded (e M tol E : ℝ) :
    (keplerLoop e M tol maxIt E 0).2 ≤ 20 ∧ (valladoLoop e M tol maxIt E 0).2 ≤ 20 :=
  ⟨(keplerLoop_spec e M tol maxIt E 0 (by simp) (by decide)).1,
    (valladoLoop_spec e M tol maxIt E 0 (by simp) (by decide)).1⟩

theorem keplerLoop_failure (e M tol : ℝ) : ∀ (fuel : Nat) (E : ℝ) (it : Nat), it + fuel = maxIt → 1 ≤ fuel →
    (keplerLoop e M tol fuel E it).2 = maxIt →
    ∃ E0, |E0 - e * sin E0 - M| > tol ∧
      (keplerLoop e M tol fuel E it).1 = E0 - (E0 - e * sin E0 - M) / (1 - e * cos E0)
  | 0, _, _, _, h, _ => by omega
  | fuel + 1, E, it, hs, _, h => by
    simp only [keplerLoop] at h ⊢
    split at h
    · rename_i h1
      rw [if_pos h1]
      split at h
      · rename_i h2
        rw [if_pos h2]
        exact keplerLoop_failure e M tol fuel _ (it + 1) (by omega) (by omega) h
      · rename_i h2
        rw [if_neg h2]
        exact ⟨E, h1, rfl⟩
    · rename_i h1
      simp only at h
      omega

/-- **C44** Failure is reported only when the residual was still above the tolerance at the last
point tested. -/
theorem failure_meaning (e M tol : ℝ) (hbad : (kepler e M tol).2 ≠ 0) :
    ∃ E0, |E0 - e * sin E0 - arg02pi M| > tol ∧
      (kepler e M tol).1 = E0 - (E0 - e * sin E0 - arg02pi M) / (1 - e * cos E0) := by
  unfold kepler at hbad ⊢
  simp only at hbad ⊢
  generalize (if e < 8 / 10 then arg02pi M else π) = Ei at hbad ⊢
  have hl := (keplerLoop_spec e (arg02pi M) tol maxIt Ei 0 (by simp) (by decide)).1
  split at hbad
  · rename_i h
    exact keplerLoop_failure e (arg02pi M) tol maxIt _ 0 (by simp) (by decide) (le_antisymm hl h)
  · simp at hbad

/-! ### A concrete instance -/

/-- A circular orbit: the mean anomaly itself, at once. -/
theorem circular (M tol : ℝ) (ht : 0 ≤ tol) : kepler 0 M tol = (arg02pi M, 0) := by
  unfold kepler maxIt
  simp [keplerLoop, not_lt.2 ht]

example : (kepler 0 1 (1 / 100)).2 = 0 ∧ Solves 0 (arg02pi 1) (arg02pi 1) := by
  constructor
  · rw [circular 1 (1 / 100) (by norm_num)]
  · simp [Solves]

end Verif.Astro
