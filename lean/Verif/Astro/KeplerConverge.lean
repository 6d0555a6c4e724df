import Verif.Astro.Kepler
import Mathlib.Analysis.Real.Pi.Bounds
import Mathlib.Analysis.Calculus.Deriv.MeanValue
import Mathlib.Tactic.NormNum
import Mathlib.Tactic.Positivity
import Mathlib.Tactic.Linarith
import Mathlib.Tactic.FieldSimp

/-
C139: the two solvers of Kepler's equation (src/astrodynamics/kepler.cpp) find the solution within their twenty
iterations for all eccentricities up to 0.85; close to 1 they do not.
-/
namespace Verif.Astro

open Real

/-- Residual of Kepler's equation. -/
noncomputable def resid (e M E : ℝ) : ℝ := E - e * sin E - M

/-- One step of Newton's method. -/
noncomputable def newt (e M E : ℝ) : ℝ := E - resid e M E / (1 - e * cos E)

theorem keplerLoop_ok (e M tol : ℝ) : ∀ (fuel : Nat) (E : ℝ) (it : Nat), it + fuel = maxIt →
    (∃ i, i < fuel ∧ |resid e M ((newt e M)^[i] E)| ≤ tol) → (keplerLoop e M tol fuel E it).2 < maxIt
  | 0, _, _, _, h => by obtain ⟨i, hi, _⟩ := h; omega
  | fuel + 1, E, it, hs, h => by
    obtain ⟨i, hi, hr⟩ := h
    simp only [keplerLoop]
    split
    · rename_i h1
      cases i with
      | zero => exact absurd hr (not_le.mpr h1)
      | succ j =>
        rw [if_pos (show it + 1 < maxIt by omega)]
        refine keplerLoop_ok e M tol fuel _ (it + 1) (by omega) ⟨j, by omega, ?_⟩
        rw [Function.iterate_succ_apply] at hr
        exact hr
    · show it < maxIt
      omega

theorem valladoLoop_ok (e M tol : ℝ) : ∀ (fuel : Nat) (E : ℝ) (it : Nat), it + fuel = maxIt →
    (∃ i, i < fuel ∧ |(newt e M)^[i] E - (newt e M)^[i + 1] E| ≤ tol) → (valladoLoop e M tol fuel E it).2 < maxIt
  | 0, _, _, _, h => by obtain ⟨i, hi, _⟩ := h; omega
  | fuel + 1, E, it, hs, h => by
    obtain ⟨i, hi, hr⟩ := h
    have hn : E + (M - E + e * sin E) / (1 - e * cos E) = newt e M E := by
      unfold newt resid
      rw [show M - E + e * sin E = -(E - e * sin E - M) by ring, neg_div]
      ring
    simp only [valladoLoop, hn]
    split
    · rename_i h1
      cases i with
      | zero => exact absurd hr (not_le.mpr h1)
      | succ j =>
        rw [if_pos (show it + 1 < maxIt by omega)]
        refine valladoLoop_ok e M tol fuel _ (it + 1) (by omega) ⟨j, by omega, ?_⟩
        rw [Function.iterate_succ_apply, Function.iterate_succ_apply] at hr
        exact hr
    · show it < maxIt
      omega

/-! ### Inequalities for the sine -/

theorem sin_taylor_up (E d : ℝ) (hd : 0 ≤ d) : sin E - sin (E - d) - d * cos E ≤ d ^ 2 / 2 := by
  let g : ℝ → ℝ := fun t => t ^ 2 / 2 - (sin E - sin (E - t) - t * cos E)
  have hder : ∀ t, HasDerivAt g (t - cos (E - t) + cos E) t := by
    intro t
    have h1 : HasDerivAt (fun t : ℝ => E - t) (-1) t := by
      simpa using (hasDerivAt_id t).const_sub E
    have h2 := h1.sin
    have h3 := (((hasDerivAt_id t).pow 2).div_const 2).sub (((h2.const_sub (sin E))).sub ((hasDerivAt_id t).mul_const (cos E)))
    refine h3.congr_deriv ?_
    simp
    ring
  have hm : MonotoneOn g (Set.Ici 0) := by
    apply monotoneOn_of_deriv_nonneg (convex_Ici 0)
    · exact fun t _ => (hder t).continuousAt.continuousWithinAt
    · exact fun t _ => (hder t).differentiableAt.differentiableWithinAt
    · intro t ht
      rw [interior_Ici] at ht
      rw [(hder t).deriv]
      have h1 := abs_sin_sub_le (E - t + π / 2) (E + π / 2)
      rw [sin_add_pi_div_two, sin_add_pi_div_two, show E - t + π / 2 - (E + π / 2) = -t by ring, abs_neg,
        abs_of_pos (show 0 < t from ht)] at h1
      have := abs_le.mp h1
      linarith [this.2]
  have h := hm (Set.mem_Ici.mpr le_rfl) (Set.mem_Ici.mpr hd) hd
  simp only [g] at h
  rw [sub_zero, sub_self] at h
  norm_num at h
  linarith

theorem sin_taylor (E d : ℝ) : |sin E - sin (E - d) - d * cos E| ≤ d ^ 2 / 2 := by
  rcases le_total 0 d with hd | hd
  · have h1 := sin_taylor_up E d hd
    have h2 := sin_taylor_up (E + π) d hd
    rw [sin_add_pi, cos_add_pi, show E + π - d = E - d + π by ring, sin_add_pi] at h2
    rw [abs_le]
    constructor <;> linarith
  · have h1 := sin_taylor_up (-E) (-d) (by linarith)
    have h2 := sin_taylor_up (-E + π) (-d) (by linarith)
    rw [sin_add_pi, cos_add_pi, show -E + π - -d = -(E - d) + π by ring, sin_add_pi] at h2
    rw [show -E - -d = -(E - d) by ring] at h1
    simp only [sin_neg, cos_neg] at h1 h2
    rw [abs_le]
    constructor <;> nlinarith

theorem sin_tangent {a b : ℝ} (ha : 0 ≤ a) (ha' : a ≤ π) (hb : 0 ≤ b) (hb' : b ≤ π) :
    sin b ≤ sin a + (b - a) * cos a := by
  rcases lt_trichotomy a b with h | h | h
  · obtain ⟨c, hc, he⟩ := exists_hasDerivAt_eq_slope sin cos h continuous_sin.continuousOn
      (fun x _ => hasDerivAt_sin x)
    have h1 : cos c ≤ cos a := cos_le_cos_of_nonneg_of_le_pi ha (by linarith [hc.2]) hc.1.le
    rw [eq_div_iff (by linarith)] at he
    nlinarith
  · subst h; simp
  · obtain ⟨c, hc, he⟩ := exists_hasDerivAt_eq_slope sin cos h continuous_sin.continuousOn
      (fun x _ => hasDerivAt_sin x)
    have h1 : cos a ≤ cos c := cos_le_cos_of_nonneg_of_le_pi (by linarith [hc.1]) ha' hc.2.le
    rw [eq_div_iff (by linarith)] at he
    nlinarith

/-! ### One step -/

theorem resid_mono (e M a b : ℝ) (h0 : 0 ≤ e) (hab : a ≤ b) :
    (1 - e) * (b - a) ≤ resid e M b - resid e M a ∧ resid e M b - resid e M a ≤ (1 + e) * (b - a) := by
  have h := abs_le.mp (abs_sin_sub_le b a)
  rw [abs_of_nonneg (by linarith)] at h
  unfold resid
  constructor <;> nlinarith [h.1, h.2]

theorem resid_abs (e M r E : ℝ) (h0 : 0 ≤ e) (h1 : e < 1) (hr : resid e M r = 0) : |resid e M E| ≤ 2 * |E - r| := by
  rcases le_total r E with h | h
  · have := resid_mono e M r E h0 h
    rw [hr, sub_zero] at this
    have h2 : 0 ≤ resid e M E := le_trans (mul_nonneg (by linarith) (by linarith)) this.1
    rw [abs_of_nonneg h2, abs_of_nonneg (by linarith)]
    nlinarith [this.2]
  · have := resid_mono e M E r h0 h
    rw [hr, zero_sub] at this
    have h2 : resid e M E ≤ 0 := by
      have := le_trans (mul_nonneg (by linarith : (0:ℝ) ≤ 1 - e) (by linarith : (0:ℝ) ≤ r - E)) this.1
      linarith
    rw [abs_of_nonpos h2, abs_of_nonpos (by linarith)]
    nlinarith [this.2]

theorem newt_sub (e M r E : ℝ) (hr : resid e M r = 0) (hg : 1 - e * cos E ≠ 0) :
    (newt e M E - r) * (1 - e * cos E) = e * (sin E - sin r - (E - r) * cos E) := by
  unfold newt
  rw [sub_right_comm, sub_mul, div_mul_cancel₀ _ hg]
  unfold resid at *
  linear_combination -hr

/-- On either side of the solution: quadratic convergence. -/
theorem step_quad {e M r E b b' : ℝ} (h0 : 0 ≤ e) (h1 : e ≤ 17 / 20) (hr : resid e M r = 0) (hb : |E - r| ≤ b)
    (hb' : 17 / 6 * b ^ 2 ≤ b') : |newt e M E - r| ≤ b' := by
  obtain ⟨g1, -⟩ := one_sub_ecos e E h0
  have hg : 0 < 1 - e * cos E := by linarith
  have hn := newt_sub e M r E hr hg.ne'
  have ht := sin_taylor E (E - r)
  rw [sub_sub_cancel] at ht
  have hbb : (E - r) ^ 2 ≤ b ^ 2 := by
    rw [← sq_abs]
    exact pow_le_pow_left₀ (abs_nonneg _) hb 2
  have h2 : |newt e M E - r| * (1 - e * cos E) ≤ e * (b ^ 2 / 2) := by
    rw [← abs_of_pos hg, ← abs_mul, hn, abs_mul, abs_of_nonneg h0]
    exact mul_le_mul_of_nonneg_left (by linarith) h0
  have h3 : e * (b ^ 2 / 2) ≤ 17 / 6 * b ^ 2 * (1 - e) := by
    nlinarith [sq_nonneg b]
  have h4 : |newt e M E - r| * (1 - e) ≤ b' * (1 - e) := by
    have a1 : |newt e M E - r| * (1 - e) ≤ |newt e M E - r| * (1 - e * cos E) :=
      mul_le_mul_of_nonneg_left g1 (abs_nonneg _)
    have a2 : 17 / 6 * b ^ 2 * (1 - e) ≤ b' * (1 - e) := mul_le_mul_of_nonneg_right hb' (by linarith)
    linarith
  exact le_of_mul_le_mul_right h4 (by linarith)

/-- Right of the solution on the first half of the revolution: the iterates come down to it. -/
theorem step_right {e M r E b b' : ℝ} (h0 : 0 ≤ e) (h1 : e ≤ 17 / 20) (hr : resid e M r = 0) (r0 : 0 ≤ r) (hE : r ≤ E)
    (hE' : E ≤ π) (hb : E - r ≤ b) (hb' : 17 / 6 * b ^ 2 ≤ b' * (1 + 17 / 6 * b)) :
    r ≤ newt e M E ∧ newt e M E ≤ π ∧ newt e M E - r ≤ b' := by
  obtain ⟨g1, -⟩ := one_sub_ecos e E h0
  have hg : 0 < 1 - e * cos E := by linarith
  have hn := newt_sub e M r E hr hg.ne'
  have ht := (abs_le.mp (sin_taylor E (E - r))).2
  rw [sub_sub_cancel] at ht
  have hc := sin_tangent (a := E) (b := r) (by linarith) hE' r0 (by linarith)
  have hm := (resid_mono e M r E h0 hE).1
  rw [hr, sub_zero] at hm
  have hw : newt e M E * (1 - e * cos E) = E * (1 - e * cos E) - resid e M E := by
    unfold newt
    rw [sub_mul, div_mul_cancel₀ _ hg.ne']
  generalize hy : newt e M E = y at *
  generalize hd : E - r = d at *
  generalize 1 - e * cos E = g at *
  have hd0 : 0 ≤ d := by linarith
  have y0 : 0 ≤ y - r := by
    by_contra hcon
    have : (y - r) * g < 0 := mul_neg_of_neg_of_pos (not_le.mp hcon) hg
    have : 0 ≤ e * (sin E - sin r - d * cos E) := mul_nonneg h0 (by rw [← hd]; linarith)
    linarith
  have p1 : (y - r) * g ≤ e * (d ^ 2 / 2) := by
    rw [hn]
    exact mul_le_mul_of_nonneg_left ht h0
  have p2 : (1 - e) * d ≤ (d - (y - r)) * g := by
    have : (d - (y - r)) * g = (E - y) * g := by rw [← hd]; ring
    rw [this, sub_mul E, hw]
    linarith
  have y1 : y - r ≤ d := by
    by_contra hcon
    have a1 : (d - (y - r)) * g < 0 := mul_neg_of_neg_of_pos (by linarith) hg
    have a2 : 0 ≤ (1 - e) * d := mul_nonneg (by linarith) hd0
    linarith
  have p3 : (y - r) * (1 - e) ≤ (d - (y - r)) * (e * d / 2) := by
    have a1 : (y - r) * g * (1 - e) ≤ e * (d ^ 2 / 2) * (1 - e) := mul_le_mul_of_nonneg_right p1 (by linarith)
    have a2 : (1 - e) * d * (e * d / 2) ≤ (d - (y - r)) * g * (e * d / 2) :=
      mul_le_mul_of_nonneg_right p2 (by positivity)
    have a3 : (y - r) * (1 - e) * g ≤ (d - (y - r)) * (e * d / 2) * g := by nlinarith
    exact le_of_mul_le_mul_right a3 hg
  have p4 : e / 2 ≤ 17 / 6 * (1 - e) := by linarith
  have p5 : (y - r) * (1 - e) ≤ (d - (y - r)) * d * (17 / 6) * (1 - e) := by
    have : (d - (y - r)) * (e * d / 2) ≤ (d - (y - r)) * d * (17 / 6 * (1 - e)) := by
      have := mul_le_mul_of_nonneg_left p4 (mul_nonneg (by linarith : (0:ℝ) ≤ d - (y - r)) hd0)
      nlinarith
    linarith
  have p6 : (y - r) ≤ (d - (y - r)) * d * (17 / 6) := le_of_mul_le_mul_right p5 (by linarith)
  refine ⟨by linarith, by linarith, ?_⟩
  have p7 : (y - r) * (1 + 17 / 6 * d) ≤ 17 / 6 * d ^ 2 := by nlinarith
  have hbp : 0 ≤ b := by linarith
  have p8 : d ^ 2 * (1 + 17 / 6 * b) ≤ b ^ 2 * (1 + 17 / 6 * d) := by
    have a1 : d ^ 2 ≤ b ^ 2 := pow_le_pow_left₀ hd0 hb 2
    have a2 : d * b * d ≤ d * b * b := mul_le_mul_of_nonneg_left hb (by positivity)
    nlinarith
  have hD : 0 < 1 + 17 / 6 * d := by positivity
  have hB : 0 < 1 + 17 / 6 * b := by positivity
  have p9 : (y - r) * ((1 + 17 / 6 * d) * (1 + 17 / 6 * b)) ≤ b' * ((1 + 17 / 6 * d) * (1 + 17 / 6 * b)) := by
    have a1 := mul_le_mul_of_nonneg_right p7 hB.le
    have a2 := mul_le_mul_of_nonneg_right hb' hD.le
    nlinarith
  exact le_of_mul_le_mul_right p9 (by positivity)

/-! ### Chains of bounds -/

/-- Each bound follows from the one before, right of the solution. -/
def rightOk : ℚ → List ℚ → Bool
  | _, [] => true
  | b, b' :: l => decide (17 / 6 * b ^ 2 ≤ b' * (1 + 17 / 6 * b)) && rightOk b' l

/-- Each bound follows from the one before, on either side. -/
def quadOk : ℚ → List ℚ → Bool
  | _, [] => true
  | b, b' :: l => decide (17 / 6 * b ^ 2 ≤ b') && quadOk b' l

theorem chain_right {e M r : ℝ} (h0 : 0 ≤ e) (h1 : e ≤ 17 / 20) (hr : resid e M r = 0) (r0 : 0 ≤ r) :
    ∀ (l : List ℚ) (b : ℚ) (E : ℝ), rightOk b l = true → r ≤ E → E ≤ π → E - r ≤ b →
      |(newt e M)^[l.length] E - r| ≤ ((l.getLast?).getD b : ℚ)
  | [], b, E, _, hE, _, hb => by
    simpa [abs_of_nonneg (sub_nonneg.mpr hE)] using hb
  | b' :: l, b, E, hok, hE, hE', hb => by
    simp only [rightOk, Bool.and_eq_true, decide_eq_true_eq] at hok
    have hc : (17 / 6 * (b : ℝ) ^ 2) ≤ (b' : ℝ) * (1 + 17 / 6 * (b : ℝ)) := by
      have := (Rat.cast_le (K := ℝ)).mpr hok.1
      push_cast at this
      exact this
    obtain ⟨s1, s2, s3⟩ := step_right h0 h1 hr r0 hE hE' hb hc
    have := chain_right h0 h1 hr r0 l b' _ hok.2 s1 s2 s3
    rw [List.length_cons, Function.iterate_succ_apply, List.getLast?_cons, Option.getD_some]
    exact this

theorem chain_quad {e M r : ℝ} (h0 : 0 ≤ e) (h1 : e ≤ 17 / 20) (hr : resid e M r = 0) :
    ∀ (l : List ℚ) (b : ℚ) (E : ℝ), quadOk b l = true → |E - r| ≤ b →
      |(newt e M)^[l.length] E - r| ≤ ((l.getLast?).getD b : ℚ)
  | [], b, E, _, hb => by simpa using hb
  | b' :: l, b, E, hok, hb => by
    simp only [quadOk, Bool.and_eq_true, decide_eq_true_eq] at hok
    have hc : (17 / 6 * (b : ℝ) ^ 2) ≤ (b' : ℝ) := by
      have := (Rat.cast_le (K := ℝ)).mpr hok.1
      push_cast at this
      exact this
    have := chain_quad h0 h1 hr l b' _ hok.2 (step_quad h0 h1 hr hb hc)
    rw [List.length_cons, Function.iterate_succ_apply, List.getLast?_cons, Option.getD_some]
    exact this

/-- From the whole half revolution. -/
def fromPi : List ℚ := [2.826, 2.513, 2.204, 1.9, 1.603, 1.314, 1.036, 0.7728, 0.5306, 0.3187, 0.1513, 0.0454, 0.005175,
  7.479e-05, 1.585e-08, 7.118e-16, 1e-18]

/-- From 4/3. -/
def fromFour : List ℚ := [1.055, 0.7906, 0.5466, 0.3322, 0.1611, 0.05049, 0.006319, 0.0001112, 3.503e-08, 3.477e-15, 1e-18]

/-- From 0.85, right of the solution. -/
def fromEcc : List ℚ := [0.6007, 0.3784, 0.1958, 0.06987, 0.01155, 0.000366, 3.792e-07, 4.075e-13, 1e-18]

/-- From 0.3071, on either side. -/
def fromFar : List ℚ := [0.2673, 0.2025, 0.1162, 0.03826, 0.004148, 4.876e-05, 6.737e-09, 1.286e-16, 1e-18]

/-- Within 18 steps the error is below `10⁻¹⁸`. -/
def Reaches (e M E r : ℝ) : Prop := ∃ i, i < 19 ∧ |(newt e M)^[i] E - r| ≤ 1 / 10 ^ 18

/-- The starting points of the two functions. -/
def Start (e M E : ℝ) : Prop := (e < 8 / 10 ∧ E = M) ∨ E = π ∨ E = M + e

theorem root_bounds {e M r : ℝ} (h0 : 0 ≤ e) (h1 : e < 1) (hM : 0 ≤ M) (hM' : M ≤ π) (hr : resid e M r = 0) :
    M ≤ r ∧ r ≤ π ∧ r ≤ M + e := by
  have s1 := sin_nonneg_of_nonneg_of_le_pi hM hM'
  refine ⟨?_, ?_, ?_⟩
  · by_contra hc
    have := (resid_mono e M r M h0 (by linarith)).1
    rw [hr] at this
    unfold resid at this
    nlinarith [mul_pos (by linarith : (0:ℝ) < 1 - e) (by linarith : (0:ℝ) < M - r), mul_nonneg h0 s1]
  · by_contra hc
    have := (resid_mono e M π r h0 (by linarith)).1
    rw [hr] at this
    unfold resid at this
    rw [sin_pi] at this
    nlinarith [mul_pos (by linarith : (0:ℝ) < 1 - e) (by linarith : (0:ℝ) < r - π)]
  · unfold resid at hr
    nlinarith [sin_le_one r]

theorem reaches_first {e M r E : ℝ} (h0 : 0 ≤ e) (h1 : e ≤ 17 / 20) (hM : 0 ≤ M) (hM' : M ≤ π) (hr : resid e M r = 0)
    (hs : Start e M E) : Reaches e M E r := by
  obtain ⟨b1, b2, b3⟩ := root_bounds h0 (by linarith) hM hM' hr
  have pi1 := pi_gt_d4
  have pi2 := pi_lt_d4
  rcases hs with ⟨he, hE⟩ | rfl | rfl
  · rw [hE]
    obtain ⟨g1, -⟩ := one_sub_ecos e M h0
    have hg : 0 < 1 - e * cos M := by linarith
    have hn := newt_sub e M r M hr hg.ne'
    have hc := sin_tangent (a := M) (b := r) hM hM' (by linarith) b2
    have hw : newt e M M * (1 - e * cos M) = M * (1 - e * cos M) + e * sin M := by
      unfold newt
      rw [sub_mul, div_mul_cancel₀ _ hg.ne']
      unfold resid
      ring
    have s0 := sin_nonneg_of_nonneg_of_le_pi hM hM'
    have sc := sin_sq_add_cos_sq M
    have k1 : r ≤ newt e M M := by
      by_contra hcon
      have : (newt e M M - r) * (1 - e * cos M) < 0 := mul_neg_of_neg_of_pos (by linarith) hg
      have : 0 ≤ e * (sin M - sin r - (M - r) * cos M) := mul_nonneg h0 (by linarith)
      linarith
    have k2 : newt e M M - M ≤ 4 / 3 := by
      have h5 : 3 * sin M + 4 * cos M ≤ 5 := by nlinarith [sq_nonneg (3 * cos M - 4 * sin M)]
      have : (newt e M M - M) * (1 - e * cos M) ≤ 4 / 3 * (1 - e * cos M) := by
        rw [sub_mul, hw]
        nlinarith
      exact le_of_mul_le_mul_right this hg
    have k3 : newt e M M ≤ π := by
      have : newt e M M * (1 - e * cos M) ≤ π * (1 - e * cos M) := by
        rw [hw]
        have : e * (sin M + (π - M) * cos M) ≤ π - M := by
          have hs0 : 0 ≤ π - M := by linarith
          rcases le_total (cos M) 0 with hc0 | hc0
          · have hsin : sin M ≤ π - M := by
              rw [← sin_pi_sub]
              exact sin_le hs0
            have a1 : sin M + (π - M) * cos M ≤ π - M := by nlinarith
            nlinarith
          · have hM2 : M ≤ π / 2 := by
              by_contra hcon
              have := cos_neg_of_pi_div_two_lt_of_lt (not_le.mp hcon) (by linarith)
              linarith
            have a1 : (sin M + (π - M) * cos M) ^ 2 ≤ (5 / 4 * (π - M)) ^ 2 := by
              have a2 : (sin M + (π - M) * cos M) ^ 2 ≤ 1 + (π - M) ^ 2 := by
                nlinarith [sq_nonneg (cos M - (π - M) * sin M)]
              nlinarith
            have a3 := abs_le_of_sq_le_sq' a1 (by linarith)
            nlinarith [a3.2]
        nlinarith
      exact le_of_mul_le_mul_right this hg
    have hb : newt e M M - r ≤ ((4 / 3 : ℚ) : ℝ) := by push_cast; linarith
    have := chain_right h0 h1 hr (by linarith) fromFour (4 / 3) _ (by decide +kernel) k1 k3 hb
    refine ⟨12, by norm_num, ?_⟩
    rw [Function.iterate_succ_apply]
    refine this.trans ?_
    simp [fromFour]
    norm_num
  · have hb : π - r ≤ ((22 / 7 : ℚ) : ℝ) := by push_cast; linarith
    have := chain_right h0 h1 hr (by linarith) fromPi (22 / 7) _ (by decide +kernel) b2 le_rfl hb
    refine ⟨17, by norm_num, this.trans ?_⟩
    simp [fromPi]
    norm_num
  · by_cases hle : M + e ≤ π
    · have hb : M + e - r ≤ ((17 / 20 : ℚ) : ℝ) := by push_cast; linarith
      have := chain_right h0 h1 hr (by linarith) fromEcc (17 / 20) _ (by decide +kernel) b3 hle hb
      refine ⟨9, by norm_num, this.trans ?_⟩
      simp [fromEcc]
      norm_num
    · have hcos : cos (M + e) ≤ 0 := by
        apply cos_nonpos_of_pi_div_two_le_of_le <;> linarith
      have hg : 1 ≤ 1 - e * cos (M + e) := by nlinarith
      have hn := newt_sub e M r (M + e) hr (by linarith)
      have ht := sin_taylor (M + e) (M + e - r)
      rw [sub_sub_cancel] at ht
      have hd : (M + e - r) ^ 2 ≤ (17 / 20) ^ 2 := pow_le_pow_left₀ (by linarith) (by linarith) 2
      have h2 : |newt e M (M + e) - r| * (1 - e * cos (M + e)) ≤ e * ((17 / 20) ^ 2 / 2) := by
        rw [← abs_of_nonneg (by linarith : (0:ℝ) ≤ 1 - e * cos (M + e)), ← abs_mul, hn, abs_mul, abs_of_nonneg h0]
        exact mul_le_mul_of_nonneg_left (by linarith) h0
      have h3 : |newt e M (M + e) - r| ≤ ((0.3071 : ℚ) : ℝ) := by
        have := mul_le_mul_of_nonneg_left hg (abs_nonneg (newt e M (M + e) - r))
        push_cast
        nlinarith
      have := chain_quad h0 h1 hr fromFar (0.3071) _ (by decide +kernel) h3
      refine ⟨10, by norm_num, ?_⟩
      rw [Function.iterate_succ_apply]
      refine this.trans ?_
      simp [fromFar]
      norm_num

/-! ### The second half of the revolution -/

theorem newt_reflect (e M E : ℝ) : newt e (2 * π - M) (2 * π - E) = 2 * π - newt e M E := by
  unfold newt resid
  rw [sin_two_pi_sub, cos_two_pi_sub, show 2 * π - E - e * -sin E - (2 * π - M) = -(E - e * sin E - M) by ring, neg_div]
  ring

theorem iterate_reflect (e M : ℝ) : ∀ (n : ℕ) (E : ℝ),
    (newt e (2 * π - M))^[n] (2 * π - E) = 2 * π - (newt e M)^[n] E
  | 0, E => rfl
  | n + 1, E => by
    rw [Function.iterate_succ_apply, Function.iterate_succ_apply, newt_reflect, iterate_reflect e M n]

theorem reaches_second {e M r E : ℝ} (h0 : 0 ≤ e) (h1 : e ≤ 17 / 20) (hM : π ≤ M) (hM' : M ≤ 2 * π) (hr : resid e M r = 0)
    (hs : Start e (2 * π - M) (2 * π - E)) : Reaches e M E r := by
  have hr' : resid e (2 * π - M) (2 * π - r) = 0 := by
    unfold resid at *
    rw [sin_two_pi_sub]
    linarith
  obtain ⟨i, hi, h⟩ := reaches_first h0 h1 (by linarith) (by linarith) hr' hs
  refine ⟨i, hi, ?_⟩
  rw [iterate_reflect, show 2 * π - (newt e M)^[i] E - (2 * π - r) = -((newt e M)^[i] E - r) by ring, abs_neg] at h
  exact h

theorem exists_resid (e M : ℝ) (h0 : 0 ≤ e) (h1 : e < 1) : ∃ r, resid e M r = 0 := by
  obtain ⟨r, hr, -⟩ := kepler_unique e M h0 h1
  exact ⟨r, by unfold resid; unfold Solves at hr; linarith⟩

/-- **C139** `kepler` succeeds for every eccentricity up to 0.85 and every mean anomaly, within its twenty iterations. -/
theorem kepler_converges_partial (e M tol : ℝ) (h0 : 0 ≤ e) (h1 : e ≤ 17 / 20) (ht : 1 / 10 ^ 17 ≤ tol) :
    (kepler e M tol).2 = 0 := by
  obtain ⟨-, m0, m1⟩ := arg02pi_spec M
  unfold kepler
  simp only
  generalize arg02pi M = m at m0 m1
  obtain ⟨r, hr⟩ := exists_resid e m h0 (by linarith)
  have hreach : Reaches e m (if e < 8 / 10 then m else π) r := by
    rcases le_total m π with hm | hm
    · apply reaches_first h0 h1 m0 hm hr
      split
      · rename_i he; exact Or.inl ⟨he, rfl⟩
      · exact Or.inr (Or.inl rfl)
    · apply reaches_second h0 h1 hm m1 hr
      split
      · rename_i he; exact Or.inl ⟨he, rfl⟩
      · exact Or.inr (Or.inl (by ring))
  obtain ⟨i, hi, hb⟩ := hreach
  rw [if_neg]
  rw [ge_iff_le, not_le]
  refine keplerLoop_ok e m tol maxIt _ 0 (by simp) ⟨i, by simp only [maxIt]; omega, ?_⟩
  have := resid_abs e m r ((newt e m)^[i] (if e < 8 / 10 then m else π)) h0 (by linarith) hr
  refine this.trans (le_trans ?_ ht)
  have : (2 : ℝ) * (1 / 10 ^ 18) ≤ 1 / 10 ^ 17 := by norm_num
  linarith

/-- **C139** The same for `kepler_vallado`. -/
theorem vallado_converges_partial (e M tol : ℝ) (h0 : 0 ≤ e) (h1 : e ≤ 17 / 20) (ht : 1 / 10 ^ 17 ≤ tol) :
    (keplerVallado e M tol).2 = 0 := by
  obtain ⟨-, m0, m1⟩ := arg02pi_spec M
  unfold keplerVallado
  simp only
  generalize arg02pi M = m at m0 m1
  obtain ⟨r, hr⟩ := exists_resid e m h0 (by linarith)
  generalize hE : m + _ = E
  have hreach : Reaches e m E r := by
    by_cases hm : π < m
    · rw [if_pos (Or.inr hm)] at hE
      apply reaches_second h0 h1 hm.le m1 hr
      exact Or.inr (Or.inr (by rw [← hE]; ring))
    · rw [if_neg (by rintro (h | h); exacts [absurd h.2 (not_lt.mpr m0), hm h])] at hE
      exact reaches_first h0 h1 m0 (not_lt.mp hm) hr (Or.inr (Or.inr hE.symm))
  obtain ⟨i, hi, hb⟩ := hreach
  rw [if_neg]
  rw [ge_iff_le, not_le]
  refine valladoLoop_ok e m tol maxIt _ 0 (by simp) ⟨i, by simp only [maxIt]; omega, ?_⟩
  have hb2 : |(newt e m)^[i + 1] E - r| ≤ 1 / 10 ^ 18 := by
    rw [Function.iterate_succ_apply']
    exact step_quad h0 h1 hr hb (by norm_num)
  have := abs_sub_le ((newt e m)^[i] E) r ((newt e m)^[i + 1] E)
  rw [abs_sub_comm r] at this
  have : (2 : ℝ) * (1 / 10 ^ 18) ≤ 1 / 10 ^ 17 := by norm_num
  linarith

/-! ### Close to 1 -/

theorem keplerLoop_fail (e M tol : ℝ) : ∀ (fuel : Nat) (E : ℝ) (it : Nat), it + fuel = maxIt → 1 ≤ fuel →
    (∀ i, i < fuel → tol < |resid e M ((newt e M)^[i] E)|) → (keplerLoop e M tol fuel E it).2 = maxIt
  | 0, _, _, _, h, _ => by omega
  | fuel + 1, E, it, hs, _, h => by
    have h0 := h 0 (by omega)
    simp only [keplerLoop]
    rw [if_pos (show |E - e * sin E - M| > tol from h0)]
    split
    · rename_i h2
      refine keplerLoop_fail e M tol fuel _ (it + 1) (by omega) (by omega) (fun i hi => ?_)
      have := h (i + 1) (by omega)
      rw [Function.iterate_succ_apply] at this
      exact this
    · show it + 1 = maxIt
      omega

theorem valladoLoop_fail (e M tol : ℝ) : ∀ (fuel : Nat) (E : ℝ) (it : Nat), it + fuel = maxIt → 1 ≤ fuel →
    (∀ i, i < fuel → tol < |(newt e M)^[i] E - (newt e M)^[i + 1] E|) → (valladoLoop e M tol fuel E it).2 = maxIt
  | 0, _, _, _, h, _ => by omega
  | fuel + 1, E, it, hs, _, h => by
    have hn : E + (M - E + e * sin E) / (1 - e * cos E) = newt e M E := by
      unfold newt resid
      rw [show M - E + e * sin E = -(E - e * sin E - M) by ring, neg_div]
      ring
    have h0 := h 0 (by omega)
    simp only [valladoLoop, hn]
    rw [if_pos (show |E - newt e M E| > tol from h0)]
    split
    · rename_i h2
      refine valladoLoop_fail e M tol fuel _ (it + 1) (by omega) (by omega) (fun i hi => ?_)
      have := h (i + 1) (by omega)
      rw [Function.iterate_succ_apply, Function.iterate_succ_apply (newt e M) (i + 1)] at this
      exact this
    · show it + 1 = maxIt
      omega

theorem nonneg_of_deriv (g g' : ℝ → ℝ) (hder : ∀ t, HasDerivAt g (g' t) t) (h0 : g 0 = 0) (hp : ∀ t, 0 < t → 0 ≤ g' t)
    {x : ℝ} (hx : 0 ≤ x) : 0 ≤ g x := by
  have hm : MonotoneOn g (Set.Ici 0) := by
    apply monotoneOn_of_deriv_nonneg (convex_Ici 0)
    · exact fun t _ => (hder t).continuousAt.continuousWithinAt
    · exact fun t _ => (hder t).differentiableAt.differentiableWithinAt
    · intro t ht
      rw [interior_Ici] at ht
      rw [(hder t).deriv]
      exact hp t ht
  have h := hm (Set.mem_Ici.mpr le_rfl) (Set.mem_Ici.mpr hx) hx
  rwa [h0] at h

theorem sin_lower {x : ℝ} (hx : 0 ≤ x) : x - x ^ 3 / 6 ≤ sin x := by
  have := nonneg_of_deriv (fun t => sin t - (t - t ^ 3 / 6)) (fun t => cos t - (1 - t ^ 2 / 2)) (fun t => by
    refine ((hasDerivAt_sin t).sub ((hasDerivAt_id t).sub (((hasDerivAt_id t).pow 3).div_const 6))).congr_deriv ?_
    simp
    ring) (by simp) (fun t _ => by linarith [one_sub_sq_div_two_le_cos (x := t)]) hx
  linarith

theorem cos_upper {x : ℝ} (hx : 0 ≤ x) : cos x ≤ 1 - x ^ 2 / 2 + x ^ 4 / 24 := by
  have := nonneg_of_deriv (fun t => 1 - t ^ 2 / 2 + t ^ 4 / 24 - cos t) (fun t => sin t - (t - t ^ 3 / 6)) (fun t => by
    refine (((((hasDerivAt_id t).pow 2).div_const 2).const_sub 1).add (((hasDerivAt_id t).pow 4).div_const 24)).sub
      (hasDerivAt_cos t) |>.congr_deriv ?_
    simp
    ring) (by simp) (fun t ht => by linarith [sin_lower ht.le]) hx
  linarith

theorem sin_upper {x : ℝ} (hx : 0 ≤ x) : sin x ≤ x - x ^ 3 / 6 + x ^ 5 / 120 := by
  have := nonneg_of_deriv (fun t => t - t ^ 3 / 6 + t ^ 5 / 120 - sin t) (fun t => 1 - t ^ 2 / 2 + t ^ 4 / 24 - cos t)
    (fun t => by
      refine (((hasDerivAt_id t).sub (((hasDerivAt_id t).pow 3).div_const 6)).add
        (((hasDerivAt_id t).pow 5).div_const 120)).sub (hasDerivAt_sin t) |>.congr_deriv ?_
      simp
      ring) (by simp) (fun t ht => by linarith [cos_upper ht.le]) hx
  linarith

/-- An eccentricity close to 1. -/
noncomputable def eNear : ℝ := 1 - 1 / 10 ^ 13

theorem resid_near {E : ℝ} (h0 : 0 ≤ E) (h1 : E ≤ 15708 / 10000) : E ^ 3 / 7 ≤ resid eNear 0 E := by
  have hs := sin_upper h0
  have hs0 : 0 ≤ sin E := sin_nonneg_of_nonneg_of_le_pi h0 (by linarith [pi_gt_d4])
  have h2 : E ^ 2 ≤ (15708 / 10000) ^ 2 := pow_le_pow_left₀ h0 h1 2
  have h3 : E ^ 5 ≤ E ^ 3 * (15708 / 10000) ^ 2 := by
    rw [show E ^ 5 = E ^ 3 * E ^ 2 by ring]
    exact mul_le_mul_of_nonneg_left h2 (by positivity)
  have h4 : 0 ≤ E ^ 3 := by positivity
  unfold resid eNear
  linarith

theorem slope_near (E : ℝ) :
    0 < 1 - eNear * cos E ∧ 1 - eNear * cos E ≤ E ^ 2 / 2 + 1 / 10 ^ 13 := by
  have h2 := one_sub_sq_div_two_le_cos (x := E)
  have h3 := cos_le_one E
  unfold eNear
  constructor <;> linarith

theorem newt_near {E : ℝ} (h0 : 2 / 10 ^ 5 ≤ E) (h1 : E ≤ 15708 / 10000) :
    57 / 100 * E ≤ newt eNear 0 E ∧ newt eNear 0 E ≤ E := by
  have hE : 0 ≤ E := le_trans (by norm_num) h0
  obtain ⟨g0, -⟩ := slope_near E
  have hr := resid_near hE h1
  have hw : newt eNear 0 E * (1 - eNear * cos E) = E * (1 - eNear * cos E) - resid eNear 0 E := by
    unfold newt
    rw [sub_mul, div_mul_cancel₀ _ g0.ne']
  constructor
  · refine le_of_mul_le_mul_right ?_ g0
    rw [hw]
    have hs := sin_lower hE
    have hc := cos_upper hE
    have e0 : 0 ≤ eNear := by unfold eNear; norm_num
    have a1 : eNear * (E - E ^ 3 / 6) ≤ eNear * sin E := mul_le_mul_of_nonneg_left hs e0
    have a2 : eNear * E * cos E ≤ eNear * E * (1 - E ^ 2 / 2 + E ^ 4 / 24) :=
      mul_le_mul_of_nonneg_left hc (mul_nonneg e0 hE)
    have a3 : E ^ 2 ≤ (15708 / 10000) ^ 2 := pow_le_pow_left₀ hE h1 2
    have a4 : (2 / 10 ^ 5) ^ 2 ≤ E ^ 2 := pow_le_pow_left₀ (by norm_num) h0 2
    have a5 : 0 ≤ E * ((57 / 100) * (eNear - 1) + eNear * E ^ 2 * (43 / 200 - 1 / 6 - 43 / 2400 * E ^ 2)) := by
      refine mul_nonneg hE ?_
      have b1 : (4 : ℝ) / 1000 ≤ 43 / 200 - 1 / 6 - 43 / 2400 * E ^ 2 := by linarith
      have b2 : (2 / 10 ^ 5) ^ 2 * (4 / 1000) ≤ E ^ 2 * (43 / 200 - 1 / 6 - 43 / 2400 * E ^ 2) :=
        mul_le_mul a4 b1 (by norm_num) (by positivity)
      unfold eNear
      rw [mul_assoc]
      generalize E ^ 2 * (43 / 200 - 1 / 6 - 43 / 2400 * E ^ 2) = z at b2
      norm_num at b2 ⊢
      linarith
    unfold resid
    nlinarith
  · refine le_of_mul_le_mul_right ?_ g0
    rw [hw]
    have : 0 ≤ E ^ 3 := by positivity
    linarith

/-- From `E` on, the iterates shrink by no more than 0.57 each. -/
theorem iterate_near {E c : ℝ} (n : ℕ) (h0 : c ≤ E) (h1 : E ≤ 15708 / 10000) (hc : 2 / 10 ^ 5 ≤ (57 / 100) ^ n * c)
    (hc0 : 0 ≤ c) :
    (57 / 100) ^ n * c ≤ (newt eNear 0)^[n] E ∧ (newt eNear 0)^[n] E ≤ 15708 / 10000 := by
  induction n with
  | zero => simpa using ⟨h0, h1⟩
  | succ n ih =>
    have hn : (57 / 100 : ℝ) ^ (n + 1) * c ≤ (57 / 100) ^ n * c := by
      rw [pow_succ]
      have : 0 ≤ (57 / 100 : ℝ) ^ n * c := by positivity
      linarith
    obtain ⟨a, b⟩ := ih (hc.trans hn)
    obtain ⟨s1, s2⟩ := newt_near ((hc.trans hn).trans a) b
    rw [Function.iterate_succ_apply']
    refine ⟨?_, s2.trans b⟩
    rw [pow_succ]
    linarith

theorem arg02pi_zero : arg02pi 0 = 0 := by
  have : fmod 0 (2 * π) = 0 := by simp [fmod]
  unfold arg02pi
  rw [this]
  simp

/-- **C139** Close to 1 both functions stop after twenty iterations and report failure, at the tolerance they have by
default and at all smaller ones: eccentricity `1 - 10⁻¹³`, mean anomaly 0. -/
theorem gives_up_counterexample : ∃ e M : ℝ, 0 ≤ e ∧ e < 1 ∧ ∀ tol, tol ≤ 100 / 2 ^ 52 →
    (kepler e M tol).2 = 1 ∧ (keplerVallado e M tol).2 = 1 := by
  have e0 : 0 ≤ eNear := by unfold eNear; norm_num
  have e1 : eNear < 1 := by unfold eNear; norm_num
  have p1 := pi_gt_d4
  have p2 := pi_lt_d4
  refine ⟨eNear, 0, e0, e1, fun tol htol => ⟨?_, ?_⟩⟩
  · unfold kepler
    simp only [arg02pi_zero]
    rw [if_neg (show ¬ eNear < 8 / 10 by unfold eNear; norm_num)]
    rw [keplerLoop_fail eNear 0 tol maxIt π 0 (by simp) (by decide), if_pos le_rfl]
    intro i hi
    simp only [maxIt] at hi
    cases i with
    | zero =>
      show tol < |resid eNear 0 π|
      unfold resid
      rw [sin_pi, mul_zero, sub_zero, sub_zero, abs_of_pos pi_pos]
      refine htol.trans_lt ?_
      norm_num
      linarith
    | succ n =>
      rw [Function.iterate_succ_apply]
      have hfirst : newt eNear 0 π = π * (eNear / (1 + eNear)) := by
        unfold newt resid
        rw [sin_pi, cos_pi, show 1 - eNear * -1 = 1 + eNear by ring]
        have : 1 + eNear ≠ 0 := by linarith
        field_simp
        ring
      have hq : (157 / 100 : ℝ) / (31415 / 10000) ≤ eNear / (1 + eNear) ∧ eNear / (1 + eNear) ≤ 1 / 2 := by
        unfold eNear
        norm_num
      have hlo : (157 / 100 : ℝ) ≤ newt eNear 0 π := by
        rw [hfirst]
        have := mul_le_mul p1.le hq.1 (by norm_num) pi_pos.le
        norm_num at this
        linarith
      have hhi : newt eNear 0 π ≤ 15708 / 10000 := by
        rw [hfirst]
        have := mul_le_mul_of_nonneg_left hq.2 pi_pos.le
        linarith
      have hpow : (57 / 100 : ℝ) ^ 18 ≤ (57 / 100) ^ n := pow_le_pow_of_le_one (by norm_num) (by norm_num) (by omega)
      have hc : (63 / 10 ^ 6 : ℝ) ≤ (57 / 100) ^ n * (157 / 100) := by
        have : (63 / 10 ^ 6 : ℝ) ≤ (57 / 100) ^ 18 * (157 / 100) := by norm_num
        nlinarith
      obtain ⟨a, b⟩ := iterate_near n hlo hhi (le_trans (by norm_num) hc) (by norm_num)
      have hx := hc.trans a
      have hx0 : (0 : ℝ) ≤ (newt eNear 0)^[n] (newt eNear 0 π) := le_trans (by norm_num) hx
      have hr := resid_near hx0 b
      have h3 := pow_le_pow_left₀ (by norm_num) hx 3
      refine lt_of_lt_of_le ?_ (le_abs_self _)
      refine lt_of_le_of_lt htol (lt_of_lt_of_le ?_ hr)
      have : (100 : ℝ) / 2 ^ 52 < (63 / 10 ^ 6) ^ 3 / 7 := by norm_num
      linarith
  · unfold keplerVallado
    simp only [arg02pi_zero]
    rw [if_neg (show ¬ ((0 : ℝ) > -π ∧ (0 : ℝ) < 0 ∨ (0 : ℝ) > π) by
      rintro (h | h)
      · exact lt_irrefl _ h.2
      · linarith), zero_add]
    rw [valladoLoop_fail eNear 0 tol maxIt eNear 0 (by simp) (by decide), if_pos le_rfl]
    intro n hn
    simp only [maxIt] at hn
    have hpow : (57 / 100 : ℝ) ^ 19 ≤ (57 / 100) ^ n := pow_le_pow_of_le_one (by norm_num) (by norm_num) (by omega)
    have hc : (2 / 10 ^ 5 : ℝ) ≤ (57 / 100) ^ n * (99 / 100) := by
      have : (2 / 10 ^ 5 : ℝ) ≤ (57 / 100) ^ 19 * (99 / 100) := by norm_num
      nlinarith
    obtain ⟨a, b⟩ := iterate_near (E := eNear) n (c := 99 / 100) (by unfold eNear; norm_num)
      (by unfold eNear; norm_num) hc (by norm_num)
    rw [Function.iterate_succ_apply']
    have hx := hc.trans a
    generalize (newt eNear 0)^[n] eNear = x at a b hx
    have hx0 : 0 ≤ x := le_trans (by norm_num) hx
    have hr := resid_near hx0 b
    obtain ⟨g0, g1⟩ := slope_near x
    unfold newt
    rw [sub_sub_cancel]
    refine lt_of_lt_of_le ?_ (le_abs_self _)
    rw [lt_div_iff₀ g0]
    refine lt_of_lt_of_le ?_ hr
    have h2 : (2 / 10 ^ 5 : ℝ) ^ 2 ≤ x ^ 2 := pow_le_pow_left₀ (by norm_num) hx 2
    have h3 : x ^ 2 * (2 / 10 ^ 5) ≤ x ^ 2 * x := mul_le_mul_of_nonneg_left hx (by positivity)
    have h4 : tol * (1 - eNear * cos x) ≤ 100 / 2 ^ 52 * (x ^ 2 / 2 + 1 / 10 ^ 13) :=
      (mul_le_mul_of_nonneg_right htol g0.le).trans (mul_le_mul_of_nonneg_left g1 (by norm_num))
    have h5 : x ^ 2 * x = x ^ 3 := by ring
    norm_num at h2 h4
    linarith

end Verif.Astro
