import Verif.Float.KeplerModel
import Verif.Astro.KeplerPerturb
import Mathlib.Analysis.Real.Pi.Bounds

/-
Rounding errors of the solvers of Kepler's equation: lemmas for C140.
-/
namespace Verif.Float

open Real
open Verif.Astro (resid newt maxIt one_sub_ecos InR Pert Settled)

variable {rnd sn cs : ℝ → ℝ} {fused : Bool}

/-! ### π and 2π -/

/-- The double nearest to π. -/
theorem rnd_pi (hr : Nearest rnd) : rnd π = 7074237752028440 / 2 ^ 51 := by
  have h1 := pi_gt_d20
  have h2 := pi_lt_d20
  have := hr.eq_of_close (x := π) 7074237752028440 (-51) (by norm_num) (by norm_num) (by norm_num) (by
    rw [abs_lt]
    constructor
    · norm_num at *
      linarith
    · norm_num at *
      linarith)
  rw [this]
  norm_num

theorem rnd_two_pi (hr : Nearest rnd) : rnd (2 * π) = 7074237752028440 / 2 ^ 50 := by
  have h1 := pi_gt_d20
  have h2 := pi_lt_d20
  have := hr.eq_of_close (x := 2 * π) 7074237752028440 (-50) (by norm_num) (by norm_num) (by norm_num) (by
    rw [abs_lt]
    constructor
    · norm_num at *
      linarith
    · norm_num at *
      linarith)
  rw [this]
  norm_num

theorem rnd_pi_err (hr : Nearest rnd) : rnd π ≤ π ∧ π - rnd π ≤ 1.25 / 10 ^ 16 := by
  have h1 := pi_gt_d20
  have h2 := pi_lt_d20
  rw [rnd_pi hr]
  constructor
  · norm_num at *
    linarith
  · norm_num at *
    linarith

theorem rnd_two_pi_err (hr : Nearest rnd) : rnd (2 * π) ≤ 2 * π ∧ 2 * π - rnd (2 * π) ≤ 2.5 / 10 ^ 16 := by
  have h1 := pi_gt_d20
  have h2 := pi_lt_d20
  rw [rnd_two_pi hr]
  constructor
  · norm_num at *
    linarith
  · norm_num at *
    linarith

/-- No double lies between the rounded π and π. -/
theorem gt_pi_of_gt (hr : Nearest rnd) {m : ℝ} (hm : IsDouble m) (h : rnd π < m) : π < m := by
  by_contra hc
  rw [not_lt] at hc
  have := hr.near π m hm
  rw [abs_of_nonpos (by linarith [(rnd_pi_err hr).1]), abs_of_nonpos (by linarith)] at this
  linarith

/-! ### `fmod` -/

/-- The integer of `fmod`. -/
noncomputable def truncQ (x y : ℝ) : ℤ := if 0 ≤ x / y then ⌊x / y⌋ else ⌈x / y⌉

theorem fmod_eq (x y : ℝ) : Verif.Astro.fmod x y = x - y * (truncQ x y : ℤ) := by
  unfold Verif.Astro.fmod truncQ
  split <;> rfl

theorem truncQ_spec {x y : ℝ} (hy : 0 < y) :
    |Verif.Astro.fmod x y| < y ∧ |Verif.Astro.fmod x y| ≤ |x| ∧ |(truncQ x y : ℝ)| ≤ |x| / y ∧
      (0 ≤ x → 0 ≤ Verif.Astro.fmod x y) ∧ (x ≤ 0 → Verif.Astro.fmod x y ≤ 0 ∧ (truncQ x y : ℝ) ≤ 0) := by
  rw [fmod_eq]
  have hxy : x = y * (x / y) := by field_simp
  generalize hq : x / y = q at *
  have ht : truncQ x y = if 0 ≤ q then ⌊q⌋ else ⌈q⌉ := by unfold truncQ; rw [hq]
  have hax : |x| = y * |q| := by rw [hxy, abs_mul, abs_of_pos hy]
  rw [show |x| / y = |q| by rw [hax]; field_simp]
  rcases le_or_gt 0 q with h | h
  · rw [if_pos h] at ht
    have f1 := Int.floor_le q
    have f2 := Int.lt_floor_add_one q
    have f3 : (0 : ℝ) ≤ (⌊q⌋ : ℝ) := by exact_mod_cast Int.floor_nonneg.mpr h
    rw [ht]
    have hx0 : 0 ≤ x := by rw [hxy]; positivity
    have e1 : x - y * (⌊q⌋ : ℝ) = y * (q - ⌊q⌋) := by rw [mul_sub, ← hxy]
    have e2 : 0 ≤ y * (q - ⌊q⌋) := mul_nonneg hy.le (by linarith)
    rw [e1, abs_of_nonneg e2, hax, abs_of_nonneg h, abs_of_nonneg f3]
    refine ⟨?_, ?_, f1, fun _ => e2, fun hx => ?_⟩
    · nlinarith
    · nlinarith
    · have : q = 0 := by nlinarith
      rw [this]
      simp
  · rw [if_neg (not_le.mpr h)] at ht
    have f1 := Int.le_ceil q
    have f2 := Int.ceil_lt_add_one q
    have f3 : (⌈q⌉ : ℝ) ≤ 0 := by exact_mod_cast Int.ceil_nonpos.mpr h.le
    rw [ht]
    have e1 : x - y * (⌈q⌉ : ℝ) = y * (q - ⌈q⌉) := by rw [mul_sub, ← hxy]
    have e2 : y * (q - ⌈q⌉) ≤ 0 := mul_nonpos_of_nonneg_of_nonpos hy.le (by linarith)
    rw [e1, abs_of_nonpos e2, hax, abs_of_neg h, abs_of_nonpos f3]
    refine ⟨?_, ?_, by linarith, fun hx => ?_, fun _ => ⟨e2, f3⟩⟩
    · nlinarith
    · nlinarith
    · nlinarith

/-- The remainder of two doubles is a double. -/
theorem fmod_isDouble {x y : ℝ} (hx : IsDouble x) (hy : IsDouble y) (h0 : 0 < y) : IsDouble (Verif.Astro.fmod x y) := by
  obtain ⟨s1, s2, -⟩ := truncQ_spec (x := x) h0
  rw [fmod_eq] at *
  obtain ⟨a, i, ha, hi, rfl⟩ := hx
  obtain ⟨b, j, hb, hj, rfl⟩ := hy
  generalize truncQ _ _ = n at *
  rcases le_total i j with hij | hij
  · obtain ⟨k, hk⟩ := Int.le.dest hij
    have hp : (2 : ℝ) ^ j = 2 ^ i * 2 ^ k := by rw [← hk, zpow_add₀ (by norm_num)]; norm_cast
    refine isDouble_multiple (a - b * 2 ^ k * n) i hi (by rw [hp]; push_cast; ring) (s2.trans ?_)
    rw [abs_mul, abs_of_pos (show (0:ℝ) < 2 ^ i by positivity), zpow_add₀ (by norm_num), mul_comm]
    apply mul_le_mul_of_nonneg_left _ (by positivity)
    rw [← Int.cast_abs]
    exact (Int.cast_le.mpr ha.le).trans (le_of_eq (by norm_num))
  · obtain ⟨k, hk⟩ := Int.le.dest hij
    have hp : (2 : ℝ) ^ i = 2 ^ j * 2 ^ k := by rw [← hk, zpow_add₀ (by norm_num)]; norm_cast
    refine isDouble_multiple (a * 2 ^ k - b * n) j hj (by rw [hp]; push_cast; ring) (s1.le.trans ?_)
    rw [zpow_add₀ (by norm_num), mul_comm]
    apply mul_le_mul_of_nonneg_left _ (by positivity)
    exact (Int.cast_le.mpr ((le_abs_self b).trans hb.le)).trans (le_of_eq (by norm_num))

/-- `arg02pi`: the result is on the revolution and differs from the angle by whole turns, up to rounding. -/
theorem arg02piD_spec (hr : Nearest rnd) {a : ℝ} (ha : IsDouble a) :
    0 ≤ arg02piD rnd a ∧ arg02piD rnd a ≤ 2 * π ∧ IsDouble (arg02piD rnd a) ∧
      ∃ k : ℤ, |(k : ℝ)| ≤ |a| / 6 + 1 ∧ |arg02piD rnd a - (a - 2 * π * k)| ≤ 4.5 / 10 ^ 16 + 2.5 / 10 ^ 16 * |(k : ℝ)| := by
  obtain ⟨t1, t2⟩ := rnd_two_pi_err hr
  have hd := hr.mem (2 * π)
  have h6 : 6 ≤ rnd (2 * π) := by rw [rnd_two_pi hr]; norm_num
  have h8 : rnd (2 * π) ≤ 8 := by rw [rnd_two_pi hr]; norm_num
  obtain ⟨s1, s2, s3, s4, s5⟩ := truncQ_spec (x := a) (y := rnd (2 * π)) (by linarith)
  have hdt := fmod_isDouble ha hd (by linarith)
  have hq : |a| / rnd (2 * π) ≤ |a| / 6 := by gcongr
  have hk : ∀ n : ℤ, |(2 * π - rnd (2 * π)) * n| ≤ 2.5 / 10 ^ 16 * |(n : ℝ)| := by
    intro n
    rw [abs_mul, abs_of_nonneg (by linarith)]
    exact mul_le_mul_of_nonneg_right t2 (abs_nonneg _)
  unfold arg02piD
  simp only
  have hf := fmod_eq a (rnd (2 * π))
  generalize Verif.Astro.fmod a (rnd (2 * π)) = t at *
  generalize truncQ a (rnd (2 * π)) = n at *
  generalize rnd (2 * π) = y at *
  have s1' := abs_lt.mp s1
  by_cases h : t < 0
  · rw [if_pos h]
    have herr := hr.err (x := t + y) (-50) (by norm_num) (by rw [abs_of_nonneg (by linarith)]; norm_num; linarith)
    refine ⟨hr.nonneg (by linarith), (hr.le_of_le hd (by linarith)).trans t1, hr.mem _, n - 1, ?_, ?_⟩
    · have := abs_sub (n : ℝ) 1
      push_cast
      rw [abs_one] at this
      linarith
    · have := hk (n - 1)
      have e1 : rnd (t + y) - (a - 2 * π * ((n - 1 : ℤ) : ℝ)) = (rnd (t + y) - (t + y)) + (2 * π - y) * ((n - 1 : ℤ) : ℝ) := by
        rw [hf]; push_cast; ring
      rw [e1]
      refine (abs_add_le _ _).trans (add_le_add (herr.trans ?_) this)
      norm_num
  · rw [if_neg h]
    refine ⟨not_lt.mp h, by linarith, hdt, n, by linarith, ?_⟩
    have e1 : t - (a - 2 * π * (n : ℝ)) = (2 * π - y) * (n : ℝ) := by rw [hf]; ring
    rw [e1]
    have := hk n
    have : (0 : ℝ) ≤ 4.5 / 10 ^ 16 := by norm_num
    linarith [hk n]

/-- Angles of the first revolution are left alone. -/
theorem arg02piD_id {a : ℝ} (h0 : 0 ≤ a) (h1 : a < rnd (2 * π)) : arg02piD rnd a = a := by
  have hf : Verif.Astro.fmod a (rnd (2 * π)) = a := by
    have hq : 0 ≤ a / rnd (2 * π) := div_nonneg h0 (by linarith)
    rw [fmod_eq]
    unfold truncQ
    rw [if_pos hq, Int.floor_eq_zero_iff.mpr ⟨hq, (div_lt_one (by linarith)).mpr h1⟩]
    simp
  unfold arg02piD
  simp only
  rw [hf, if_neg (not_lt.mpr h0)]

/-! ### One step -/

theorem round_err (hr : Nearest rnd) {x : ℝ} (k : ℤ) (hk : -1021 ≤ k) (hx : |x| ≤ 2 ^ k) :
    |rnd x - x| ≤ 2 ^ (k - 54) := by
  have := hr.err (x := x) (k - 53) (by omega) (by rwa [show k - 53 + 53 = k by ring])
  rwa [show (2 : ℝ) ^ (k - 53) / 2 = 2 ^ (k - 54) by
    rw [show k - 53 = k - 54 + 1 by ring, zpow_add₀ (by norm_num)]; norm_num] at this

theorem mulR_err (hr : Nearest rnd) {x : ℝ} (hx : |x| ≤ 1) : |mulR rnd fused x - x| ≤ 2 ^ (-54 : ℤ) := by
  unfold mulR
  split
  · rw [sub_self, abs_zero]
    positivity
  · have := round_err hr (x := x) 0 (by norm_num) (by simpa using hx)
    simpa using this

/-- A product with the computed sine or cosine. -/
theorem prod_err (hr : Nearest rnd) {e s t : ℝ} (h0 : 0 ≤ e) (h1 : e ≤ 17 / 20) (ht : |t| ≤ 1)
    (hs : |s - t| ≤ 2 ^ (-53 : ℤ)) : |mulR rnd fused (e * s) - e * t| ≤ 1.52 / 10 ^ 16 := by
  have a1 : |e * s - e * t| ≤ 0.95 / 10 ^ 16 := by
    rw [← mul_sub, abs_mul, abs_of_nonneg h0]
    exact (mul_le_mul h1 hs (abs_nonneg _) (by norm_num)).trans (by norm_num)
  have a2 : |e * s| ≤ 1 := by
    have := abs_sub_abs_le_abs_sub (e * s) (e * t)
    have b1 : |e * t| ≤ 17 / 20 := by
      rw [abs_mul, abs_of_nonneg h0]
      nlinarith [abs_nonneg t]
    have : (0.95 : ℝ) / 10 ^ 16 ≤ 1 / 20 := by norm_num
    linarith
  have a3 := (mulR_err (fused := fused) hr a2).trans (show (2 : ℝ) ^ (-54 : ℤ) ≤ 0.56 / 10 ^ 16 by norm_num)
  have a4 := abs_sub_le (mulR rnd fused (e * s)) (e * s) (e * t)
  have : (0.56 : ℝ) / 10 ^ 16 + 0.95 / 10 ^ 16 ≤ 1.52 / 10 ^ 16 := by norm_num
  linarith

theorem denD_err (hr : Nearest rnd) (hl : LibM sn cs) {e : ℝ} (h0 : 0 ≤ e) (h1 : e ≤ 17 / 20) (E : ℝ) :
    |denD rnd cs fused e E - (1 - e * cos E)| ≤ 3 / 10 ^ 16 := by
  have a1 := prod_err (fused := fused) hr h0 h1 (abs_cos_le_one E) (hl.cos_err E)
  obtain ⟨g1, g2⟩ := one_sub_ecos e E h0
  unfold denD
  generalize mulR rnd fused (e * cs E) = p at *
  have a1' := abs_le.mp a1
  have s : (1.52 : ℝ) / 10 ^ 16 ≤ 1 / 100 := by norm_num
  have a2 := round_err hr (x := 1 - p) 1 (by norm_num) (by
    rw [abs_le]; constructor <;> norm_num <;> linarith [a1'.1, a1'.2])
  have a3 := abs_sub_le (rnd (1 - p)) (1 - p) (1 - e * cos E)
  rw [show 1 - p - (1 - e * cos E) = -(p - e * cos E) by ring, abs_neg] at a3
  have a2' := a2.trans (show (2 : ℝ) ^ ((1 : ℤ) - 54) ≤ 1.2 / 10 ^ 16 by norm_num)
  have : (1.2 : ℝ) / 10 ^ 16 + 1.52 / 10 ^ 16 ≤ 3 / 10 ^ 16 := by norm_num
  linarith

/-- Errors of a quotient by the derivative. -/
theorem quot_err {F f G g a : ℝ} (hF : |F - f| ≤ a) (hG : |G - g| ≤ 3 / 10 ^ 16) (hg : 3 / 20 ≤ g) :
    |F / G - f / g| ≤ 6.7 * a + 2 / 10 ^ 14 * |f| := by
  have hG' := abs_le.mp hG
  have s : (3 : ℝ) / 10 ^ 16 ≤ 3 / 20 - 10 / 67 := by norm_num
  have G1 : 10 / 67 ≤ G := by linarith [hG'.1]
  have e1 : F / G - f / g = (F - f) / G + f * (g - G) / (G * g) := by
    field_simp
    ring
  rw [e1]
  refine (abs_add_le _ _).trans (add_le_add ?_ ?_)
  · rw [abs_div, abs_of_pos (by linarith : (0:ℝ) < G), div_le_iff₀ (by linarith)]
    have : 0 ≤ a := (abs_nonneg _).trans hF
    nlinarith
  · have hp : (10 : ℝ) / 67 * (3 / 20) ≤ G * g := mul_le_mul G1 hg (by norm_num) (by linarith)
    rw [abs_div, abs_mul, abs_of_pos (by nlinarith : (0:ℝ) < G * g), div_le_iff₀ (by nlinarith), abs_sub_comm]
    have b1 : |f| * |G - g| ≤ |f| * (3 / 10 ^ 16) := mul_le_mul_of_nonneg_left hG (abs_nonneg _)
    have b2 : 2 / 10 ^ 14 * |f| * (10 / 67 * (3 / 20)) ≤ 2 / 10 ^ 14 * |f| * (G * g) :=
      mul_le_mul_of_nonneg_left hp (by positivity)
    have := abs_nonneg f
    nlinarith

/-- The correction of the method, far from the solution. -/
theorem quot_coarse (hr : Nearest rnd) {F f G g : ℝ} (hF : |F - f| ≤ 2 / 10 ^ 15) (hG : |G - g| ≤ 3 / 10 ^ 16)
    (hg : 3 / 20 ≤ g) (hf : |f| ≤ 6) : |rnd (F / G) - f / g| ≤ 2 / 10 ^ 13 ∧ |f / g| ≤ 40 := by
  have a1 := quot_err hF hG hg
  have a2 : |f / g| ≤ 40 := by
    rw [abs_div, abs_of_pos (by linarith : (0:ℝ) < g), div_le_iff₀ (by linarith)]
    linarith
  have a3 : |F / G| ≤ 64 := by
    have := abs_sub_abs_le_abs_sub (F / G) (f / g)
    have s : (6.7 : ℝ) * (2 / 10 ^ 15) + 2 / 10 ^ 14 * 6 ≤ 24 := by norm_num
    have : 2 / 10 ^ 14 * |f| ≤ 2 / 10 ^ 14 * 6 := mul_le_mul_of_nonneg_left hf (by norm_num)
    linarith
  have a4 := round_err hr (x := F / G) 6 (by norm_num) (by norm_num; exact a3)
  have a5 := abs_sub_le (rnd (F / G)) (F / G) (f / g)
  have s1 : (2 : ℝ) ^ ((6 : ℤ) - 54) + (6.7 * (2 / 10 ^ 15) + 2 / 10 ^ 14 * 6) ≤ 2 / 10 ^ 13 := by norm_num
  have s2 : 2 / 10 ^ 14 * |f| ≤ 2 / 10 ^ 14 * 6 := mul_le_mul_of_nonneg_left hf (by norm_num)
  exact ⟨by linarith, a2⟩

/-- The correction of the method, close to the solution. -/
theorem quot_fine (hr : Nearest rnd) {F f G g : ℝ} (hF : |F - f| ≤ 6 / 10 ^ 16) (hG : |G - g| ≤ 3 / 10 ^ 16)
    (hg : 3 / 20 ≤ g) (hf : |f| ≤ 1 / 10 ^ 9) : |rnd (F / G) - f / g| ≤ 4.1 / 10 ^ 15 ∧ |f / g| ≤ 1 / 10 ^ 8 := by
  have a1 := quot_err hF hG hg
  have a2 : |f / g| ≤ 1 / 10 ^ 8 := by
    rw [abs_div, abs_of_pos (by linarith : (0:ℝ) < g), div_le_iff₀ (by linarith)]
    have : (1 : ℝ) / 10 ^ 9 ≤ 1 / 10 ^ 8 * (3 / 20) := by norm_num
    nlinarith
  have s2 : 2 / 10 ^ 14 * |f| ≤ 2 / 10 ^ 14 * (1 / 10 ^ 9) := mul_le_mul_of_nonneg_left hf (by norm_num)
  have a3 : |F / G| ≤ 2 ^ (-10 : ℤ) := by
    have := abs_sub_abs_le_abs_sub (F / G) (f / g)
    have s : (6.7 : ℝ) * (6 / 10 ^ 16) + 2 / 10 ^ 14 * (1 / 10 ^ 9) + 1 / 10 ^ 8 ≤ 2 ^ (-10 : ℤ) := by norm_num
    linarith
  have a4 := round_err hr (x := F / G) (-10) (by norm_num) a3
  have a5 := abs_sub_le (rnd (F / G)) (F / G) (f / g)
  have s1 : (2 : ℝ) ^ ((-10 : ℤ) - 54) + (6.7 * (6 / 10 ^ 16) + 2 / 10 ^ 14 * (1 / 10 ^ 9)) ≤ 4.1 / 10 ^ 15 := by norm_num
  exact ⟨by linarith, a2⟩

theorem abs_E {E : ℝ} (hE : -1 ≤ E) (hE' : E ≤ 2 * π + 1) : |E| ≤ 7.3 := by
  have := pi_lt_d4
  rw [abs_le]
  constructor <;> linarith

/-- `f` of `kepler`. -/
theorem residD_coarse (hr : Nearest rnd) (hl : LibM sn cs) {e M E : ℝ} (h0 : 0 ≤ e) (h1 : e ≤ 17 / 20) (h : InR e M E) :
    |residD rnd sn fused e M E - resid e M E| ≤ 2 / 10 ^ 15 := by
  obtain ⟨hE, hE', hf⟩ := h
  have b := abs_le.mp (abs_E hE hE')
  have a1 := prod_err (fused := fused) hr h0 h1 (abs_sin_le_one E) (hl.sin_err E)
  have hs : |e * sin E| ≤ 17 / 20 := by
    rw [abs_mul, abs_of_nonneg h0]
    nlinarith [abs_sin_le_one E, abs_nonneg (sin E)]
  unfold resid at *
  unfold residD
  generalize mulR rnd fused (e * sn E) = p at *
  generalize e * sin E = q at *
  have a1' := abs_le.mp a1
  have hs' := abs_le.mp hs
  have hf' := abs_le.mp hf
  have s : (1.52 : ℝ) / 10 ^ 16 ≤ 1 / 100 := by norm_num
  have a2 := round_err hr (x := E - p) 4 (by norm_num) (by
    rw [abs_le]; constructor <;> norm_num <;> linarith [a1'.1, a1'.2, b.1, b.2, hs'.1, hs'.2])
  have s2 : (2 : ℝ) ^ ((4 : ℤ) - 54) ≤ 9 / 10 ^ 16 := by norm_num
  have s3 : (9 : ℝ) / 10 ^ 16 ≤ 1 / 100 := by norm_num
  have a2' := abs_le.mp (a2.trans s2)
  have a3 := round_err hr (x := rnd (E - p) - M) 3 (by norm_num) (by
    rw [abs_le]; constructor <;> norm_num <;> linarith [a1'.1, a1'.2, a2'.1, a2'.2, hf'.1, hf'.2])
  have s4 : (2 : ℝ) ^ ((3 : ℤ) - 54) ≤ 4.5 / 10 ^ 16 := by norm_num
  have a3' := abs_le.mp (a3.trans s4)
  have s5 : (9 : ℝ) / 10 ^ 16 + 4.5 / 10 ^ 16 + 1.52 / 10 ^ 16 ≤ 2 / 10 ^ 15 := by norm_num
  rw [abs_le]
  constructor <;> linarith [a1'.1, a1'.2, a2'.1, a2'.2, a3'.1, a3'.2]

theorem residD_fine (hr : Nearest rnd) (hl : LibM sn cs) {e M E : ℝ} (h0 : 0 ≤ e) (h1 : e ≤ 17 / 20) (hM : 0 ≤ M)
    (hM' : M ≤ 2 * π) (hf : |resid e M E| ≤ 1 / 10 ^ 9) :
    |residD rnd sn fused e M E - resid e M E| ≤ 6 / 10 ^ 16 := by
  have pi2 := pi_lt_d4
  have a1 := prod_err (fused := fused) hr h0 h1 (abs_sin_le_one E) (hl.sin_err E)
  unfold resid at *
  unfold residD
  generalize mulR rnd fused (e * sn E) = p at *
  generalize e * sin E = q at *
  have a1' := abs_le.mp a1
  have hf' := abs_le.mp hf
  have s : (1.52 : ℝ) / 10 ^ 16 ≤ 1 / 10 ^ 9 := by norm_num
  have s0 : (1 : ℝ) / 10 ^ 9 ≤ 1 / 10000 := by norm_num
  have a2 := round_err hr (x := E - p) 3 (by norm_num) (by
    rw [abs_le]; constructor <;> norm_num <;> linarith [a1'.1, a1'.2, hf'.1, hf'.2])
  have s2 : (2 : ℝ) ^ ((3 : ℤ) - 54) ≤ 4.45 / 10 ^ 16 := by norm_num
  have s3 : (4.45 : ℝ) / 10 ^ 16 ≤ 1 / 10 ^ 9 := by norm_num
  have a2' := abs_le.mp (a2.trans s2)
  have s6 : (3 : ℝ) * (1 / 10 ^ 9) ≤ 2 ^ (-10 : ℤ) := by norm_num
  have a3 := round_err hr (x := rnd (E - p) - M) (-10) (by norm_num) (by
    refine le_trans ?_ s6
    rw [abs_le]; constructor <;> linarith [a1'.1, a1'.2, a2'.1, a2'.2, hf'.1, hf'.2])
  have s4 : (2 : ℝ) ^ ((-10 : ℤ) - 54) ≤ 0.01 / 10 ^ 16 := by norm_num
  have a3' := abs_le.mp (a3.trans s4)
  have s5 : (4.45 : ℝ) / 10 ^ 16 + 0.01 / 10 ^ 16 + 1.52 / 10 ^ 16 ≤ 6 / 10 ^ 16 := by norm_num
  rw [abs_le]
  constructor <;> linarith [a1'.1, a1'.2, a2'.1, a2'.2, a3'.1, a3'.2]

/-- The numerator of `kepler_vallado`. -/
noncomputable def numV (rnd sn : ℝ → ℝ) (fused : Bool) (e M E : ℝ) : ℝ :=
  rnd (rnd (M - E) + mulR rnd fused (e * sn E))

theorem numV_coarse (hr : Nearest rnd) (hl : LibM sn cs) {e M E : ℝ} (h0 : 0 ≤ e) (h1 : e ≤ 17 / 20) (h : InR e M E) :
    |numV rnd sn fused e M E - -resid e M E| ≤ 2 / 10 ^ 15 := by
  obtain ⟨hE, hE', hf⟩ := h
  have a1 := prod_err (fused := fused) hr h0 h1 (abs_sin_le_one E) (hl.sin_err E)
  have hs : |e * sin E| ≤ 17 / 20 := by
    rw [abs_mul, abs_of_nonneg h0]
    nlinarith [abs_sin_le_one E, abs_nonneg (sin E)]
  unfold resid at *
  unfold numV
  generalize mulR rnd fused (e * sn E) = p at *
  generalize e * sin E = q at *
  have a1' := abs_le.mp a1
  have hs' := abs_le.mp hs
  have hf' := abs_le.mp hf
  have s : (1.52 : ℝ) / 10 ^ 16 ≤ 1 / 100 := by norm_num
  have a2 := round_err hr (x := M - E) 3 (by norm_num) (by
    rw [abs_le]; constructor <;> norm_num <;> linarith [hf'.1, hf'.2, hs'.1, hs'.2])
  have s2 : (2 : ℝ) ^ ((3 : ℤ) - 54) ≤ 4.5 / 10 ^ 16 := by norm_num
  have s3 : (4.5 : ℝ) / 10 ^ 16 ≤ 1 / 100 := by norm_num
  have a2' := abs_le.mp (a2.trans s2)
  have a3 := round_err hr (x := rnd (M - E) + p) 3 (by norm_num) (by
    rw [abs_le]; constructor <;> norm_num <;> linarith [a1'.1, a1'.2, a2'.1, a2'.2, hf'.1, hf'.2])
  have a3' := abs_le.mp (a3.trans s2)
  have s5 : (4.5 : ℝ) / 10 ^ 16 + 4.5 / 10 ^ 16 + 1.52 / 10 ^ 16 ≤ 2 / 10 ^ 15 := by norm_num
  rw [abs_le]
  constructor <;> linarith [a1'.1, a1'.2, a2'.1, a2'.2, a3'.1, a3'.2]

theorem numV_fine (hr : Nearest rnd) (hl : LibM sn cs) {e M E : ℝ} (h0 : 0 ≤ e) (h1 : e ≤ 17 / 20)
    (hf : |resid e M E| ≤ 1 / 10 ^ 9) : |numV rnd sn fused e M E - -resid e M E| ≤ 6 / 10 ^ 16 := by
  have a1 := prod_err (fused := fused) hr h0 h1 (abs_sin_le_one E) (hl.sin_err E)
  have hs : |e * sin E| ≤ 17 / 20 := by
    rw [abs_mul, abs_of_nonneg h0]
    nlinarith [abs_sin_le_one E, abs_nonneg (sin E)]
  unfold resid at *
  unfold numV
  generalize mulR rnd fused (e * sn E) = p at *
  generalize e * sin E = q at *
  have a1' := abs_le.mp a1
  have hs' := abs_le.mp hs
  have hf' := abs_le.mp hf
  have s : (1.52 : ℝ) / 10 ^ 16 ≤ 1 / 10 ^ 9 := by norm_num
  have s0 : (1 : ℝ) / 10 ^ 9 ≤ 1 / 10000 := by norm_num
  have a2 := round_err hr (x := M - E) 0 (by norm_num) (by
    rw [abs_le]; constructor <;> norm_num <;> linarith [hf'.1, hf'.2, hs'.1, hs'.2])
  have s2 : (2 : ℝ) ^ ((0 : ℤ) - 54) ≤ 0.6 / 10 ^ 16 := by norm_num
  have s3 : (0.6 : ℝ) / 10 ^ 16 ≤ 1 / 10 ^ 9 := by norm_num
  have a2' := abs_le.mp (a2.trans s2)
  have s6 : (3 : ℝ) * (1 / 10 ^ 9) ≤ 2 ^ (-10 : ℤ) := by norm_num
  have a3 := round_err hr (x := rnd (M - E) + p) (-10) (by norm_num) (by
    refine le_trans ?_ s6
    rw [abs_le]; constructor <;> linarith [a1'.1, a1'.2, a2'.1, a2'.2, hf'.1, hf'.2])
  have s4 : (2 : ℝ) ^ ((-10 : ℤ) - 54) ≤ 0.01 / 10 ^ 16 := by norm_num
  have a3' := abs_le.mp (a3.trans s4)
  have s5 : (0.6 : ℝ) / 10 ^ 16 + 0.01 / 10 ^ 16 + 1.52 / 10 ^ 16 ≤ 6 / 10 ^ 16 := by norm_num
  rw [abs_le]
  constructor <;> linarith [a1'.1, a1'.2, a2'.1, a2'.2, a3'.1, a3'.2]

/-- The sum of the value and the correction. -/
theorem sum_coarse (hr : Nearest rnd) {E Q q : ℝ} (hE : |E| ≤ 7.3) (hQ : |Q - q| ≤ 2 / 10 ^ 13) (hq : |q| ≤ 40) :
    |rnd (E - Q) - (E - q)| ≤ 4 / 10 ^ 13 := by
  have b := abs_le.mp hE
  have c := abs_le.mp hQ
  have d := abs_le.mp hq
  have s : (2 : ℝ) / 10 ^ 13 ≤ 1 / 100 := by norm_num
  have a2 := round_err hr (x := E - Q) 6 (by norm_num) (by
    rw [abs_le]; constructor <;> norm_num <;> linarith [b.1, b.2, c.1, c.2, d.1, d.2])
  have s2 : (2 : ℝ) ^ ((6 : ℤ) - 54) ≤ 2 / 10 ^ 13 := by norm_num
  have a2' := abs_le.mp (a2.trans s2)
  rw [abs_le]
  constructor <;> linarith [a2'.1, a2'.2, c.1, c.2]

theorem sum_fine (hr : Nearest rnd) {E Q q : ℝ} (hE : |E| ≤ 7.3) (hQ : |Q - q| ≤ 4.1 / 10 ^ 15) (hq : |q| ≤ 1 / 10 ^ 8) :
    |rnd (E - Q) - (E - q)| ≤ 5 / 10 ^ 15 := by
  have b := abs_le.mp hE
  have c := abs_le.mp hQ
  have d := abs_le.mp hq
  have s : (4.1 : ℝ) / 10 ^ 15 ≤ 1 / 100 := by norm_num
  have s' : (1 : ℝ) / 10 ^ 8 ≤ 1 / 100 := by norm_num
  have a2 := round_err hr (x := E - Q) 3 (by norm_num) (by
    rw [abs_le]; constructor <;> norm_num <;> linarith [b.1, b.2, c.1, c.2, d.1, d.2])
  have s2 : (2 : ℝ) ^ ((3 : ℤ) - 54) ≤ 9 / 10 ^ 16 := by norm_num
  have a2' := abs_le.mp (a2.trans s2)
  have s3 : (9 : ℝ) / 10 ^ 16 + 4.1 / 10 ^ 15 ≤ 5 / 10 ^ 15 := by norm_num
  rw [abs_le]
  constructor <;> linarith [a2'.1, a2'.2, c.1, c.2]

theorem stepK_coarse (hr : Nearest rnd) (hl : LibM sn cs) {e M E : ℝ} (h0 : 0 ≤ e) (h1 : e ≤ 17 / 20) (h : InR e M E) :
    |stepK rnd sn cs fused e M E - newt e M E| ≤ 4 / 10 ^ 13 := by
  obtain ⟨g1, -⟩ := one_sub_ecos e E h0
  obtain ⟨c1, c2⟩ := quot_coarse hr (residD_coarse (fused := fused) hr hl h0 h1 h) (denD_err (fused := fused) hr hl h0 h1 E)
    (by linarith) h.2.2
  exact sum_coarse hr (abs_E h.1 h.2.1) c1 c2

theorem stepV_coarse (hr : Nearest rnd) (hl : LibM sn cs) {e M E : ℝ} (h0 : 0 ≤ e) (h1 : e ≤ 17 / 20) (h : InR e M E) :
    |stepV rnd sn cs fused e M E - newt e M E| ≤ 4 / 10 ^ 13 := by
  obtain ⟨g1, -⟩ := one_sub_ecos e E h0
  obtain ⟨c1, c2⟩ := quot_coarse hr (numV_coarse (fused := fused) hr hl h0 h1 h) (denD_err (fused := fused) hr hl h0 h1 E)
    (by linarith) (by rw [abs_neg]; exact h.2.2)
  rw [← abs_neg, neg_sub, ← neg_sub_neg] at c1
  rw [neg_div, neg_neg] at c1
  rw [neg_div, abs_neg] at c2
  have := sum_coarse hr (abs_E h.1 h.2.1) (by rw [abs_sub_comm] at c1; rw [abs_sub_comm]; exact c1) c2
  rw [sub_neg_eq_add] at this
  exact this

theorem stepK_pert (hr : Nearest rnd) (hl : LibM sn cs) {e M : ℝ} (h0 : 0 ≤ e) (h1 : e ≤ 17 / 20) (hM : 0 ≤ M)
    (hM' : M ≤ 2 * π) (E : ℝ) : Pert e M (fun n => (stepK rnd sn cs fused e M)^[n] E) := by
  constructor
  · intro n ha hb hc
    simp only [Function.iterate_succ_apply']
    exact (stepK_coarse hr hl h0 h1 ⟨ha, hb, hc⟩).trans (by norm_num)
  · intro n ha hb hc
    simp only [Function.iterate_succ_apply'] at *
    generalize (stepK rnd sn cs fused e M)^[n] E = E at *
    obtain ⟨g1, -⟩ := one_sub_ecos e E h0
    obtain ⟨c1, c2⟩ := quot_fine hr (residD_fine (fused := fused) hr hl h0 h1 hM hM' hc)
      (denD_err (fused := fused) hr hl h0 h1 E) (by linarith) hc
    exact sum_fine hr (abs_E ha hb) c1 c2

theorem stepV_pert (hr : Nearest rnd) (hl : LibM sn cs) {e M : ℝ} (h0 : 0 ≤ e) (h1 : e ≤ 17 / 20) (E : ℝ) :
    Pert e M (fun n => (stepV rnd sn cs fused e M)^[n] E) := by
  constructor
  · intro n ha hb hc
    simp only [Function.iterate_succ_apply']
    exact (stepV_coarse hr hl h0 h1 ⟨ha, hb, hc⟩).trans (by norm_num)
  · intro n ha hb hc
    simp only [Function.iterate_succ_apply'] at *
    generalize (stepV rnd sn cs fused e M)^[n] E = E at *
    obtain ⟨g1, -⟩ := one_sub_ecos e E h0
    obtain ⟨c1, c2⟩ := quot_fine hr (numV_fine (fused := fused) hr hl h0 h1 hc)
      (denD_err (fused := fused) hr hl h0 h1 E) (by linarith) (by rw [abs_neg]; exact hc)
    have c3 : |-rnd (numV rnd sn fused e M E / denD rnd cs fused e E) - resid e M E / (1 - e * cos E)| ≤ 4.1 / 10 ^ 15 := by
      rw [neg_div] at c1
      rwa [show -rnd (numV rnd sn fused e M E / denD rnd cs fused e E) - resid e M E / (1 - e * cos E)
        = -(rnd (numV rnd sn fused e M E / denD rnd cs fused e E) - -(resid e M E / (1 - e * cos E))) by ring, abs_neg]
    rw [neg_div, abs_neg] at c2
    have := sum_fine hr (abs_E ha hb) c3 c2
    rw [sub_neg_eq_add] at this
    exact this

end Verif.Float
