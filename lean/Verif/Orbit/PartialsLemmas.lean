import Verif.Orbit.PartialsModel
import Verif.Orbit.KeplerDeriv
import Mathlib.Analysis.SpecialFunctions.Sqrt
import Mathlib.Analysis.Calculus.Deriv.Inv

/-
Derivatives of the perifocal coordinates and of the Gaussian vectors along a curve of elements.
-/
namespace Verif.Orbit

open Real Verif.Astro Filter Topology

variable {a e E : ℝ → ℝ} {s a' e' E' : ℝ}

theorem fac_deriv (he : HasDerivAt e e' s) (h0 : 0 ≤ e s) (h1 : e s < 1) :
    HasDerivAt (fun t => √((1 - e t) * (1 + e t))) (-(e s * e') / √((1 - e s) * (1 + e s))) s := by
  have hp : 0 < (1 - e s) * (1 + e s) := by nlinarith
  have h := ((he.const_sub 1).mul (he.const_add 1)).sqrt hp.ne'
  refine h.congr_deriv ?_
  have hf : √((1 - e s) * (1 + e s)) ≠ 0 := (sqrt_pos.2 hp).ne'
  change (-e' * (1 + e s) + (1 - e s) * e') / (2 * √((1 - e s) * (1 + e s))) = _
  generalize √((1 - e s) * (1 + e s)) = f at hf
  field_simp
  ring

theorem k_deriv {GM : ℝ} (hG : 0 < GM) (ha : HasDerivAt a a' s) (hap : 0 < a s) :
    HasDerivAt (fun t => √(GM * a t)) (√(GM * a s) * a' / (2 * a s)) s := by
  have hp : 0 < GM * a s := mul_pos hG hap
  have h := (ha.const_mul GM).sqrt hp.ne'
  convert h using 1
  have hk : √(GM * a s) ≠ 0 := (sqrt_pos.2 hp).ne'
  have hk2 : √(GM * a s) * √(GM * a s) = GM * a s := mul_self_sqrt hp.le
  field_simp
  linear_combination a' * hk2

/-- The mean motion: `n a² = √(GM a)`. -/
theorem motion_eq {GM x : ℝ} (hG : 0 < GM) (hx : 0 < x) : √(GM / (x * x * x)) = √(GM * x) / (x * x) := by
  have h : GM / (x * x * x) = GM * x / ((x * x) * (x * x)) := by field_simp
  rw [h, sqrt_div (mul_pos hG hx).le, sqrt_mul_self (by positivity)]

theorem motion_deriv {GM : ℝ} (hG : 0 < GM) (ha : HasDerivAt a a' s) (hap : 0 < a s) :
    HasDerivAt (fun t => √(GM / (a t * a t * a t))) (-(3 / 2) * (√(GM / (a s * a s * a s)) / a s) * a') s := by
  have hd := (k_deriv hG ha hap).div (ha.mul ha) (mul_pos hap hap).ne'
  have hev : ∀ᶠ t in 𝓝 s, 0 < a t := ha.continuousAt.eventually (lt_mem_nhds hap)
  refine (hd.congr_of_eventuallyEq ?_).congr_deriv ?_
  · filter_upwards [hev] with t ht
    simp only [Pi.div_apply, Pi.mul_apply]
    exact motion_eq hG ht
  · rw [motion_eq hG hap]
    simp only [Pi.mul_apply]
    field_simp
    ring

/-- Position coordinates. -/
theorem perifocalR_deriv (ha : HasDerivAt a a' s) (he : HasDerivAt e e' s) (hE : HasDerivAt E E' s)
    (h0 : 0 ≤ e s) (h1 : e s < 1) :
    HasDerivAt (fun t => (perifocalR (a t) (e t) (E t)).x)
      (a' * (cos (E s) - e s) + a s * (-sin (E s) * E' - e')) s ∧
    HasDerivAt (fun t => (perifocalR (a t) (e t) (E t)).y)
      ((a' * √((1 - e s) * (1 + e s)) + a s * (-(e s * e') / √((1 - e s) * (1 + e s)))) * sin (E s)
        + a s * √((1 - e s) * (1 + e s)) * (cos (E s) * E')) s := by
  constructor
  · exact ha.mul (hE.cos.sub he)
  · exact (ha.mul (fac_deriv he h0 h1)).mul hE.sin

/-- Speed factor. -/
theorem vmag_deriv {GM : ℝ} (hG : 0 < GM) (ha : HasDerivAt a a' s) (he : HasDerivAt e e' s)
    (hE : HasDerivAt E E' s) (hap : 0 < a s) (h0 : 0 ≤ e s) (h1 : e s < 1) :
    HasDerivAt (fun t => √(GM * a t) / (a t * (1 - e t * cos (E t))))
      (√(GM * a s) / (a s * (1 - e s * cos (E s))) *
        (-a' / (2 * a s) - (-(e' * cos (E s) + e s * (-sin (E s) * E'))) / (1 - e s * cos (E s)))) s := by
  have hw : 0 < 1 - e s * cos (E s) := lt_of_lt_of_le (by linarith) (one_sub_ecos (e s) (E s) h0).1
  have hden := ha.mul ((he.mul hE.cos).const_sub 1)
  have hd := (k_deriv hG ha hap).div hden (mul_pos hap hw).ne'
  refine hd.congr_deriv ?_
  simp only [Pi.mul_apply]
  field_simp
  ring

theorem perifocalV_deriv {GM : ℝ} (hG : 0 < GM) (ha : HasDerivAt a a' s) (he : HasDerivAt e e' s)
    (hE : HasDerivAt E E' s) (hap : 0 < a s) (h0 : 0 ≤ e s) (h1 : e s < 1) (v' : ℝ)
    (hv : v' = √(GM * a s) / (a s * (1 - e s * cos (E s))) *
        (-a' / (2 * a s) - (-(e' * cos (E s) + e s * (-sin (E s) * E'))) / (1 - e s * cos (E s)))) :
    HasDerivAt (fun t => (perifocalV GM (a t) (e t) (E t)).x)
      (-v' * sin (E s) + -(√(GM * a s) / (a s * (1 - e s * cos (E s)))) * (cos (E s) * E')) s ∧
    HasDerivAt (fun t => (perifocalV GM (a t) (e t) (E t)).y)
      ((v' * √((1 - e s) * (1 + e s)) +
          √(GM * a s) / (a s * (1 - e s * cos (E s))) * (-(e s * e') / √((1 - e s) * (1 + e s)))) * cos (E s)
        + √(GM * a s) / (a s * (1 - e s * cos (E s))) * √((1 - e s) * (1 + e s)) * (-sin (E s) * E')) s := by
  have hm := vmag_deriv hG ha he hE hap h0 h1
  rw [← hv] at hm
  constructor
  · exact hm.neg.mul hE.sin
  · exact (hm.mul (fac_deriv he h0 h1)).mul hE.cos

/-- The distance. -/
theorem perifocalR_norm {x y z : ℝ} (hx : 0 < x) (h0 : 0 ≤ y) (h1 : y < 1) :
    (perifocalR x y z).norm = x * (1 - y * cos z) := by
  have hw : 0 < 1 - y * cos z := lt_of_lt_of_le (by linarith) (one_sub_ecos y z h0).1
  have hp : 0 ≤ (1 - y) * (1 + y) := by nlinarith
  unfold V3.norm
  have : (perifocalR x y z).dot (perifocalR x y z) = (x * (1 - y * cos z)) * (x * (1 - y * cos z)) := by
    have hf := mul_self_sqrt hp
    have hcs := sin_sq_add_cos_sq z
    simp only [perifocalR, V3.dot]
    linear_combination x ^ 2 * sin z ^ 2 * hf + x ^ 2 * (1 - y ^ 2) * hcs
  rw [this, sqrt_mul_self (mul_pos hx hw).le]

/-- The pure algebra behind the derivatives of the code. -/
theorem algebra_x {a e w c sn f k a' e' m' : ℝ} (ha : a ≠ 0) (hw : w ≠ 0) (hf : f ≠ 0) (hk : k ≠ 0) :
    a' * (c - e) + a * (-sn * ((m' + e' * sn) / w) - e') =
      a * (c - e) / a * a' + (-a - (a * f * sn / f) ^ 2 / (a * w)) * e' +
        -(k / (a * w)) * sn / (k / (a * a)) * m' := by
  field_simp
  ring

theorem algebra_y {a e w c sn f k a' e' m' : ℝ} (ha : a ≠ 0) (hw : w ≠ 0) (hf : f ≠ 0) (hk : k ≠ 0)
    (hwd : w = 1 - e * c) (hf2 : f * f = 1 - e ^ 2) :
    (a' * f + a * (-(e * e') / f)) * sn + a * f * (c * ((m' + e' * sn) / w)) =
      a * f * sn / a * a' + a * (c - e) * (a * f * sn) / (a * w * f * f) * e' +
        k / (a * w) * f * c / (k / (a * a)) * m' := by
  field_simp
  subst hwd
  linear_combination (a * e' * sn * c) * hf2

theorem algebra_vx {a e w c sn f k a' e' m' : ℝ} (ha : a ≠ 0) (hw : w ≠ 0) (hf : f ≠ 0) (hk : k ≠ 0)
    (hwd : w = 1 - e * c) (hcs : sn ^ 2 + c ^ 2 = 1) :
    -(k / (a * w) * (-a' / (2 * a) - (-(e' * c + e * (-sn * ((m' + e' * sn) / w)))) / w)) * sn +
        -(k / (a * w)) * (c * ((m' + e' * sn) / w)) =
      -(-(k / (a * w)) * sn) / (2 * a) * a' +
        -(k / (a * w)) * sn * (2 * a * (a * (c - e)) + e * (a * f * sn / f) ^ 2) / (a * w * (a * w)) * e' +
        -(k / (a * a)) * (a / (a * w)) ^ 3 * (a * (c - e)) * m' := by
  field_simp
  subst hwd
  linear_combination (2 * a * e * m' + 4 * a * e * sn * e') * hcs

theorem algebra_vy {a e w c sn f k a' e' m' : ℝ} (ha : a ≠ 0) (hw : w ≠ 0) (hf : f ≠ 0) (hk : k ≠ 0)
    (hwd : w = 1 - e * c) (hcs : sn ^ 2 + c ^ 2 = 1) (hf2 : f * f = 1 - e ^ 2) :
    (k / (a * w) * (-a' / (2 * a) - (-(e' * c + e * (-sn * ((m' + e' * sn) / w)))) / w) * f +
          k / (a * w) * (-(e * e') / f)) * c + k / (a * w) * f * (-sn * ((m' + e' * sn) / w)) =
      -(k / (a * w) * f * c) / (2 * a) * a' +
        k / (a * a) / f * (a / (a * w)) ^ 2 *
          (a * (c - e) * (a * (c - e)) / (a * w) - (a * f * sn / f) ^ 2 / a) * e' +
        -(k / (a * a)) * (a / (a * w)) ^ 3 * (a * f * sn) * m' := by
  field_simp
  subst hwd
  linear_combination (2 * a * e' * (c * ((1 - e * c) * c - e * sn ^ 2) - (1 - e * c) * sn ^ 2)) * hf2 +
    (2 * a * e' * (-(c * e) * (1 - e ^ 2) - (1 - e * c) * (1 - e ^ 2) + (1 - e * c))) * hcs

end Verif.Orbit
