import Verif.Float.ShadowModel
import Verif.Float.AngleProps
import Verif.Forces.ShadowProps

/-
C121: the shadow functions in double arithmetic on the axis of the shadow.
-/
namespace Verif.Float

open Verif.Astro (V3)
open Verif.Forces
open Real

variable {rnd : ℝ → ℝ}

theorem acosD_below (rnd : ℝ → ℝ) : acosD rnd (-(4503599627370497 / 4503599627370496)) = none := by
  unfold acosD
  rw [if_neg]
  norm_num

/-- The norm of a vector with three equal components whose squares and sums are exact. -/
theorem normD_diag (hr : Nearest rnd) (fused : Bool) (a q : ℝ) (h1 : a * a = q)
    (e1 : IsDouble q) (e2 : IsDouble (2 * q)) (e3 : IsDouble (3 * q)) :
    normD rnd fused ⟨a, a, a⟩ = rnd √(3 * q) := by
  unfold normD normSqD
  have i1 : rnd q = q := hr.exact e1
  have i2 : rnd (q + q) = 2 * q := by rw [← two_mul]; exact hr.exact e2
  have i3 : rnd (2 * q + q) = 3 * q := by rw [show 2 * q + q = 3 * q by ring]; exact hr.exact e3
  have i4 : rnd (q + 2 * q) = 3 * q := by rw [show q + 2 * q = 3 * q by ring]; exact hr.exact e3
  cases fused
  · simp only [Bool.false_eq_true, if_false, h1, i1, i2, i3]
  · simp only [if_true, h1, i1, i2, i4]

theorem dotD_diag (hr : Nearest rnd) (a b q : ℝ) (h1 : a * b = q)
    (e1 : IsDouble q) (e2 : IsDouble (2 * q)) (e3 : IsDouble (3 * q)) :
    dotD rnd ⟨a, a, a⟩ ⟨b, b, b⟩ = 3 * q := by
  unfold dotD
  have i1 : rnd q = q := hr.exact e1
  have i2 : rnd (q + q) = 2 * q := by rw [← two_mul]; exact hr.exact e2
  have i3 : rnd (2 * q + q) = 3 * q := by rw [show 2 * q + q = 3 * q by ring]; exact hr.exact e3
  simp only [h1, i1, i2, i3]

/-- The norm of the satellite position used below. -/
theorem norm_sat (hr : Nearest rnd) (fused : Bool) :
    normD rnd fused ⟨-4194304, -4194304, -4194304⟩ = 7800463371553962 / 1073741824 := by
  rw [normD_diag hr fused _ 17592186044416 (by norm_num)
    ⟨1, 44, by norm_num, by norm_num, by norm_num⟩ ⟨2, 44, by norm_num, by norm_num, by norm_num⟩
    ⟨3, 44, by norm_num, by norm_num, by norm_num⟩]
  apply hr.num 7800463371553962 (-30) (by norm_num) (by norm_num) (by norm_num) (by norm_num)
  rw [abs_lt]
  constructor
  · have : √(3 * 17592186044416 : ℝ) < 7800463371553962 / 1073741824 + 1 / 2147483648 := by
      rw [Real.sqrt_lt' (by norm_num)]; norm_num
    norm_num at this ⊢; linarith
  · have : (7800463371553962 / 1073741824 : ℝ) - 1 / 2147483648 < √(3 * 17592186044416) := by
      apply Real.lt_sqrt_of_sq_lt; norm_num
    norm_num at this ⊢; linarith

/-- **C121 (a)** `vallado_shadow` gives full light (1) for a satellite exactly behind the Earth, at
7265 km, whatever the constants: the computed cosine is below -1, its arc cosine NaN and the
comparison false. -/
theorem vallado_nan_counterexample (hr : Nearest rnd) (fused : Bool) (tanApen x tanAumb y : ℝ) :
    valladoShadowD rnd fused tanApen x tanAumb y ⟨-4194304, -4194304, -4194304⟩
      ⟨86436216832, 86436216832, 86436216832⟩ = 1 := by
  have hs : normD rnd fused ⟨86436216832, 86436216832, 86436216832⟩ = 4905760167266359 / 32768 := by
    rw [normD_diag hr fused _ (25921 * 2 ^ 58) (by norm_num)
      ⟨25921, 58, by norm_num, by norm_num, by norm_num⟩
      ⟨51842, 58, by norm_num, by norm_num, by norm_num⟩
      ⟨77763, 58, by norm_num, by norm_num, by norm_num⟩]
    apply hr.num 4905760167266359 (-15) (by norm_num) (by norm_num) (by norm_num) (by norm_num)
    rw [abs_lt]
    constructor
    · have : √(3 * (25921 * 2 ^ 58) : ℝ) < 4905760167266359 / 32768 + 1 / 65536 := by
        rw [Real.sqrt_lt' (by norm_num)]; norm_num
      norm_num at this ⊢; linarith
    · have : (4905760167266359 / 32768 : ℝ) - 1 / 65536 < √(3 * (25921 * 2 ^ 58)) := by
        apply Real.lt_sqrt_of_sq_lt; norm_num
      norm_num at this ⊢; linarith
  have hp : dotD rnd ⟨-4194304, -4194304, -4194304⟩ ⟨86436216832, 86436216832, 86436216832⟩ =
      3 * -(161 * 2 ^ 51) :=
    dotD_diag hr _ _ _ (by norm_num) ⟨-161, 51, by norm_num, by norm_num, by norm_num⟩
      ⟨-322, 51, by norm_num, by norm_num, by norm_num⟩
      ⟨-483, 51, by norm_num, by norm_num, by norm_num⟩
  have hrs : rnd (7800463371553962 / 1073741824 * (4905760167266359 / 32768)) =
      8497025859452927 * 128 :=
    hr.num 8497025859452927 7 (by norm_num) (by norm_num) (by norm_num)
      (by norm_num) (by rw [abs_lt]; norm_num)
  have hq : rnd (3 * -(161 * 2 ^ 51) / (8497025859452927 * 128)) =
      -(4503599627370497 / 4503599627370496) :=
    hr.num (-4503599627370497) (-52) (by norm_num) (by norm_num) (by norm_num)
      (by norm_num) (by rw [abs_lt]; norm_num)
  unfold valladoShadowD
  simp only [hp, norm_sat hr fused, hs, hrs, quotD]
  rw [if_neg (by norm_num), if_neg (by norm_num), hq]
  simp only [acosD_below, Option.map_none, leO, if_false]

/-- The exact function gives full shadow (0) there. -/
theorem vallado_exact_dark (Re Rs AU : ℝ) (hRe : 0 < Re) (hRs : Re < Rs) (hAU : Rs + Re < AU)
    (hfar : 7264800 * (Rs + Re) ≤ Re * AU) :
    valladoShadow Re Rs AU ⟨-4194304, -4194304, -4194304⟩
      ⟨86436216832, 86436216832, 86436216832⟩ = 0 := by
  have hsq : ((⟨86436216832, 86436216832, 86436216832⟩ : V3).norm) = 86436216832 * √3 := by
    unfold V3.norm V3.dot
    rw [show (86436216832 * 86436216832 + 86436216832 * 86436216832 + 86436216832 * 86436216832 : ℝ) =
      86436216832 * 86436216832 * 3 by norm_num, Real.sqrt_mul (by norm_num),
      Real.sqrt_mul_self (by norm_num)]
  have s3 : 0 < √(3 : ℝ) := Real.sqrt_pos.2 (by norm_num)
  have s3' : √(3 : ℝ) < 17320509 / 10000000 := by
    rw [Real.sqrt_lt' (by norm_num)]; norm_num
  have h3 : √(3 : ℝ) * √3 = 3 := Real.mul_self_sqrt (by norm_num)
  have hb : behind ⟨-4194304, -4194304, -4194304⟩ ⟨86436216832, 86436216832, 86436216832⟩ =
      4194304 * √3 := by
    unfold behind
    rw [hsq]
    simp only [V3.dot]
    rw [← neg_div, div_eq_iff (by positivity)]
    linear_combination (-4194304 * 86436216832) * h3
  have ho : offAxis ⟨-4194304, -4194304, -4194304⟩ ⟨86436216832, 86436216832, 86436216832⟩ = 0 := by
    unfold offAxis V3.norm V3.cross V3.dot
    norm_num
  rw [vallado_value Re Rs AU _ _ (by rw [hsq]; positivity), hb, ho, if_neg (by
    rw [not_le]; positivity)]
  have hA : 0 < AU := by linarith
  have t1 := (cone_tan ((Rs + Re) / AU) (by apply div_pos <;> linarith) (by rw [div_lt_one hA]; exact hAU)).1
  have t2 := (cone_tan ((Rs - Re) / AU) (by apply div_pos <;> linarith)
    (by rw [div_lt_one hA]; linarith)).1
  have w : 4194304 * √3 ≤ Re / ((Rs + Re) / AU) := by
    rw [div_div_eq_mul_div, le_div_iff₀ (by linarith)]
    refine le_trans ?_ hfar
    apply mul_le_mul_of_nonneg_right _ (by linarith)
    linarith
  rw [if_pos (mul_nonneg t1.le (by linarith)), if_pos]
  apply mul_nonneg t2.le
  have : 0 < Re / ((Rs - Re) / AU) := by
    apply div_pos hRe; apply div_pos <;> linarith
  positivity

/-- **C121 (b)** `bernese_shadow1` gives full light for a satellite exactly behind the Earth on the
first axis, at 7707 km, with the Sun at one astronomical unit: the squared distance from the axis is
computed negative and its root NaN.  With or without fused operations. -/
theorem bernese_nan_counterexample (hr : Nearest rnd) (fused : Bool) (fac Re : ℝ) :
    berneseShadowD rnd fused fac Re ⟨-7707000, 0, 0⟩ ⟨149597870700, 0, 0⟩ = 1 := by
  have db : IsDouble (149597870700 : ℝ) := by
    simpa using isDouble_int (K := ℝ) 149597870700 (by norm_num)
  have nb : normD rnd fused ⟨149597870700, 0, 0⟩ = 149597870700 := by
    rw [normD_axis hr fused _ db (half_range (by norm_num))]; norm_num
  have i1 : rnd (-7707000 * -7707000) = 59397849000000 := by
    rw [hr.int 59397849000000 (by norm_num) (by norm_num)]; norm_num
  have i1' : rnd 59397849000000 = 59397849000000 := hr.int 59397849000000 (by norm_num) (by norm_num)
  have ns : normSqD rnd fused ⟨-7707000, 0, 0⟩ = 59397849000000 := by
    unfold normSqD
    cases fused
    · simp only [Bool.false_eq_true, if_false, mul_zero, hr.zero, add_zero, i1, i1']
    · simp only [if_true, mul_zero, zero_add, i1, i1']
  have ab : rnd (-7707000 * 149597870700) = -(4503714021425391 * 256) :=
    hr.num (-4503714021425391) 8 (by norm_num) (by norm_num) (by norm_num)
      (by norm_num) (by rw [abs_lt]; norm_num)
  have ab' : rnd (-(4503714021425391 * 256)) = -(4503714021425391 * 256) := by
    rw [← ab]; exact hr.exact (hr.mem _)
  have dd : dotD rnd ⟨-7707000, 0, 0⟩ ⟨149597870700, 0, 0⟩ = -(4503714021425391 * 256) := by
    unfold dotD
    simp only [mul_zero, hr.zero, add_zero, ab, ab']
  have rc : rnd (-(4503714021425391 * 256) / 149597870700) = -(8275328237568001 / 1073741824) :=
    hr.num (-8275328237568001) (-30) (by norm_num) (by norm_num) (by norm_num)
      (by norm_num) (by rw [abs_lt]; norm_num)
  have r2 : rnd (-(8275328237568001 / 1073741824) * -(8275328237568001 / 1073741824)) =
      7602924672000002 / 128 :=
    hr.num 7602924672000002 (-7) (by norm_num) (by norm_num) (by norm_num)
      (by norm_num) (by rw [abs_lt]; norm_num)
  have neg1 : rnd (59397849000000 - 7602924672000002 / 128) < 0 := by
    have := hr.le_of_le (x := 59397849000000 - 7602924672000002 / 128) (b := -(1 / 128 : ℝ))
      ⟨-1, -7, by norm_num, by norm_num, by norm_num⟩ (by norm_num)
    linarith
  have neg2 : rnd (59397849000000 -
      -(8275328237568001 / 1073741824) * -(8275328237568001 / 1073741824)) < 0 := by
    have := hr.le_of_le (x := 59397849000000 -
      -(8275328237568001 / 1073741824) * -(8275328237568001 / 1073741824)) (b := -(1 / 128 : ℝ))
      ⟨-1, -7, by norm_num, by norm_num, by norm_num⟩ (by norm_num)
    linarith
  unfold berneseShadowD
  simp only [zero_mul, hr.zero, nb, ns, dd, quotD]
  rw [if_neg (by norm_num), rc]
  have hd : sqrtD rnd (if fused = true then rnd (59397849000000 -
        -(8275328237568001 / 1073741824) * -(8275328237568001 / 1073741824))
      else rnd (59397849000000 -
        rnd (-(8275328237568001 / 1073741824) * -(8275328237568001 / 1073741824)))) = none := by
    unfold sqrtD
    rw [if_pos]
    split
    · exact neg2
    · rw [r2]; exact neg1
  simp only [hd]
  rw [if_neg]
  rintro ⟨-, q, hq, -⟩
  cases hq

/-- The exact function gives full shadow there. -/
theorem bernese_exact_dark (f Re : ℝ) (hRe : 0 < Re) :
    berneseShadow f Re ⟨-7707000, 0, 0⟩ ⟨149597870700, 0, 0⟩ = 0 := by
  have hn : (⟨149597870700, 0, 0 * (1 + f)⟩ : V3).norm = 149597870700 := by
    unfold V3.norm V3.dot
    rw [show (149597870700 * 149597870700 + 0 * 0 + 0 * (1 + f) * (0 * (1 + f)) : ℝ) =
      149597870700 * 149597870700 by ring, Real.sqrt_mul_self (by norm_num)]
  unfold berneseShadow stretch
  simp only [hn, V3.dot]
  rw [if_pos]
  constructor
  · norm_num
  · norm_num
    exact hRe

/-- **C121 (c)** `conical_shadow` gives NaN for a satellite exactly behind the Earth, at 7265 km: the
computed cosine of the angle between Earth and Sun is above 1. -/
theorem conical_nan_counterexample (hr : Nearest rnd) (fused : Bool) (Re Rs : ℝ) :
    conicalShadowD rnd fused Re Rs ⟨-4194304, -4194304, -4194304⟩
      ⟨87509958656, 87509958656, 87509958656⟩ = none := by
  have dif : rnd (87509958656 - -4194304) = 87514152960 := by
    rw [hr.int 87514152960 (by norm_num) (by norm_num)]; norm_num
  have hs : normD rnd fused ⟨87514152960, 87514152960, 87514152960⟩ = 4966939338606977 / 32768 := by
    rw [normD_diag hr fused _ (435348225 * 2 ^ 44) (by norm_num)
      ⟨435348225, 44, by norm_num, by norm_num, by norm_num⟩
      ⟨870696450, 44, by norm_num, by norm_num, by norm_num⟩
      ⟨1306044675, 44, by norm_num, by norm_num, by norm_num⟩]
    apply hr.num 4966939338606977 (-15) (by norm_num) (by norm_num) (by norm_num) (by norm_num)
    rw [abs_lt]
    constructor
    · have : √(3 * (435348225 * 2 ^ 44) : ℝ) < 4966939338606977 / 32768 + 1 / 65536 := by
        rw [Real.sqrt_lt' (by norm_num)]; norm_num
      norm_num at this ⊢; linarith
    · have : (4966939338606977 / 32768 : ℝ) - 1 / 65536 < √(3 * (435348225 * 2 ^ 44)) := by
        apply Real.lt_sqrt_of_sq_lt; norm_num
      norm_num at this ⊢; linarith
  have hp : dotD rnd ⟨-4194304, -4194304, -4194304⟩ ⟨87514152960, 87514152960, 87514152960⟩ =
      3 * -(20865 * 2 ^ 44) :=
    dotD_diag hr _ _ _ (by norm_num) ⟨-20865, 44, by norm_num, by norm_num, by norm_num⟩
      ⟨-41730, 44, by norm_num, by norm_num, by norm_num⟩
      ⟨-62595, 44, by norm_num, by norm_num, by norm_num⟩
  have hrs : rnd (4966939338606977 / 32768 * (7800463371553962 / 1073741824)) =
      8602991292579839 * 128 :=
    hr.num 8602991292579839 7 (by norm_num) (by norm_num) (by norm_num)
      (by norm_num) (by rw [abs_lt]; norm_num)
  have hq : rnd (-(3 * -(20865 * 2 ^ 44)) / (8602991292579839 * 128)) =
      4503599627370497 / 4503599627370496 :=
    hr.num 4503599627370497 (-52) (by norm_num) (by norm_num) (by norm_num)
      (by norm_num) (by rw [abs_lt]; norm_num)
  unfold conicalShadowD
  simp only [dif, hs, hp, norm_sat hr fused, hrs]
  have : (quotD rnd (-(3 * -(20865 * 2 ^ 44))) (8602991292579839 * 128)).bind (acosD rnd) = none := by
    unfold quotD
    rw [if_neg (by norm_num), hq, Option.bind_some, acosD_above_one]
  rw [this]
  simp

/-- With the usual radii and distance of the Sun the exact functions give shadow. -/
example : valladoShadow 6378136.6 696000000 149597870700 ⟨-4194304, -4194304, -4194304⟩
    ⟨86436216832, 86436216832, 86436216832⟩ = 0 :=
  vallado_exact_dark _ _ _ (by norm_num) (by norm_num) (by norm_num) (by norm_num)

example : berneseShadow (1 / 298.257) 6378136.6 ⟨-7707000, 0, 0⟩ ⟨149597870700, 0, 0⟩ = 0 :=
  bernese_exact_dark _ _ (by norm_num)

end Verif.Float
