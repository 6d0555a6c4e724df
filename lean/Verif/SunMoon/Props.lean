import Verif.SunMoon.Model
import Mathlib.Tactic.Linarith
import Mathlib.Tactic.LinearCombination
import Mathlib.Tactic.FieldSimp
import Mathlib.Analysis.Real.Pi.Bounds

/-
C72: the approximate Sun and Moon positions.

The specification: a point at distance `r`, ecliptic longitude `l` and latitude `b`, seen in equatorial
axes.  The angles below are the series of the references, without the reductions the program makes.
-/
namespace Verif.SunMoon

open Real

/-- Equatorial coordinates of the point with ecliptic coordinates `r`, `l`, `b`: the ecliptic vector
turned about the first axis by the obliquity. -/
noncomputable def equatorial (eps r l b : ℝ) : V3 :=
  ⟨r * cos b * cos l,
    cos eps * (r * cos b * sin l) - sin eps * (r * sin b),
    sin eps * (r * cos b * sin l) + cos eps * (r * sin b)⟩

/-- Length of a vector. -/
noncomputable def V3.length (v : V3) : ℝ := √(v.x ^ 2 + v.y ^ 2 + v.z ^ 2)

/-- Such a point is at distance `r`. -/
theorem equatorial_length (eps r l b : ℝ) (hr : 0 ≤ r) : (equatorial eps r l b).length = r := by
  unfold V3.length equatorial
  have h1 := sin_sq_add_cos_sq eps
  have h2 := sin_sq_add_cos_sq l
  have h3 := sin_sq_add_cos_sq b
  rw [← sqrt_sq hr]
  congr 1
  rw [sqrt_sq hr]
  dsimp only
  linear_combination ((r * cos b * sin l) ^ 2 + (r * sin b) ^ 2) * h1 + (r * cos b) ^ 2 * h2 + r ^ 2 * h3

theorem V3.ext' {a b : V3} (hx : a.x = b.x) (hy : a.y = b.y) (hz : a.z = b.z) : a = b := by
  cases a; cases b; simp_all

/-! ### Reductions do not matter -/

/-- Two angles that differ by whole turns. -/
def Same (a b : ℝ) : Prop := ∃ k : ℤ, a = b + k * (2 * π)

theorem Same.cos {a b : ℝ} (h : Same a b) : cos a = cos b := by
  obtain ⟨k, rfl⟩ := h
  exact cos_add_int_mul_two_pi b k

theorem Same.sin {a b : ℝ} (h : Same a b) : sin a = sin b := by
  obtain ⟨k, rfl⟩ := h
  exact sin_add_int_mul_two_pi b k

theorem Same.refl (a : ℝ) : Same a a := ⟨0, by simp⟩

theorem Same.trans {a b c : ℝ} (h : Same a b) (h' : Same b c) : Same a c := by
  obtain ⟨k, rfl⟩ := h
  obtain ⟨m, rfl⟩ := h'
  exact ⟨m + k, by push_cast; ring⟩

theorem Same.add {a b c d : ℝ} (h : Same a b) (h' : Same c d) : Same (a + c) (b + d) := by
  obtain ⟨k, rfl⟩ := h
  obtain ⟨m, rfl⟩ := h'
  exact ⟨k + m, by push_cast; ring⟩

theorem Same.two {a b : ℝ} (h : Same a b) : Same (2 * a) (2 * b) := by
  rw [two_mul, two_mul]; exact h.add h

theorem same_modf (x : ℝ) : Same (2 * π * modf x) (2 * π * x) :=
  ⟨-trunc x, by unfold modf; push_cast; ring⟩

theorem same_fmod (x : ℝ) : Same (fmod x (2 * π)) x :=
  ⟨-trunc (x / (2 * π)), by unfold fmod; push_cast; ring⟩

theorem same_fmod_deg (x : ℝ) : Same (deg2rad (fmod x 360)) (deg2rad x) :=
  ⟨-trunc (x / 360), by unfold fmod deg2rad; push_cast; ring⟩

theorem same_fmod_arcsec (x : ℝ) : Same (fmod x turnas * das2r) (x * das2r) :=
  ⟨-trunc (x / turnas), by unfold fmod das2r turnas; push_cast; ring⟩

theorem deg2rad_add (a b : ℝ) : deg2rad (a + b) = deg2rad a + deg2rad b := by unfold deg2rad; ring

/-! ### Sun, Montenbruck and Gill -/

/-- Mean anomaly. -/
noncomputable def mbAnomaly (t : ℝ) : ℝ := 2 * π * (0.9931267 + 99.9973583 * t)

/-- Ecliptic longitude: 6892" and 72" are given as parts of a turn of 1296000". -/
noncomputable def mbLongitude (t : ℝ) : ℝ :=
  2 * π * 0.7859444 + mbAnomaly t + (6892 * sin (mbAnomaly t) + 72 * sin (2 * mbAnomaly t)) * das2r

/-- Distance [km]. -/
noncomputable def mbDistance (t : ℝ) : ℝ :=
  149.619e6 - 2.499e6 * cos (mbAnomaly t) - 0.021e6 * cos (2 * mbAnomaly t)

theorem mbDistance_pos (t : ℝ) : 147e6 ≤ mbDistance t ∧ mbDistance t ≤ 153e6 := by
  have h1 := cos_le_one (mbAnomaly t)
  have h2 := cos_le_one (2 * mbAnomaly t)
  have h3 := neg_one_le_cos (mbAnomaly t)
  have h4 := neg_one_le_cos (2 * mbAnomaly t)
  unfold mbDistance
  constructor <;> norm_num <;> linarith

/-- **C72 (Sun, Montenbruck and Gill).** -/
theorem sunMontenbruck_eq (t : ℝ) :
    sunMontenbruck t = equatorial (deg2rad 23.43929111) (mbDistance t) (mbLongitude t) 0 := by
  have hM : Same (2 * π * modf (0.9931267 + 99.9973583 * t)) (mbAnomaly t) := same_modf _
  unfold sunMontenbruck
  dsimp only
  generalize 2 * π * modf (0.9931267 + 99.9973583 * t) = M at hM ⊢
  have hL : Same (2 * π * modf (0.7859444 + M / (2 * π) + (6892 * sin M + 72 * sin (2 * M)) / 1296.0e3))
      (mbLongitude t) := by
    refine (same_modf _).trans ?_
    rw [hM.sin, hM.two.sin]
    have e : 2 * π * (0.7859444 + M / (2 * π) +
        (6892 * sin (mbAnomaly t) + 72 * sin (2 * mbAnomaly t)) / 1296.0e3) =
        M + (2 * π * 0.7859444 +
          (6892 * sin (mbAnomaly t) + 72 * sin (2 * mbAnomaly t)) * das2r) := by
      unfold das2r
      have := pi_ne_zero
      field_simp
      ring
    have e2 : mbLongitude t = mbAnomaly t + (2 * π * 0.7859444 +
          (6892 * sin (mbAnomaly t) + 72 * sin (2 * mbAnomaly t)) * das2r) := by
      unfold mbLongitude; ring
    rw [e, e2]
    exact hM.add (Same.refl _)
  rw [hL.cos, hL.sin, hM.cos, hM.two.cos, cos_neg, sin_neg]
  unfold equatorial mbDistance
  rw [cos_zero, sin_zero]
  apply V3.ext' <;> dsimp only <;> ring

theorem sunMontenbruck_length (t : ℝ) : (sunMontenbruck t).length = mbDistance t := by
  rw [sunMontenbruck_eq]
  exact equatorial_length _ _ _ _ (le_trans (by norm_num) (mbDistance_pos t).1)

/-! ### Sun, Vallado -/

/-- Mean anomaly. -/
noncomputable def vaAnomaly (t : ℝ) : ℝ := deg2rad (357.5291092 + 35999.50534 * t)

/-- Ecliptic longitude. -/
noncomputable def vaLongitude (t : ℝ) : ℝ :=
  deg2rad (280.460 + 36000.771 * t + 1.914666471 * sin (vaAnomaly t) +
    0.019994643 * sin (2 * vaAnomaly t))

/-- Distance [km]. -/
noncomputable def vaDistance (t : ℝ) : ℝ :=
  (1.000140612 - 0.016708617 * cos (vaAnomaly t) - 0.000139589 * cos (2 * vaAnomaly t)) * 149597870.7

theorem vaDistance_pos (t : ℝ) : 147e6 ≤ vaDistance t ∧ vaDistance t ≤ 153e6 := by
  have h1 := cos_le_one (vaAnomaly t)
  have h2 := cos_le_one (2 * vaAnomaly t)
  have h3 := neg_one_le_cos (vaAnomaly t)
  have h4 := neg_one_le_cos (2 * vaAnomaly t)
  unfold vaDistance
  constructor <;> norm_num <;> linarith

/-- **C72 (Sun, Vallado).** -/
theorem sunVallado_eq (t : ℝ) :
    sunVallado t = equatorial (deg2rad (23.439291 - 0.0130042 * t)) (vaDistance t) (vaLongitude t) 0 := by
  have hM : Same (deg2rad (fmod (357.5291092 + 35999.50534 * t) 360)) (vaAnomaly t) := same_fmod_deg _
  unfold sunVallado
  dsimp only
  generalize deg2rad (fmod (357.5291092 + 35999.50534 * t) 360) = M at hM ⊢
  have hL : Same (deg2rad (fmod (fmod (280.460 + 36000.771 * t) 360 + 1.914666471 * sin M +
      0.019994643 * sin (2 * M)) 360)) (vaLongitude t) := by
    refine (same_fmod_deg _).trans ?_
    rw [hM.sin, hM.two.sin]
    unfold vaLongitude
    rw [deg2rad_add, deg2rad_add, deg2rad_add, deg2rad_add]
    exact ((same_fmod_deg _).trans (by rw [deg2rad_add]; exact Same.refl _)).add (Same.refl _) |>.add
      (Same.refl _)
  rw [hL.cos, hL.sin, hM.cos, hM.two.cos]
  unfold equatorial vaDistance daukm
  rw [cos_zero, sin_zero]
  apply V3.ext' <;> dsimp only <;> ring

theorem sunVallado_length (t : ℝ) : (sunVallado t).length = vaDistance t := by
  rw [sunVallado_eq]
  exact equatorial_length _ _ _ _ (le_trans (by norm_num) (vaDistance_pos t).1)

/-- The variant of debug builds computes the same vector. -/
theorem sunApprox21_eq (t : ℝ) : sunApprox21 t = sunVallado t := by
  rw [sunVallado_eq]
  have hM : Same (modf (357.5291092 / 360 + 35999.50534 / 360 * t) * (2 * π)) (vaAnomaly t) := by
    rw [mul_comm]
    refine (same_modf _).trans ?_
    have : 2 * π * (357.5291092 / 360 + 35999.50534 / 360 * t) = vaAnomaly t := by
      unfold vaAnomaly deg2rad; ring
    rw [this]
    exact Same.refl _
  unfold sunApprox21
  dsimp only
  generalize modf (357.5291092 / 360 + 35999.50534 / 360 * t) * (2 * π) = M at hM ⊢
  have hL : Same (fmod ((1.914666471 * sin M + 0.019994643 * sin (2 * M)) / 360 * (2 * π) +
      modf (280.460 / 360 + 36000.771 / 360 * t) * (2 * π)) (2 * π)) (vaLongitude t) := by
    refine (same_fmod _).trans ?_
    rw [hM.sin, hM.two.sin, mul_comm (modf _)]
    refine ((Same.refl _).add (same_modf _)).trans ?_
    have : (1.914666471 * sin (vaAnomaly t) + 0.019994643 * sin (2 * vaAnomaly t)) / 360 * (2 * π) +
        2 * π * (280.460 / 360 + 36000.771 / 360 * t) = vaLongitude t := by
      unfold vaLongitude deg2rad; ring
    rw [this]
    exact Same.refl _
  rw [hL.cos, hL.sin, hM.cos, hM.two.cos]
  unfold equatorial vaDistance daukm
  rw [cos_zero, sin_zero]
  apply V3.ext' <;> dsimp only <;> ring

/-! ### Sun, Curtis -/

/-- Mean anomaly; `n` is in days since J2000. -/
noncomputable def cuAnomaly (n : ℝ) : ℝ := deg2rad (357.529 + 0.98560023 * n)

/-- Ecliptic longitude. -/
noncomputable def cuLongitude (n : ℝ) : ℝ :=
  deg2rad (280.459 + 0.98564736 * n + 1.915 * sin (cuAnomaly n) + 0.0200 * sin (2 * cuAnomaly n))

/-- Distance [km]. -/
noncomputable def cuDistance (n : ℝ) : ℝ :=
  (1.00014 - 0.01671 * cos (cuAnomaly n) - 0.000140 * cos (2 * cuAnomaly n)) * 149597870.7

theorem cuDistance_pos (t : ℝ) : 147e6 ≤ cuDistance t ∧ cuDistance t ≤ 153e6 := by
  have h1 := cos_le_one (cuAnomaly t)
  have h2 := cos_le_one (2 * cuAnomaly t)
  have h3 := neg_one_le_cos (cuAnomaly t)
  have h4 := neg_one_le_cos (2 * cuAnomaly t)
  unfold cuDistance
  constructor <;> norm_num <;> linarith

/-- **C72 (Sun, Curtis).** -/
theorem sunCurtis_eq (n : ℝ) :
    sunCurtis n = equatorial (deg2rad (23.439 - 3.65e-7 * n)) (cuDistance n) (cuLongitude n) 0 := by
  have hM : Same (deg2rad (fmod (357.529 + 0.98560023 * n) 360)) (cuAnomaly n) := same_fmod_deg _
  unfold sunCurtis
  dsimp only
  generalize deg2rad (fmod (357.529 + 0.98560023 * n) 360) = M at hM ⊢
  have hL : Same (deg2rad (fmod (fmod (280.459 + 0.98564736 * n) 360 + 1.915 * sin M +
      0.0200 * sin (2 * M)) 360)) (cuLongitude n) := by
    refine (same_fmod_deg _).trans ?_
    rw [hM.sin, hM.two.sin]
    unfold cuLongitude
    rw [deg2rad_add, deg2rad_add, deg2rad_add, deg2rad_add]
    exact ((same_fmod_deg _).trans (by rw [deg2rad_add]; exact Same.refl _)).add (Same.refl _) |>.add
      (Same.refl _)
  rw [hL.cos, hL.sin, hM.cos, hM.two.cos]
  unfold equatorial cuDistance daukm
  rw [cos_zero, sin_zero]
  apply V3.ext' <;> dsimp only <;> ring

theorem sunCurtis_length (n : ℝ) : (sunCurtis n).length = cuDistance n := by
  rw [sunCurtis_eq]
  exact equatorial_length _ _ _ _ (le_trans (by norm_num) (cuDistance_pos n).1)

/-! ### Moon, Montenbruck and Gill

The series as tables: amplitude, and multiples of the mean anomaly of the Moon `l`, that of the Sun `lp`, the distance
from the node `F` and the elongation `D`. -/

/-- A term of a series. -/
structure Term where
  amp : ℤ
  l : ℤ
  lp : ℤ
  F : ℤ
  D : ℤ

/-- Its argument. -/
noncomputable def Term.arg (k : Term) (l lp F D : ℝ) : ℝ := k.l * l + k.lp * lp + k.F * F + k.D * D

/-- Longitude: terms of a sine series in arc seconds. -/
def longitudeTable : List Term :=
  [⟨22640, 1, 0, 0, 0⟩, ⟨769, 2, 0, 0, 0⟩, ⟨-4586, 1, 0, 0, -2⟩, ⟨2370, 0, 0, 0, 2⟩, ⟨-668, 0, 1, 0, 0⟩,
   ⟨-412, 0, 0, 2, 0⟩, ⟨-212, 2, 0, 0, -2⟩, ⟨-206, 1, 1, 0, -2⟩, ⟨192, 1, 0, 0, 2⟩, ⟨-165, 0, 1, 0, -2⟩,
   ⟨148, 1, -1, 0, 0⟩, ⟨-125, 0, 0, 0, 1⟩, ⟨-110, 1, 1, 0, 0⟩, ⟨-55, 0, 0, 2, -2⟩]

/-- Latitude: terms of a sine series in arc seconds, without the main one. -/
def latitudeTable : List Term :=
  [⟨-526, 0, 0, 1, -2⟩, ⟨44, 1, 0, 1, -2⟩, ⟨-31, -1, 0, 1, -2⟩, ⟨-25, -2, 0, 1, 0⟩, ⟨-23, 0, 1, 1, -2⟩,
   ⟨21, -1, 0, 1, 0⟩, ⟨11, 0, -1, 1, -2⟩]

/-- Distance: terms of a cosine series in kilometres, to be added to 385000. -/
def distanceTable : List Term :=
  [⟨-20905, 1, 0, 0, 0⟩, ⟨-3699, -1, 0, 0, 2⟩, ⟨-2956, 0, 0, 0, 2⟩, ⟨-570, 2, 0, 0, 0⟩, ⟨246, 2, 0, 0, -2⟩,
   ⟨-205, 0, 1, 0, -2⟩, ⟨-171, 1, 0, 0, 2⟩, ⟨-152, 1, 1, 0, -2⟩]

/-- Sum of a sine series. -/
noncomputable def sinSum (ks : List Term) (l lp F D : ℝ) : ℝ := (ks.map fun k => k.amp * sin (k.arg l lp F D)).sum

/-- Sum of a cosine series. -/
noncomputable def cosSum (ks : List Term) (l lp F D : ℝ) : ℝ := (ks.map fun k => k.amp * cos (k.arg l lp F D)).sum

/-- Ecliptic longitude. -/
noncomputable def moLongitude (l lp F D t : ℝ) : ℝ :=
  2 * π * (0.606433 + 1336.851344 * t) + sinSum longitudeTable l lp F D * (π / 648000)

/-- Ecliptic latitude. -/
noncomputable def moLatitude (l lp F D : ℝ) : ℝ :=
  (18520 * sin (F + (sinSum longitudeTable l lp F D + 412 * sin (2 * F) + 541 * sin lp) * (π / 648000)) +
    sinSum latitudeTable l lp F D) * (π / 648000)

/-- Distance [km]. -/
noncomputable def moDistance (l lp F D : ℝ) : ℝ := 385000 + cosSum distanceTable l lp F D

theorem dlambda_eq (l lp F D : ℝ) : dlambda l lp F D = sinSum longitudeTable l lp F D := by
  simp only [dlambda, sinSum, longitudeTable, Term.arg, List.map_cons, List.map_nil, List.sum_cons, List.sum_nil]
  push_cast
  ring_nf

theorem das2r_eq : das2r = π / 648000 := by unfold das2r; ring

theorem latitudeSeries_eq (l lp F D s : ℝ) :
    latitudeSeries l lp F D s = 18520 * sin s + sinSum latitudeTable l lp F D := by
  simp only [latitudeSeries, sinSum, latitudeTable, Term.arg, List.map_cons, List.map_nil, List.sum_cons, List.sum_nil]
  push_cast
  ring_nf

theorem moonDistance_eq (l lp F D : ℝ) : moonDistance l lp D / 1000 = moDistance l lp F D := by
  simp only [moonDistance, moDistance, cosSum, distanceTable, Term.arg, List.map_cons, List.map_nil, List.sum_cons,
    List.sum_nil]
  push_cast
  ring_nf

theorem moonDistance_pos (l lp D : ℝ) :
    356e6 ≤ moonDistance l lp D ∧ moonDistance l lp D ≤ 414e6 := by
  have c1 := cos_le_one l
  have c2 := cos_le_one (2 * D - l)
  have c3 := cos_le_one (2 * D)
  have c4 := cos_le_one (2 * l)
  have c5 := cos_le_one (2 * l - 2 * D)
  have c6 := cos_le_one (lp - 2 * D)
  have c7 := cos_le_one (l + 2 * D)
  have c8 := cos_le_one (l + lp - 2 * D)
  have d1 := neg_one_le_cos l
  have d2 := neg_one_le_cos (2 * D - l)
  have d3 := neg_one_le_cos (2 * D)
  have d4 := neg_one_le_cos (2 * l)
  have d5 := neg_one_le_cos (2 * l - 2 * D)
  have d6 := neg_one_le_cos (lp - 2 * D)
  have d7 := neg_one_le_cos (l + 2 * D)
  have d8 := neg_one_le_cos (l + lp - 2 * D)
  unfold moonDistance
  constructor <;> norm_num <;> linarith

/-- **C72 (Moon, Montenbruck and Gill).** -/
theorem moonApprox_eq (l lp F D t : ℝ) :
    moonApprox l lp F D t = equatorial (23.43929111 * π / 180) (moDistance l lp F D)
      (moLongitude l lp F D t) (moLatitude l lp F D) := by
  rw [← moonDistance_eq, show 23.43929111 * π / 180 = deg2rad 23.43929111 from rfl]
  unfold moonApprox moLongitude
  rw [← dlambda_eq, ← das2r_eq]
  dsimp only
  have hl : Same (fmod (2 * π * modf (0.606433 + 1336.851344 * t) * dr2as + dlambda l lp F D) turnas *
      das2r) (2 * π * (0.606433 + 1336.851344 * t) + dlambda l lp F D * das2r) := by
    refine (same_fmod_arcsec _).trans ?_
    have e : (2 * π * modf (0.606433 + 1336.851344 * t) * dr2as + dlambda l lp F D) * das2r =
        2 * π * modf (0.606433 + 1336.851344 * t) + dlambda l lp F D * das2r := by
      unfold dr2as das2r
      have := pi_ne_zero
      field_simp
    rw [e]
    exact (same_modf _).add (Same.refl _)
  have hs := same_fmod (F + (dlambda l lp F D + 412 * sin (2 * F) + 541 * sin lp) * das2r)
  have hb : Same (fmod (latitudeSeries l lp F D
      (fmod (F + (dlambda l lp F D + 412 * sin (2 * F) + 541 * sin lp) * das2r) (2 * π))) turnas * das2r)
      (moLatitude l lp F D) := by
    refine (same_fmod_arcsec _).trans ?_
    rw [latitudeSeries_eq, hs.sin]
    unfold moLatitude
    rw [← dlambda_eq, ← das2r_eq]
    exact Same.refl _
  rw [hl.cos, hl.sin, hb.cos, hb.sin, cos_neg, sin_neg]
  unfold equatorial
  apply V3.ext' <;> dsimp only <;> norm_num <;> ring

theorem moonApprox_length (l lp F D t : ℝ) :
    (moonApprox l lp F D t).length = moDistance l lp F D := by
  rw [moonApprox_eq, ← moonDistance_eq]
  exact equatorial_length _ _ _ _
    (div_nonneg (le_trans (by norm_num) (moonDistance_pos l lp D).1) (by norm_num))

/-! ### Moon, Vallado -/

theorem parallax_bounds (t : ℝ) : 0.87 ≤ parallax t ∧ parallax t ≤ 1.03 := by
  have c1 := cos_le_one (deg2rad (134.9 + 477198.85 * t))
  have c2 := cos_le_one (deg2rad (259.2 - 413335.38 * t))
  have c3 := cos_le_one (deg2rad (235.7 + 890534.23 * t))
  have c4 := cos_le_one (deg2rad (269.9 + 954397.70 * t))
  have d1 := neg_one_le_cos (deg2rad (134.9 + 477198.85 * t))
  have d2 := neg_one_le_cos (deg2rad (259.2 - 413335.38 * t))
  have d3 := neg_one_le_cos (deg2rad (235.7 + 890534.23 * t))
  have d4 := neg_one_le_cos (deg2rad (269.9 + 954397.70 * t))
  unfold parallax
  constructor <;> norm_num at * <;> linarith

/-- A degree in radians. -/
noncomputable def degree : ℝ := π / 180

/-- A table of amplitude, phase and rate, all in degrees; the rates are per century. -/
noncomputable def degSin (ks : List (ℝ × ℝ × ℝ)) (t : ℝ) : ℝ :=
  (ks.map fun k => k.1 * sin ((k.2.1 + k.2.2 * t) * degree)).sum

noncomputable def degCos (ks : List (ℝ × ℝ × ℝ)) (t : ℝ) : ℝ :=
  (ks.map fun k => k.1 * cos ((k.2.1 + k.2.2 * t) * degree)).sum

/-- Ecliptic longitude. -/
noncomputable def vmLongitude (t : ℝ) : ℝ :=
  (218.32 + 481267.8813 * t + degSin [(6.29, 134.9, 477198.85), (-1.27, 259.2, -413335.38), (0.66, 235.7, 890534.23),
    (0.21, 269.9, 954397.70), (-0.19, 357.5, 35999.05), (-0.11, 186.6, 966404.05)] t) * degree

/-- Ecliptic latitude. -/
noncomputable def vmLatitude (t : ℝ) : ℝ :=
  degSin [(5.13, 93.3, 483202.03), (0.28, 228.2, 960400.87), (-0.28, 318.3, 6003.18), (-0.17, 217.6, -407332.20)] t *
    degree

/-- Horizontal parallax. -/
noncomputable def vmParallax (t : ℝ) : ℝ :=
  (0.9508 + degCos [(0.0518, 134.9, 477198.85), (0.0095, 259.2, -413335.38), (0.0078, 235.7, 890534.23),
    (0.0028, 269.9, 954397.70)] t) * degree

/-- Obliquity of the ecliptic. -/
noncomputable def vmObliquity (t : ℝ) : ℝ :=
  (23.439291 - 0.0130042 * t - 1.64e-7 * t ^ 2 + 5.04e-7 * t ^ 3) * degree

/-- Distance [km]: the Earth radius over the sine of the parallax. -/
noncomputable def vmDistance (t : ℝ) : ℝ := 6378.1366 / sin (vmParallax t)

theorem deg2rad_eq (x : ℝ) : deg2rad x = x * degree := by unfold deg2rad degree; ring

theorem lecliptic_eq (t : ℝ) : deg2rad (lecliptic t) = vmLongitude t := by
  simp only [lecliptic, vmLongitude, degSin, List.map_cons, List.map_nil, List.sum_cons, List.sum_nil, deg2rad_eq]
  ring_nf

theorem fecliptic_eq (t : ℝ) : deg2rad (fecliptic t) = vmLatitude t := by
  simp only [fecliptic, vmLatitude, degSin, List.map_cons, List.map_nil, List.sum_cons, List.sum_nil, deg2rad_eq]
  ring_nf

theorem parallax_eq (t : ℝ) : deg2rad (parallax t) = vmParallax t := by
  simp only [parallax, vmParallax, degCos, List.map_cons, List.map_nil, List.sum_cons, List.sum_nil, deg2rad_eq]
  ring_nf

theorem obliquity_eq (t : ℝ) : deg2rad (obliquity t) = vmObliquity t := by
  simp only [obliquity, vmObliquity, deg2rad_eq]
  ring_nf

theorem sin_parallax_pos (t : ℝ) : 0 < sin (deg2rad (parallax t)) := by
  obtain ⟨h1, h2⟩ := parallax_bounds t
  have hp := pi_pos
  apply sin_pos_of_pos_of_lt_pi
  · unfold deg2rad
    have : 0 < parallax t := lt_of_lt_of_le (by norm_num) h1
    positivity
  · unfold deg2rad
    rw [div_lt_iff₀ (by norm_num)]
    have : parallax t < 180 := lt_of_le_of_lt h2 (by norm_num)
    nlinarith

/-- **C72 (Moon, Vallado).** -/
theorem moonVallado_eq (t : ℝ) :
    moonVallado t = equatorial (vmObliquity t) (vmDistance t) (vmLongitude t) (vmLatitude t) := by
  have hL := same_fmod (deg2rad (lecliptic t))
  have hF := same_fmod (deg2rad (fecliptic t))
  have hR := same_fmod (deg2rad (parallax t))
  have hE := same_fmod (deg2rad (obliquity t))
  unfold moonVallado
  dsimp only
  rw [hL.cos, hL.sin, hF.cos, hF.sin, hR.sin, hE.cos, hE.sin, lecliptic_eq, fecliptic_eq, obliquity_eq, parallax_eq]
  unfold equatorial vmDistance
  apply V3.ext' <;> dsimp only <;> norm_num <;> ring

theorem moonVallado_length (t : ℝ) : (moonVallado t).length = vmDistance t := by
  rw [moonVallado_eq]
  exact equatorial_length _ _ _ _ (div_nonneg (by norm_num) (by rw [← parallax_eq]; exact (sin_parallax_pos t).le))

/-- The distances are those of the Moon: between 350000 and 425000 km. -/
theorem vmDistance_bounds (t : ℝ) : 350000 ≤ vmDistance t ∧ vmDistance t ≤ 425000 := by
  obtain ⟨h1, h2⟩ := parallax_bounds t
  have hs := sin_parallax_pos t
  have p1 := pi_gt_d4
  have p2 := pi_lt_d4
  have hx0 : 0 < deg2rad (parallax t) := by
    unfold deg2rad
    have : 0 < parallax t := lt_of_lt_of_le (by norm_num) h1
    positivity
  have hx1 : deg2rad (parallax t) ≤ 0.018 := by
    unfold deg2rad
    have : parallax t * π ≤ 1.03 * 3.1416 := mul_le_mul h2 p2.le pi_pos.le (by norm_num)
    linarith
  have hx2 : 0.01518 ≤ deg2rad (parallax t) := by
    unfold deg2rad
    have : (0.87 : ℝ) * 3.1415 ≤ parallax t * π := mul_le_mul h1 p1.le (by norm_num) (by linarith)
    linarith
  have hup : sin (deg2rad (parallax t)) ≤ deg2rad (parallax t) := (sin_lt hx0).le
  have hlo := sin_gt_sub_cube hx0
  unfold vmDistance
  rw [← parallax_eq]
  constructor
  · rw [le_div_iff₀ hs]
    linarith
  · rw [div_le_iff₀ hs]
    have hc : deg2rad (parallax t) ^ 3 ≤ 0.018 ^ 3 := pow_le_pow_left₀ hx0.le hx1 3
    norm_num at hc ⊢
    linarith

/-- **The unit of the argument.**  The header (src/planetpos.hpp:104-110) documents the argument of
`sun_vector_curtis` as Julian centuries, like that of `sun_vector_vallado`.  The series advances by one
day's motion per unit, so the argument is in days, as the overload for dates passes it
(src/planetpos.hpp:170-172). -/
theorem curtis_argument_counterexample (t : ℝ) :
    cuAnomaly (t + 1) - cuAnomaly t = deg2rad 0.98560023 ∧
      vaAnomaly (t + 1) - vaAnomaly t = deg2rad 35999.50534 := by
  constructor
  · unfold cuAnomaly deg2rad; ring
  · unfold vaAnomaly deg2rad; ring

end Verif.SunMoon
