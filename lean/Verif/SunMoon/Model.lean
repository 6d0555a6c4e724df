import Mathlib.Analysis.SpecialFunctions.Trigonometric.Basic

/-
Model of the low-precision Sun and Moon positions: src/planets/sunpos.cpp:21-131 and
src/planets/moonpos.cpp:13-126.

Over the real numbers (no rounding).  The angle constants of the `iers2010` library are taken as exact
(`D2PI = 2π`, `TURNAS = 1296000`, `DAS2R = 2π / 1296000`, `DR2AS = 1 / DAS2R`); the fundamental arguments
`fal03`, `falp03`, `faf03`, `fad03` come from that library and are parameters.
-/
namespace Verif.SunMoon

open Real

/-- Integral part, towards zero (`modf`, `fmod`). -/
noncomputable def trunc (x : ℝ) : ℤ := if 0 ≤ x then ⌊x⌋ else ⌈x⌉

/-- `std::modf(x, &ipart)`: the fractional part with the sign of `x`. -/
noncomputable def modf (x : ℝ) : ℝ := x - trunc x

/-- `std::fmod(x, y)`. -/
noncomputable def fmod (x y : ℝ) : ℝ := x - trunc (x / y) * y

/-- `dso::deg2rad`. -/
noncomputable def deg2rad (x : ℝ) : ℝ := x * π / 180

/-- `iers2010::TURNAS`. -/
def turnas : ℝ := 1296000

/-- `iers2010::DAS2R`. -/
noncomputable def das2r : ℝ := 2 * π / 1296000

/-- `iers2010::DR2AS`. -/
noncomputable def dr2as : ℝ := 1296000 / (2 * π)

/-- A vector. -/
structure V3 where
  x : ℝ
  y : ℝ
  z : ℝ

/-- `DAUKM` (src/planets/sunpos.cpp:10). -/
def daukm : ℝ := 149597870.7

/-- `sun_vector_montenbruck` (src/planets/sunpos.cpp:21-46). -/
noncomputable def sunMontenbruck (t : ℝ) : V3 :=
  let M := 2 * π * modf (0.9931267 + 99.9973583 * t)
  let L := 2 * π * modf (0.7859444 + M / (2 * π) + (6892 * sin M + 72 * sin (2 * M)) / 1296.0e3)
  let r := 149.619e9 - 2.499e9 * cos M - 0.021e9 * cos (2 * M)
  let x := r * cos L / 1e3
  let y := r * sin L / 1e3
  let C := cos (-deg2rad 23.43929111)
  let S := sin (-deg2rad 23.43929111)
  ⟨x, C * y, -S * y⟩

/-- `sun_vector_vallado` (src/planets/sunpos.cpp:48-71). -/
noncomputable def sunVallado (t : ℝ) : V3 :=
  let lambda := fmod (280.460 + 36000.771 * t) 360
  let M := fmod (357.5291092 + 35999.50534 * t) 360
  let Mrad := deg2rad M
  let l := fmod (lambda + 1.914666471 * sin Mrad + 0.019994643 * sin (2 * Mrad)) 360
  let epsilon := 23.439291 - 0.0130042 * t
  let r_au := 1.000140612 - 0.016708617 * cos Mrad - 0.000139589 * cos (2 * Mrad)
  let S := sin (deg2rad l)
  ⟨r_au * cos (deg2rad l) * daukm, r_au * cos (deg2rad epsilon) * S * daukm,
    r_au * sin (deg2rad epsilon) * S * daukm⟩

/-- `sun_vector_approx21` (src/planets/sunpos.cpp:76-104, debug builds). -/
noncomputable def sunApprox21 (t : ℝ) : V3 :=
  let lambda := modf (280.460 / 360 + 36000.771 / 360 * t) * (2 * π)
  let M := modf (357.5291092 / 360 + 35999.50534 / 360 * t) * (2 * π)
  let lonArg := 1.914666471 * sin M + 0.019994643 * sin (2 * M)
  let lon := fmod (lonArg / 360 * (2 * π) + lambda) (2 * π)
  let e := deg2rad (23.439291 - 0.0130042 * t)
  let r_au := 1.000140612 - 0.016708617 * cos M - 0.000139589 * cos (2 * M)
  let S := sin lon
  ⟨r_au * cos lon * daukm, r_au * cos e * S * daukm, r_au * sin e * S * daukm⟩

/-- `sun_vector_curtis` (src/planets/sunpos.cpp:107-131). -/
noncomputable def sunCurtis (n : ℝ) : V3 :=
  let M := fmod (357.529 + 0.98560023 * n) 360
  let L := fmod (280.459 + 0.98564736 * n) 360
  let lon := fmod (L + 1.915 * sin (deg2rad M) + 0.0200 * sin (2 * deg2rad M)) 360
  let e := 23.439 - 3.65e-7 * n
  let ux := cos (deg2rad lon)
  let uy := cos (deg2rad e) * sin (deg2rad lon)
  let uz := sin (deg2rad e) * sin (deg2rad lon)
  let rs := 1.00014 - 0.01671 * cos (deg2rad M) - 0.000140 * cos (2 * deg2rad M)
  ⟨ux * rs * daukm, uy * rs * daukm, uz * rs * daukm⟩

/-- Longitude correction of the Moon in arc seconds (src/planets/moonpos.cpp:29-35). -/
noncomputable def dlambda (l lp F D : ℝ) : ℝ :=
  22640 * sin l + 769 * sin (2 * l) - 4586 * sin (l - 2 * D) + 2370 * sin (2 * D) + -668 * sin lp -
    412 * sin (2 * F) + -212 * sin (2 * l - 2 * D) - 206 * sin (l + lp - 2 * D) + 192 * sin (l + 2 * D) -
    165 * sin (lp - 2 * D) + 148 * sin (l - lp) - 125 * sin D - 110 * sin (l + lp) -
    55 * sin (2 * F - 2 * D)

/-- Distance of the Moon in metres (src/planets/moonpos.cpp:55-59). -/
noncomputable def moonDistance (l lp D : ℝ) : ℝ :=
  (385000 - 20905 * cos l - 3699 * cos (2 * D - l) - 2956 * cos (2 * D) - 570 * cos (2 * l) +
    246 * cos (2 * l - 2 * D) - 205 * cos (lp - 2 * D) - 171 * cos (l + 2 * D) -
    152 * cos (l + lp - 2 * D)) * 1e3

/-- Latitude series of the Moon in arc seconds (src/planets/moonpos.cpp:47-50), with the first argument
already reduced. -/
noncomputable def latitudeSeries (l lp F D sinarg : ℝ) : ℝ :=
  18520 * sin sinarg - 526 * sin (F - 2 * D) + 44 * sin (l + F - 2 * D) - 31 * sin (-l + F - 2 * D) -
    25 * sin (-2 * l + F) - 23 * sin (lp + F - 2 * D) + 21 * sin (-l + F) + 11 * sin (-lp + F - 2 * D)

/-- `moon_vector_approx` (src/planets/moonpos.cpp:13-76); `l`, `lp`, `F`, `D` are the fundamental
arguments at `t`. -/
noncomputable def moonApprox (l lp F D t : ℝ) : V3 :=
  let L0 := 2 * π * modf (0.606433 + 1336.851344 * t)
  let dl := dlambda l lp F D
  let lambda := fmod (L0 * dr2as + dl) turnas * das2r
  let sinarg := fmod (F + (dl + 412 * sin (2 * F) + 541 * sin lp) * das2r) (2 * π)
  let beta := fmod (latitudeSeries l lp F D sinarg) turnas * das2r
  let r := moonDistance l lp D
  let x := r * cos lambda * cos beta / 1e3
  let y := r * sin lambda * cos beta / 1e3
  let z := r * sin beta / 1e3
  let C := cos (-deg2rad 23.43929111)
  let S := sin (-deg2rad 23.43929111)
  ⟨x, C * y + S * z, -S * y + C * z⟩

/-- Ecliptic longitude of the Moon in degrees (src/planets/moonpos.cpp:79-86). -/
noncomputable def lecliptic (t : ℝ) : ℝ :=
  218.32 + 481267.8813 * t + 6.29 * sin (deg2rad (134.9 + 477198.85 * t)) -
    1.27 * sin (deg2rad (259.2 - 413335.38 * t)) + 0.66 * sin (deg2rad (235.7 + 890534.23 * t)) +
    0.21 * sin (deg2rad (269.9 + 954397.70 * t)) - 0.19 * sin (deg2rad (357.5 + 35999.05 * t)) -
    0.11 * sin (deg2rad (186.6 + 966404.05 * t))

/-- Ecliptic latitude of the Moon in degrees (src/planets/moonpos.cpp:88-92). -/
noncomputable def fecliptic (t : ℝ) : ℝ :=
  5.13 * sin (deg2rad (93.3 + 483202.03 * t)) + 0.28 * sin (deg2rad (228.2 + 960400.87 * t)) -
    0.28 * sin (deg2rad (318.3 + 6003.18 * t)) - 0.17 * sin (deg2rad (217.6 - 407332.20 * t))

/-- Horizontal parallax of the Moon in degrees (src/planets/moonpos.cpp:94-98). -/
noncomputable def parallax (t : ℝ) : ℝ :=
  0.9508 + 0.0518 * cos (deg2rad (134.9 + 477198.85 * t)) +
    0.0095 * cos (deg2rad (259.2 - 413335.38 * t)) + 0.0078 * cos (deg2rad (235.7 + 890534.23 * t)) +
    0.0028 * cos (deg2rad (269.9 + 954397.70 * t))

/-- Obliquity in degrees (src/planets/moonpos.cpp:100-101). -/
noncomputable def obliquity (t : ℝ) : ℝ :=
  23.439291 + t * (-0.0130042 + t * (-1.64e-7 + 5.04e-7 * t))

/-- `moon_vector_vallado` (src/planets/moonpos.cpp:78-126). -/
noncomputable def moonVallado (t : ℝ) : V3 :=
  let L := fmod (deg2rad (lecliptic t)) (2 * π)
  let F := fmod (deg2rad (fecliptic t)) (2 * π)
  let R := fmod (deg2rad (parallax t)) (2 * π)
  let E := fmod (deg2rad (obliquity t)) (2 * π)
  let l := cos F * cos L
  let m := cos E * cos F * sin L - sin E * sin F
  let n := sin E * cos F * sin L + cos E * sin F
  let Rm := 6378136.6 / 1e3 / sin R
  ⟨Rm * l, Rm * m, Rm * n⟩

end Verif.SunMoon
