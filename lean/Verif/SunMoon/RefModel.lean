import Verif.SunMoon.Model

/-
The programs test/test_sun_ref.cpp and test/test_moon_ref.cpp, which compare the low-precision positions with those of an
ephemeris file at random dates and print the average distances.

The dates drawn are a list; a date is its Julian date.  The positions of the ephemeris (`spkezp_c`) are a parameter.  `rnd` is the
rounding of a double operation in the averages; the positions themselves are taken without rounding.  `printf` is left out: a row
holds the numbers.
-/
namespace Verif.SunMoon

open Real

/-- `jcenturies_sinceJ2000` of the datetime library, called in src/planetpos.hpp:149, 160, 199, 209. -/
noncomputable def centuries (jd : ℝ) : ℝ := (jd - 2451545) / 36525

/-- The argument of `sun_vector_curtis` (src/planetpos.hpp:171). -/
noncomputable def daysJ2000 (jd : ℝ) : ℝ := jd - 2451545

/-- `rdiff` (test/test_sun_ref.cpp:44-46, 53-55, 62-64; test/test_moon_ref.cpp:44-46, 53-55). -/
noncomputable def rdiff (v r : V3) : ℝ :=
  sqrt ((v.x - r.x) * (v.x - r.x) + (v.y - r.y) * (v.y - r.y) + (v.z - r.z) * (v.z - r.z))

/-- `mr += (1/(i+1)) * (rdiff - mr)` (test/test_sun_ref.cpp:47, 56, 65; test/test_moon_ref.cpp:47, 56): `1` and `i+1` are of type
`int`. -/
noncomputable def update (rnd : ℝ → ℝ) (i : ℕ) (mr r : ℝ) : ℝ :=
  rnd (mr + rnd (((Int.tdiv 1 ((i : ℤ) + 1) : ℤ) : ℝ) * rnd (r - mr)))

/-- The average after a list of distances, from index `i` on (test/test_sun_ref.cpp:31-66). -/
noncomputable def averageFrom (rnd : ℝ → ℝ) : ℕ → ℝ → List ℝ → ℝ
  | _, mr, [] => mr
  | i, mr, r :: rs => averageFrom rnd (i + 1) (update rnd i mr r) rs

/-- From `mr = 0` (test/test_sun_ref.cpp:28; test/test_moon_ref.cpp:28). -/
noncomputable def average (rnd : ℝ → ℝ) (rs : List ℝ) : ℝ := averageFrom rnd 0 0 rs

/-- A printed row (test/test_sun_ref.cpp:41-43, 50-52, 59-61; test/test_moon_ref.cpp:41-43, 50-52): the position and the differences of
its components. -/
structure Row where
  pos : V3
  dx : ℝ
  dy : ℝ
  dz : ℝ

/-- The row of a position `v` and the reference `r`. -/
noncomputable def row (v r : V3) : Row := ⟨v, |v.x - r.x|, |v.y - r.y|, |v.z - r.z|⟩

/-- The loop of test/test_sun_ref.cpp:31-71: for each date the reference and three rows, then three averages. -/
noncomputable def sunRef (rnd : ℝ → ℝ) (ref : ℝ → V3) (dates : List ℝ) : List (V3 × Row × Row × Row) × ℝ × ℝ × ℝ :=
  let m := fun t => sunMontenbruck (centuries t)
  let v := fun t => sunVallado (centuries t)
  let c := fun t => sunCurtis (daysJ2000 t)
  (dates.map fun t => (ref t, row (m t) (ref t), row (v t) (ref t), row (c t) (ref t)),
    average rnd (dates.map fun t => rdiff (m t) (ref t)), average rnd (dates.map fun t => rdiff (v t) (ref t)),
    average rnd (dates.map fun t => rdiff (c t) (ref t)))

/-- The loop of test/test_moon_ref.cpp:31-70; `fa` gives the fundamental arguments. -/
noncomputable def moonRef (rnd : ℝ → ℝ) (fa : ℝ → ℝ × ℝ × ℝ × ℝ) (ref : ℝ → V3) (dates : List ℝ) : List (V3 × Row × Row) × ℝ × ℝ :=
  let a := fun t => moonApprox (fa (centuries t)).1 (fa (centuries t)).2.1 (fa (centuries t)).2.2.1 (fa (centuries t)).2.2.2 (centuries t)
  let v := fun t => moonVallado (centuries t)
  (dates.map fun t => (ref t, row (a t) (ref t), row (v t) (ref t)),
    average rnd (dates.map fun t => rdiff (a t) (ref t)), average rnd (dates.map fun t => rdiff (v t) (ref t)))

end Verif.SunMoon
