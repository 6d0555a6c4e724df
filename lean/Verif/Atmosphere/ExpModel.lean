import Mathlib.Analysis.SpecialFunctions.Exp

/-
Model of the exponential atmosphere: src/atmosphere/exponential_atmospheric_model.cpp:8-67.

Altitudes are real numbers.  `std::trunc` followed by the conversion to `int` is the floor for the
positive altitudes the assertion admits; altitudes of 2^31 km and more (where the conversion is
undefined) are outside the model's theorems.
-/
namespace Verif.Atmosphere.Exponential

/-- One row (src/atmosphere/exponential_atmospheric_model.cpp:8-14). -/
structure Layer where
  lo : ℤ
  hi : ℤ
  base : ℤ
  rho : ℚ
  scale : ℚ
deriving DecidableEq

/-- The table (src/atmosphere/exponential_atmospheric_model.cpp:16-45), digit for digit. -/
def table : List Layer := [
    ⟨0, 25, 0, 1.225e0, 7.249e0⟩,
    ⟨25, 30, 25, 3.899e-2, 6.349e0⟩,
    ⟨30, 40, 30, 1.774e-2, 6.682e0⟩,
    ⟨40, 50, 40, 3.972e-3, 7.554e0⟩,
    ⟨50, 60, 50, 1.057e-3, 8.382e0⟩,
    ⟨60, 70, 60, 3.206e-4, 7.714e0⟩,
    ⟨70, 80, 70, 8.770e-5, 6.549e0⟩,
    ⟨80, 90, 80, 1.905e-5, 5.799e0⟩,
    ⟨90, 100, 90, 3.396e-6, 5.382e0⟩,
    ⟨100, 110, 100, 5.297e-7, 5.877e0⟩,
    ⟨110, 120, 110, 9.661e-8, 7.263e0⟩,
    ⟨120, 130, 120, 2.438e-8, 9.473e0⟩,
    ⟨130, 140, 130, 8.484e-9, 12.636e0⟩,
    ⟨140, 150, 140, 3.845e-9, 16.149e0⟩,
    ⟨150, 180, 150, 2.070e-9, 22.523e0⟩,
    ⟨180, 200, 180, 5.464e-10, 29740e0⟩,
    ⟨200, 250, 200, 2.789e-10, 37.105e0⟩,
    ⟨250, 300, 250, 7.248e-11, 45.546e0⟩,
    ⟨300, 350, 300, 2.418e-11, 53.628e0⟩,
    ⟨350, 400, 350, 9.518e-12, 53.298e0⟩,
    ⟨400, 450, 400, 3.725e-12, 58.515e0⟩,
    ⟨450, 500, 450, 1.585e-12, 60.828e0⟩,
    ⟨500, 600, 500, 6.967e-13, 63.822e0⟩,
    ⟨600, 700, 600, 1.454e-13, 71.835e0⟩,
    ⟨700, 800, 700, 3.614e-14, 88.667e0⟩,
    ⟨800, 900, 800, 1.170e-14, 124.64e0⟩,
    ⟨900, 1000, 900, 5.245e-15, 181.05e0⟩,
    ⟨1000, -1, 1000, 3.019e-15, 268.00e0⟩]

/-- The loop (src/atmosphere/exponential_atmospheric_model.cpp:57-62) over the rows from number `i`
on, the last row excluded; `dflt` is the initial `layer_nr`. -/
def findLayer (alt : ℤ) (dflt : ℕ) : List Layer → ℕ → ℕ
  | [], _ => dflt
  | l :: ls, i => if alt ≥ l.lo ∧ alt < l.hi then i else findLayer alt dflt ls (i + 1)

/-- Layer number for a truncated altitude (src/atmosphere/exponential_atmospheric_model.cpp:56-62). -/
def layerNr (alt : ℤ) : ℕ := findLayer alt (table.length - 1) table.dropLast 0

/-- `density` (src/atmosphere/exponential_atmospheric_model.cpp:49-67) for positive altitude. -/
noncomputable def density (h : ℝ) : ℝ :=
  let l := table.getD (layerNr ⌊h⌋) ⟨0, 0, 0, 0, 0⟩
  (l.rho : ℝ) * Real.exp (-(h - (l.base : ℝ)) / (l.scale : ℝ))

end Verif.Atmosphere.Exponential
