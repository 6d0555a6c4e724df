import Mathlib.Algebra.Field.Basic
import Mathlib.Data.Nat.Cast.Basic

/-
The solid spherical harmonics that the recursion is meant to produce, as pure functions
(Montenbruck & Gill (3.29)-(3.31)).  That these functions are the right ones is not taken on
trust: `Verif/Gravity/Gradient.lean` shows that they start with `R/r` and are related by
differentiation.
-/
namespace Verif.Gravity

variable {K : Type} [Field K]

/-- The position as seen by the recursion: `x0 = R x / r²`, …, `rho = R² / r²`, `v00 = R / r`. -/
structure Geo (K : Type) where
  x0 : K
  y0 : K
  z0 : K
  rho : K
  v00 : K

/-- Sectorial pair `(V_mm, W_mm)`. -/
def sect (g : Geo K) : Nat → K × K
  | 0 => (g.v00, 0)
  | m + 1 =>
    ((2 * (m : K) + 1) * (g.x0 * (sect g m).1 - g.y0 * (sect g m).2),
     (2 * (m : K) + 1) * (g.x0 * (sect g m).2 + g.y0 * (sect g m).1))

/-- Next member of a column, degree `m + d + 2`, from the two before it. -/
def nextInColumn (g : Geo K) (m d : Nat) (a b : K) : K :=
  ((2 * ((m : K) + d + 2) - 1) * g.z0 * a - (2 * (m : K) + d + 1) * g.rho * b) / ((d : K) + 2)

/-- `(V_nm, W_nm)` for `n = m + d`. -/
def col (g : Geo K) (m : Nat) : Nat → K × K
  | 0 => sect g m
  | 1 => ((2 * (m : K) + 1) * g.z0 * (sect g m).1, (2 * (m : K) + 1) * g.z0 * (sect g m).2)
  | d + 2 => (nextInColumn g m d (col g m (d + 1)).1 (col g m d).1,
      nextInColumn g m d (col g m (d + 1)).2 (col g m d).2)

/-- `V_nm`. -/
def specV (g : Geo K) (n m : Nat) : K := (col g m (n - m)).1

/-- `W_nm`. -/
def specW (g : Geo K) (n m : Nat) : K := (col g m (n - m)).2

end Verif.Gravity
