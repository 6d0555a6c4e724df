import Verif.Forces.Model
import Verif.Gravity.Model
import Verif.Gravity.Props
import Verif.Harmonic.Props

/-!
Model of the gravity part of the integration: the work arrays owned by `IntegrationParameters`
(src/orbit_integration.hpp:18-64), the calls of `grav_potential_accel` that compute the polynomials first
(src/egravity.hpp:163-195), with coefficients taken from the table of `HarmonicCoeffs`, and their use in
`VariationalEquations` (src/variational_equations.cpp:42-75).

Simplifications: real numbers stand for `double`; `none` is a failed assertion or an access outside the work arrays.  The
asserted calls are executed (the build does not define `NDEBUG`).  Reading the constants of Sun and Moon from a kernel
(src/orbit_integration.hpp:55) is taken to succeed.
-/
namespace Verif.Variational

open Verif.Astro Verif.Forces Verif.Gravity Verif.Mat2D
open Verif.Harmonic (addrC addrS)

/-- `HarmonicCoeffs` (src/harmonic_coeffs.hpp:55-59): constants and table. -/
structure Field where
  gm : ℝ
  re : ℝ
  table : Harmonic.Coeffs

/-- `C(i, j)` (src/harmonic_coeffs.hpp:156-161). -/
def Field.C (h : Field) (i j : Nat) : ℝ := h.table.data (addrC h.table.degree i j)

/-- `S(i, j)` (src/harmonic_coeffs.hpp:208-213). -/
def Field.S (h : Field) (i j : Nat) : ℝ := h.table.data (addrS h.table.degree i j)

/-- The members of `IntegrationParameters` used for gravity (src/orbit_integration.hpp:24-29). -/
structure Params where
  field : Field
  V : Mat ℝ
  W : Mat ℝ
  degree : Nat
  order : Nat

/-- A new work array (src/orbit_integration.hpp:48-51): `mem` is what the memory held. -/
noncomputable def newArray (degree order : Nat) (mem : Nat → ℝ) : Mat ℝ :=
  ⟨⟨degree + 3, order + 3⟩, (List.range (numElements .trapezoid ⟨degree + 3, order + 3⟩)).map mem⟩

/-- The constructor (src/orbit_integration.hpp:43-56). -/
noncomputable def construct (degree order : Nat) (h : Field) (memV memW : Nat → ℝ) : Option Params :=
  if degree = h.table.degree then some ⟨h, newArray degree order memV, newArray degree order memW, degree, order⟩ else none

/-- A triple as a vector. -/
def toV3 (a : ℝ × ℝ × ℝ) : V3 := ⟨a.1, a.2.1, a.2.2⟩

/-- A matrix by entries as one by rows. -/
def toM3 (m : Mat33 ℝ) : M3 :=
  ⟨⟨m 0 0, m 0 1, m 0 2⟩, ⟨m 1 0, m 1 1, m 1 2⟩, ⟨m 2 0, m 2 1, m 2 2⟩⟩

/-- `grav_potential_accel(pos, degree, order, V, W, hc)` (src/egravity.hpp:163-174). -/
noncomputable def gravAccel (h : Field) (degree order : Nat) (V W : Mat ℝ) (pos : V3) : Option (V3 × Mat ℝ × Mat ℝ) :=
  if ¬ (V.shape.rows ≥ degree + 2 ∧ V.shape.cols ≥ order + 2) then none
  else if ¬ (W.shape.rows ≥ degree + 2 ∧ W.shape.cols ≥ order + 2) then none
  else do
    let (status, V, W) ← lagrange (Geo.ofPos h.re pos.x pos.y pos.z) (degree + 1) (order + 1) V W
    if status ≠ 0 then none
    else do
      let a ← accel degree order h.re h.gm V W h.C h.S
      some (toV3 a, V, W)

/-- `grav_potential_accel(pos, degree, order, V, W, hc, partials)` (src/egravity.hpp:182-195); `inp` is what the matrix
of the caller holds. -/
noncomputable def gravAccelPartials (h : Field) (degree order : Nat) (V W : Mat ℝ) (pos : V3) (inp : Mat33 ℝ) :
    Option (V3 × M3 × Mat ℝ × Mat ℝ) :=
  if ¬ (V.shape.rows = degree + 3 ∧ V.shape.cols = order + 3) then none
  else if ¬ (W.shape.rows = degree + 3 ∧ W.shape.cols = order + 3) then none
  else do
    let (status, V, W) ← lagrange (Geo.ofPos h.re pos.x pos.y pos.z) (degree + 2) (order + 2) V W
    if status ≠ 0 then none
    else do
      let (a, out) ← accelPartials degree order h.re h.gm V W h.C h.S inp
      some (toV3 a, toM3 out, V, W)

/-- What one evaluation of the variational equations depends on: celestial position, rotations of the epoch, and what the
local matrix `gpartials` holds (src/variational_equations.cpp:26-46). -/
structure Call where
  r : V3
  rc2i : M3
  era : ℝ
  rpom : M3
  junk : Mat33 ℝ

/-- Gravity in one evaluation (src/variational_equations.cpp:42-75): celestial acceleration, partials, and the parameters
with the work arrays as they are left. -/
noncomputable def gravityTerm (p : Params) (q : Call) : Option (V3 × M3 × Params) := do
  let (acc, part, V, W) ← gravAccelPartials p.field p.degree p.order p.V p.W (rcel2ter q.r q.rc2i q.era q.rpom) q.junk
  let U := c2t q.rc2i q.era q.rpom
  some (rter2cel acc q.rc2i q.era q.rpom, M3.mul (M3.mul U part) U.transpose, { p with V := V, W := W })

/-- Evaluations one after the other, with the same parameters. -/
noncomputable def evaluations : Params → List Call → Option (List V3 × Params)
  | p, [] => some ([], p)
  | p, q :: qs => do
    let (a, _, p) ← gravityTerm p q
    let (as, p) ← evaluations p qs
    some (a :: as, p)

end Verif.Variational
