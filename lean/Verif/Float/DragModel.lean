import Verif.Float.ForceModel
import Verif.Float.Arith

/-
Model of `drag_accel` in double arithmetic (src/astrodynamics/drag.cpp:43-103: the overload without partials and the
one with partials).  Every operation is followed by a rounding `rnd`; products may be fused with the sum or difference
they belong to (the choices are parameters).  Eigen evaluates the outer products into temporaries.  Overflow is outside
the model.
-/
namespace Verif.Float.Drag

open Verif.Astro (V3)

/-- A difference of two products, compiled with or without fusing one of them. -/
def sub2D (rnd : ℝ → ℝ) (m : FuseP) (p q : ℝ) : ℝ :=
  match m with
  | .none => rnd (rnd p - rnd q)
  | .left => rnd (p - rnd q)
  | .right => rnd (rnd p - q)

/-- `a.cross(b)`. -/
def crossD (rnd : ℝ → ℝ) (m : FuseP) (a b : V3) : V3 :=
  ⟨sub2D rnd m (a.y * b.z) (a.z * b.y), sub2D rnd m (a.z * b.x) (a.x * b.z), sub2D rnd m (a.x * b.y) (a.y * b.x)⟩

/-- `vsat - omega.cross(rsat)` (src/astrodynamics/drag.cpp:49-54, 73-78). -/
def relVelD (rnd : ℝ → ℝ) (m : FuseP) (w : ℝ) (rsat vsat : V3) : V3 :=
  subD rnd vsat (crossD rnd m ⟨0, 0, w⟩ rsat)

open Classical in
/-- `vrel.normalized()`: Eigen divides by the root of the squared norm unless that is zero. -/
noncomputable def normalizedD (rnd : ℝ → ℝ) (f : FuseN) (v : V3) (a : Ax) : ℝ :=
  if 0 < sqD rnd f v.x v.y v.z then rnd (a.of v / rnd (√(sqD rnd f v.x v.y v.z))) else a.of v

/-- `-0.5e0 * CD * (Area / Mass)` (src/astrodynamics/drag.cpp:58, 81, 89, 99). -/
noncomputable def areaD (rnd : ℝ → ℝ) (CD Area Mass : ℝ) : ℝ := rnd (rnd (-(1 / 2) * CD) * rnd (Area / Mass))

/-- The acceleration for the relative velocity `v` (src/astrodynamics/drag.cpp:58-59, 82-83). -/
noncomputable def accD (rnd : ℝ → ℝ) (f g : FuseN) (CD Area Mass dens : ℝ) (v : V3) (a : Ax) : ℝ :=
  rnd (rnd (rnd (areaD rnd CD Area Mass * dens) * sqD rnd f v.x v.y v.z) * normalizedD rnd g v a)

/-- `drag_accel` (src/astrodynamics/drag.cpp:43-62). -/
noncomputable def dragD (rnd : ℝ → ℝ) (m : FuseP) (f g : FuseN) (w : ℝ) (rsat vsat : V3) (Area CD Mass dens : ℝ)
    (a : Ax) : ℝ :=
  accD rnd f g CD Area Mass dens (relVelD rnd m w rsat vsat) a

/-- Partials with respect to the drag coefficient (src/astrodynamics/drag.cpp:86). -/
noncomputable def dcD (rnd : ℝ → ℝ) (f : FuseN) (Area Mass dens : ℝ) (v : V3) (a : Ax) : ℝ :=
  rnd (rnd (rnd (rnd (-(1 / 2) * rnd (Area / Mass)) * dens) * nrmD rnd f v) * a.of v)

/-- Partials with respect to velocity (src/astrodynamics/drag.cpp:89-91), row `a`, column `b`. -/
noncomputable def dvD (rnd : ℝ → ℝ) (f g : FuseN) (CD Area Mass dens : ℝ) (v : V3) (a b : Ax) : ℝ :=
  rnd (rnd (areaD rnd CD Area Mass * dens) *
    rnd (rnd (nrmD rnd f v * (if a = b then 1 else 0)) + rnd (rnd (a.of v * b.of v) / nrmD rnd g v)))

/-- The same entry with the special values of IEEE arithmetic, for finite factors: the quotient may be NaN. -/
noncomputable def dvI (rnd : ℝ → ℝ) (f g : FuseN) (CD Area Mass dens : ℝ) (v : V3) (a b : Ax) : D :=
  D.mul rnd (.fin (rnd (areaD rnd CD Area Mass * dens)))
    (D.add rnd (.fin (rnd (nrmD rnd f v * (if a = b then 1 else 0))))
      (D.div rnd (.fin (rnd (a.of v * b.of v))) (.fin (nrmD rnd g v))))

/-- Column `b` of `XOmega` (src/astrodynamics/drag.cpp:94-97). -/
def xOmegaCol (w : ℝ) : Ax → V3
  | .x => ⟨0, w, 0⟩
  | .y => ⟨-w, 0, 0⟩
  | .z => ⟨0, 0, 0⟩

/-- Entry of `daccdv * XOmega`: the sum of three products. -/
def mulXD (rnd : ℝ → ℝ) (d x : V3) : ℝ :=
  rnd (rnd (rnd (d.x * x.x) + rnd (d.y * x.y)) + rnd (d.z * x.z))

/-- Partials with respect to position (src/astrodynamics/drag.cpp:98-100), row `a`, column `b`; `grad` is the gradient
of the density. -/
noncomputable def drD (rnd : ℝ → ℝ) (f g h : FuseN) (w CD Area Mass dens : ℝ) (v grad : V3) (a b : Ax) : ℝ :=
  let row : V3 := ⟨dvD rnd f g CD Area Mass dens v a .x, dvD rnd f g CD Area Mass dens v a .y,
    dvD rnd f g CD Area Mass dens v a .z⟩
  rnd (rnd (rnd (rnd (areaD rnd CD Area Mass * nrmD rnd h v) * a.of v) * b.of grad) - mulXD rnd row (xOmegaCol w b))

end Verif.Float.Drag
