import Verif.Float.StateModel
import Verif.Forces.Model

/-
Model of `rcel2ter` and `rter2cel` (src/itrs2gcrs.cpp:84-91, 120-127) in double arithmetic.  `sn` and `cs` stand for
`std::sin` and `std::cos`.  The products of matrices belong to the library Eigen; every entry of a product is taken to be
the sum of three products in one of the two orders, every product and every sum is rounded, and a product may be fused
with a sum: `f 0`, `f 1`, `f 2` tell which of the products are fused, `f 3` tells the order.  The choices may be different
for every entry.  Overflow is outside the model.
-/
namespace Verif.Float.Frame

open Verif.Astro (V3 M3)
open Verif.Float.Gravity (rq)

/-- A sum of three products as Eigen evaluates it for an entry of a product (src/itrs2gcrs.cpp:89-90, 125-126). -/
noncomputable def dotD (rnd : ℝ → ℝ) (f : ℕ → Bool) (a b : V3) : ℝ :=
  if f 3 then rnd (rnd (rq rnd (f 0) (a.x * b.x) + rq rnd (f 1) (a.y * b.y)) + rq rnd (f 2) (a.z * b.z))
  else rnd (rq rnd (f 0) (a.x * b.x) + rnd (rq rnd (f 1) (a.y * b.y) + rq rnd (f 2) (a.z * b.z)))

/-- Product of matrix and vector (src/itrs2gcrs.cpp:90, 126). -/
noncomputable def mulVecD (rnd : ℝ → ℝ) (f : ℕ → ℕ → Bool) (m : M3) (v : V3) : V3 :=
  ⟨dotD rnd (f 0) m.r0 v, dotD rnd (f 1) m.r1 v, dotD rnd (f 2) m.r2 v⟩

/-- Product of two matrices (src/itrs2gcrs.cpp:89-90, 125-126): every row of the first with the columns of the second. -/
noncomputable def mulD (rnd : ℝ → ℝ) (f : ℕ → ℕ → ℕ → Bool) (a b : M3) : M3 :=
  ⟨mulVecD rnd (f 0) b.transpose a.r0, mulVecD rnd (f 1) b.transpose a.r1, mulVecD rnd (f 2) b.transpose a.r2⟩

/-- `Eigen::AngleAxisd(era, -Eigen::Vector3d::UnitZ())` as a matrix (src/itrs2gcrs.cpp:89, 125): the products with the
components of the axis are exact, and the last entry is `(1 - cos) + cos`. -/
noncomputable def axisD (rnd sn cs : ℝ → ℝ) (era : ℝ) : M3 :=
  ⟨⟨cs era, sn era, 0⟩, ⟨-sn era, cs era, 0⟩, ⟨0, 0, rnd (rnd (1 - cs era) + cs era)⟩⟩

/-- `rpom * rc2ti` (src/itrs2gcrs.cpp:89-90, 125-126). -/
noncomputable def c2tD (rnd sn cs : ℝ → ℝ) (f : ℕ → ℕ → ℕ → ℕ → Bool) (rc2i : M3) (era : ℝ) (rpom : M3) : M3 :=
  mulD rnd (f 1) rpom (mulD rnd (f 0) (axisD rnd sn cs era) rc2i)

/-- `rcel2ter` (src/itrs2gcrs.cpp:84-91). -/
noncomputable def rcel2terD (rnd sn cs : ℝ → ℝ) (f : ℕ → ℕ → ℕ → ℕ → Bool) (r : V3) (rc2i : M3) (era : ℝ) (rpom : M3) : V3 :=
  mulVecD rnd (f 2 0) (c2tD rnd sn cs f rc2i era rpom) r

/-- `rter2cel` (src/itrs2gcrs.cpp:120-127). -/
noncomputable def rter2celD (rnd sn cs : ℝ → ℝ) (f : ℕ → ℕ → ℕ → ℕ → Bool) (r : V3) (rc2i : M3) (era : ℝ) (rpom : M3) : V3 :=
  mulVecD rnd (f 2 0) (c2tD rnd sn cs f rc2i era rpom).transpose r

/-- `OmegaEarth` (src/itrs2gcrs.cpp:80-82): `w` is the nominal rate, `xlod` the excess of the length of day in seconds. -/
noncomputable def omegaD (rnd : ℝ → ℝ) (w xlod : ℝ) : ℝ := rnd (w * rnd (1 - rnd (xlod / 86400)))

end Verif.Float.Frame
