import Verif.Float.GravityModel
import Verif.Gravity.Spec

/-
Model of the recurrences of `lagrange_polynomials` (src/gravity/lagrange_poly.cpp:67-125) in double arithmetic, entry by
entry (which entry of the work arrays is written when, and within bounds, is the subject of C52).  Every operation is
followed by a rounding; the first or the second product of a sum or difference may be fused with it: `fl n m s` says so.
The integers (up to 2^53) are exact.  The special case `m = 0` of the column is the zonal loop: there the code writes
`V(1,0) = z0 * V(0,0)`, without the factor one, and sets `W(n,0)` to zero; that the general formulas give the same doubles
is `zonal_first` and `plane_exact`.  Overflow is outside the model.
-/
namespace Verif.Float.Recur

open Verif.Gravity (Geo)
open Verif.Float.Gravity (rq)

/-- The position as seen by the recursion (src/gravity/lagrange_poly.cpp:81-90). -/
noncomputable def geoD (rnd : ℝ → ℝ) (f f' : FuseN) (x y z R : ℝ) : Geo ℝ :=
  let r2 := sqD rnd f z x y
  { x0 := rnd (rnd (R * x) / r2)
    y0 := rnd (rnd (R * y) / r2)
    z0 := rnd (rnd (R * z) / r2)
    rho := rnd (rnd (R * R) / r2)
    v00 := rnd (R / nrmD rnd f' ⟨z, x, y⟩) }

/-- Entries with equal degree and order (src/gravity/lagrange_poly.cpp:90-91, 105-106). -/
def sectD (rnd : ℝ → ℝ) (fl : ℕ → ℕ → ℕ → Bool) (g : Geo ℝ) : ℕ → ℝ × ℝ
  | 0 => (g.v00, 0)
  | m + 1 =>
    let p := sectD rnd fl g m
    let q := fun k => rq rnd (fl (m + 1) (m + 1) k)
    (rnd ((2 * (m : ℝ) + 1) * rnd (q 0 (g.x0 * p.1) - q 1 (g.y0 * p.2))),
      rnd ((2 * (m : ℝ) + 1) * rnd (q 2 (g.x0 * p.2) + q 3 (g.y0 * p.1))))

/-- Next entry of a column, degree `m + d + 2` (src/gravity/lagrange_poly.cpp:98-99, 115-120). -/
noncomputable def nextD (rnd : ℝ → ℝ) (b b' : Bool) (g : Geo ℝ) (m d : ℕ) (v w : ℝ) : ℝ :=
  rnd (rnd (rq rnd b (rnd ((2 * ((m : ℝ) + d + 2) - 1) * g.z0) * v) -
    rq rnd b' (rnd ((2 * (m : ℝ) + d + 1) * g.rho) * w)) / ((d : ℝ) + 2))

/-- Entries of order `m` and degree `m + d` (src/gravity/lagrange_poly.cpp:93-94, 97-101, 108-121). -/
noncomputable def colD (rnd : ℝ → ℝ) (fl : ℕ → ℕ → ℕ → Bool) (g : Geo ℝ) (m : ℕ) : ℕ → ℝ × ℝ
  | 0 => sectD rnd fl g m
  | 1 => (rnd (rnd ((2 * (m : ℝ) + 1) * g.z0) * (sectD rnd fl g m).1),
      rnd (rnd ((2 * (m : ℝ) + 1) * g.z0) * (sectD rnd fl g m).2))
  | d + 2 =>
    (nextD rnd (fl (m + d + 2) m 0) (fl (m + d + 2) m 1) g m d (colD rnd fl g m (d + 1)).1 (colD rnd fl g m d).1,
      nextD rnd (fl (m + d + 2) m 2) (fl (m + d + 2) m 3) g m d (colD rnd fl g m (d + 1)).2 (colD rnd fl g m d).2)

end Verif.Float.Recur
