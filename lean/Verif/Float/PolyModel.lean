import Verif.Float.Format

/-
Model of the clock polynomials (src/filters/models.hpp) in double arithmetic: every operation is followed by a
rounding `rnd`; `fused`: the compiler makes one operation of a product and the following sum.  The difference of the
abscissae is a double (for dates it is computed by a library outside the repository, src/filters/models.hpp:33-39).
-/
namespace Verif.Float

variable {K : Type} [Field K]

/-- `y += c * p`. -/
def maddD (rnd : K → K) (fused : Bool) (y c p : K) : K :=
  if fused then rnd (y + c * p) else rnd (y + rnd (c * p))

/-- `PolynomialModel::value_at` (src/filters/models.hpp:72-81). -/
def polyD (rnd : K → K) (fused : Bool) (order : ℕ) (cf : ℕ → K) (t : K) : K :=
  ((List.range' 1 order).foldl (fun p i => (maddD rnd fused p.1 (cf i) p.2, rnd (p.2 * t))) (cf 0, t)).1

/-- `LinearModel::value_at` (src/filters/models.hpp:16), for an arithmetic abscissa. -/
def lineD (rnd : K → K) (fused : Bool) (xref a b x : K) : K := maddD rnd fused a b (rnd (x - xref))

end Verif.Float
