import Verif.Float.Arith
import Verif.Harmonic.Model

/-
Model of the de-normalisation of gravity coefficients in double arithmetic
(src/gravity/harmonic_coeffs.cpp).  Integers are converted to double without error (they are `int`).
-/
namespace Verif.Float

open Verif.Harmonic (Table addrC addrS)

/-- The product loop of `_sum` for `m > 0` (src/gravity/harmonic_coeffs.cpp:61-66): `k` factors
starting at `start`. -/
noncomputable def sumLoopD (rnd : ℝ → ℝ) (start : Nat) : Nat → D
  | 0 => .fin 1
  | k + 1 => (sumLoopD rnd start k).mul rnd (.fin ((start + k : Nat) : ℝ))

/-- `_sum` (src/gravity/harmonic_coeffs.cpp:58-67). -/
noncomputable def sumFacD (rnd : ℝ → ℝ) (n m : Nat) : D :=
  if m = 0 then .fin 1 else sumLoopD rnd (n - m + 1) (2 * m)

/-- `compute_fac`, entry `i` (src/gravity/harmonic_coeffs.cpp:69-73). -/
noncomputable def facD (rnd : ℝ → ℝ) (n i : Nat) : D :=
  (((sumFacD rnd n i).div rnd (.fin (2 * n + 1))).div rnd
    (.fin (2 - (if i = 0 then 1 else 0)))).sqrt rnd

/-- The division of a coefficient in `denormalize` (src/gravity/harmonic_coeffs.cpp:97, 102). -/
noncomputable def denormD (rnd : ℝ → ℝ) (n m : Nat) (c : D) : D := c.div rnd (facD rnd n m)

end Verif.Float
