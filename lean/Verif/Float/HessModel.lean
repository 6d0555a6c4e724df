import Verif.Float.GravityModel

/-
Model of the partials of `grav_potential_accel` (src/gravity/gravity_acceleration.cpp:65-223) in double arithmetic.  As
in Verif/Float/GravityModel.lean every operation is followed by a rounding, a product that is a term of a sum may be
fused with it (`fl`), integers up to 2^53 are exact and overflow is outside the model.  The doubled and halved factors
(`2e0 * fac2`, `fac3 * 0.5e0`) are exact: the factors are zero or far from the ends of the range.  The acceleration of
this overload is the one of C176; the entries above the diagonal, which the function does not compute, are the subject
of C54.
-/
namespace Verif.Float.Hess

open Verif.Float.Gravity

/-- The entries that are summed up (src/gravity/gravity_acceleration.cpp:204-214). -/
inductive Ent | xx | xy | xz | yz | zz

/-- `fac` of the first loop in turn `i` (src/gravity/gravity_acceleration.cpp:82, 101); in turn `i` of the second loop
(108, 118) it is the one of turn `i - 1` here. -/
noncomputable def up (rnd : ℝ → ℝ) : ℕ → ℝ
  | 0 => 2
  | i + 1 => rnd (up rnd i * rnd (((i + 3 : ℕ) : ℝ) / ((i + 1 : ℕ) : ℝ)))

/-- `factorialRatio<double>(d + e, d)` (src/factorial.hpp:30-39). -/
def ratioD (rnd : ℝ → ℝ) (d e : ℕ) : ℝ := (List.range' (d + 1) e).foldl (fun s k => rnd (s * (k : ℕ))) 1

/-- The factor `fac2`, `fac3` or `fac4` (`e` = 2, 3, 4) in row `i` after `k` turns with `j > 1`, that is at `j = k + 2`
(src/gravity/gravity_acceleration.cpp:127-139, 181-183). -/
noncomputable def down (rnd : ℝ → ℝ) (e i : ℕ) : ℕ → ℝ
  | 0 => ratioD rnd (i - 2) e
  | k + 1 => rnd (down rnd e i k * rnd (((i - (k + 2) : ℕ) : ℝ) / ((i - (k + 2) + e : ℕ) : ℝ)))

/-- What a turn of the first loop adds (src/gravity/gravity_acceleration.cpp:94-99). -/
noncomputable def m0 (rnd : ℝ → ℝ) (fl : ℕ → ℕ → ℕ → Bool) (d : In) (F : ℕ → ℝ) (e : Ent) (i : ℕ) : ℝ :=
  let c := d.C i 0
  let q := fun k => rq rnd (fl i 0 k)
  match e with
  | .xx => q 3 (1 / 2 * rnd (q 4 (c * d.V (i + 2) 2) - q 5 (F i * rnd (c * d.V (i + 2) 0))))
  | .xy => q 6 (1 / 2 * rnd (c * d.W (i + 2) 2))
  | .xz => q 7 (rnd (((i + 1 : ℕ) : ℝ) * c) * d.V (i + 2) 1)
  | .yz => q 8 (rnd (((i + 1 : ℕ) : ℝ) * c) * d.W (i + 2) 1)
  | .zz => q 9 ((((i + 1) * (i + 2) : ℕ) : ℝ) * rnd (c * d.V (i + 2) 0))

/-- What a turn of the second loop adds (src/gravity/gravity_acceleration.cpp:110-116); nothing is added to the entries
xz and yz. -/
noncomputable def m1 (rnd : ℝ → ℝ) (fl : ℕ → ℕ → ℕ → Bool) (d : In) (F : ℕ → ℝ) (e : Ent) (i : ℕ) : ℝ :=
  let c := d.C i 1
  let s := d.S i 1
  let q := fun k => rq rnd (fl i 1 k)
  match e with
  | .xx => q 20 (1 / 4 * rnd (rnd (q 21 (c * d.V (i + 2) 3) + q 22 (s * d.W (i + 2) 3)) +
      q 23 (F (i - 1) * rnd (q 24 (rnd (-3 * c) * d.V (i + 2) 1) - q 25 (s * d.W (i + 2) 1)))))
  | .xy => q 26 (1 / 4 * rnd (rnd (q 27 (c * d.W (i + 2) 3) - q 28 (s * d.V (i + 2) 3)) +
      q 29 (F (i - 1) * rnd (q 30 (-c * d.W (i + 2) 1) - q 31 (s * d.V (i + 2) 1)))))
  | .zz => q 32 (((i * (i + 1) : ℕ) : ℝ) * rnd (q 33 (c * d.V (i + 2) 1) + q 34 (s * d.W (i + 2) 1)))
  | _ => 0

/-- What a turn of the third loop adds for `j > 1` (src/gravity/gravity_acceleration.cpp:142-143, 160-179); `G e i k` is
the factor at `j = k + 2`. -/
noncomputable def m2 (rnd : ℝ → ℝ) (fl : ℕ → ℕ → ℕ → Bool) (d : In) (G : ℕ → ℕ → ℕ → ℝ) (e : Ent) (p : ℕ × ℕ) : ℝ :=
  let i := p.1
  let j := p.2
  let c := d.C i j
  let s := d.S i j
  let q := fun k => rq rnd (fl i j k)
  let h : ℝ := ((i - j + 1 : ℕ) : ℝ) / 2
  match e with
  | .xx => q 40 (1 / 4 * rnd (rnd (rnd (q 41 (c * d.V (i + 2) (j + 2)) + q 42 (s * d.W (i + 2) (j + 2))) +
      q 43 (2 * G 2 i (j - 2) * rnd (q 44 (-c * d.V (i + 2) j) - q 45 (s * d.W (i + 2) j)))) +
      q 46 (G 4 i (j - 2) * rnd (q 47 (c * d.V (i + 2) (j - 2)) + q 48 (s * d.W (i + 2) (j - 2))))))
  | .xy => q 49 (1 / 4 * rnd (rnd (q 50 (c * d.W (i + 2) (j + 2)) - q 51 (s * d.V (i + 2) (j + 2))) +
      q 52 (G 4 i (j - 2) * rnd (q 53 (-c * d.W (i + 2) (j - 2)) + q 54 (s * d.V (i + 2) (j - 2))))))
  | .xz => rnd (q 55 (h * rnd (q 56 (c * d.V (i + 2) (j + 1)) + q 57 (s * d.W (i + 2) (j + 1)))) +
      q 58 (G 3 i (j - 2) * (1 / 2) * rnd (q 59 (-c * d.V (i + 2) (j - 1)) - q 60 (s * d.W (i + 2) (j - 1)))))
  | .yz => rnd (q 61 (h * rnd (q 62 (c * d.W (i + 2) (j + 1)) - q 63 (s * d.V (i + 2) (j + 1)))) +
      q 64 (G 3 i (j - 2) * (1 / 2) * rnd (q 65 (c * d.W (i + 2) (j - 1)) - q 66 (s * d.V (i + 2) (j - 1)))))
  | .zz => q 67 (G 2 i (j - 2) * rnd (q 68 (c * d.V (i + 2) j) + q 69 (s * d.W (i + 2) j)))

/-- The turns of the third loop that add to the partials (src/gravity/gravity_acceleration.cpp:125, 141, 160). -/
def turns2 (degree order : ℕ) : List (ℕ × ℕ) := (turns degree order).filter fun p => 1 < p.2

/-- Sum of the parts (src/gravity/gravity_acceleration.cpp:204-214). -/
noncomputable def entD (rnd : ℝ → ℝ) (fl : ℕ → ℕ → ℕ → Bool) (degree order : ℕ) (d : In) (e : Ent) : ℝ :=
  let a := sumD rnd (m0 rnd fl d (up rnd) e) (List.range (degree + 1))
  let b := sumD rnd (m1 rnd fl d (up rnd) e) (List.range' 1 degree)
  let c := sumD rnd (m2 rnd fl d (down rnd) e) (turns2 degree order)
  match e with
  | .xz | .yz => rnd (a + c)
  | _ => rnd (rnd (a + b) + c)

/-- `GM / Re / Re / Re` (src/gravity/gravity_acceleration.cpp:220). -/
noncomputable def factorD (rnd : ℝ → ℝ) (Re GM : ℝ) : ℝ := rnd (rnd (rnd (GM / Re) / Re) / Re)

/-- An entry of the lower triangle (src/gravity/gravity_acceleration.cpp:204-214, 220). -/
noncomputable def partD (rnd : ℝ → ℝ) (fl : ℕ → ℕ → ℕ → Bool) (degree order : ℕ) (Re GM : ℝ) (d : In) (e : Ent) : ℝ :=
  rnd (entD rnd fl degree order d e * factorD rnd Re GM)

/-- The entry `(1, 1)` (src/gravity/gravity_acceleration.cpp:218, 220). -/
noncomputable def yyD (rnd : ℝ → ℝ) (fl : ℕ → ℕ → ℕ → Bool) (degree order : ℕ) (Re GM : ℝ) (d : In) : ℝ :=
  rnd (-rnd (entD rnd fl degree order d .xx + entD rnd fl degree order d .zz) * factorD rnd Re GM)

end Verif.Float.Hess
