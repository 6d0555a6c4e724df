import Verif.Float.ForceModel

/-
Model of `grav_potential_accel` (src/gravity/gravity_acceleration.cpp:12-63) in double arithmetic.  `C`, `S` are the
coefficients, `V`, `W` the entries of the work arrays.  Every operation is followed by a rounding; a product that is a
term of a sum may be fused with it, so that it is not rounded: `fl i j s` says so for the product number `s` of the turn
`i`, `j` of the loops.  The integers (up to 2^53) and the halves of their products are exact.  Overflow is outside the
model.
-/
namespace Verif.Float.Gravity

/-- What the loops read. -/
structure In where
  C : ℕ → ℕ → ℝ
  S : ℕ → ℕ → ℝ
  V : ℕ → ℕ → ℝ
  W : ℕ → ℕ → ℝ

/-- A product that is fused (not rounded) or not. -/
def rq (rnd : ℝ → ℝ) (b : Bool) (x : ℝ) : ℝ := if b then x else rnd x

/-- What a turn of the first loop adds (src/gravity/gravity_acceleration.cpp:22-25). -/
def zon (rnd : ℝ → ℝ) (fl : ℕ → ℕ → ℕ → Bool) (d : In) (a : Ax) (i : ℕ) : ℝ :=
  match a with
  | .x => rq rnd (fl i 0 0) (-d.C i 0 * d.V (i + 1) 1)
  | .y => rq rnd (fl i 0 1) (-d.C i 0 * d.W (i + 1) 1)
  | .z => rq rnd (fl i 0 2) (rnd (-((i + 1 : ℕ) : ℝ) * d.C i 0) * d.V (i + 1) 0)

/-- `fac` (src/gravity/gravity_acceleration.cpp:40). -/
noncomputable def fac (i j : ℕ) : ℝ := (((i - j + 1) * (i - j + 2) : ℕ) : ℝ) / 2

/-- What a turn of the inner loop adds (src/gravity/gravity_acceleration.cpp:32-46). -/
noncomputable def tes (rnd : ℝ → ℝ) (fl : ℕ → ℕ → ℕ → Bool) (d : In) (a : Ax) (p : ℕ × ℕ) : ℝ :=
  let i := p.1
  let j := p.2
  let c := d.C i j
  let s := d.S i j
  let q := fun k => rq rnd (fl i j k)
  match a with
  | .x => rnd (q 0 (1 / 2 * rnd (q 1 (-c * d.V (i + 1) (j + 1)) - q 2 (s * d.W (i + 1) (j + 1)))) +
      q 3 (fac i j * rnd (q 4 (c * d.V (i + 1) (j - 1)) + q 5 (s * d.W (i + 1) (j - 1)))))
  | .y => rnd (q 6 (1 / 2 * rnd (q 7 (-c * d.W (i + 1) (j + 1)) + q 8 (s * d.V (i + 1) (j + 1)))) +
      q 9 (fac i j * rnd (q 10 (-c * d.W (i + 1) (j - 1)) + q 11 (s * d.V (i + 1) (j - 1)))))
  | .z => q 12 (((i - j + 1 : ℕ) : ℝ) * rnd (q 13 (-c * d.V (i + 1) j) - q 14 (s * d.W (i + 1) j)))

/-- The turns of the two nested loops (src/gravity/gravity_acceleration.cpp:30-31). -/
def turns (degree order : ℕ) : List (ℕ × ℕ) :=
  (List.range' 1 degree).flatMap fun i => (List.range' 1 (min i order)).map fun j => (i, j)

/-- `acc += t` for every term. -/
def sumD {α : Type} (rnd : ℝ → ℝ) (t : α → ℝ) (l : List α) : ℝ := l.foldl (fun s k => rnd (s + t k)) 0

/-- `grav_potential_accel` (src/gravity/gravity_acceleration.cpp:12-63), component by component. -/
noncomputable def accelD (rnd : ℝ → ℝ) (fl : ℕ → ℕ → ℕ → Bool) (degree order : ℕ) (Re GM : ℝ) (d : In) (a : Ax) : ℝ :=
  rnd (rnd (sumD rnd (zon rnd fl d a) (List.range (degree + 1)) + sumD rnd (tes rnd fl d a) (turns degree order)) *
    rnd (GM / rnd (Re * Re)))

end Verif.Float.Gravity
