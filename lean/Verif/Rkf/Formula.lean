import Verif.Rkf.Model
import Mathlib.Tactic.Module
import Mathlib.Tactic.Ring
import Mathlib.Tactic.FieldSimp
import Mathlib.Tactic.NormNum
import Mathlib.Algebra.Order.Ring.Rat
import Mathlib.Algebra.BigOperators.Group.List.Basic

/-!
C133 (formula): the step of `RKF45::fehl` is the Runge-Kutta step of Fehlberg's table, which is of order 5; the
estimate of the error is the difference to a formula of order 4.
-/
namespace Verif.Rkf

variable {K : Type} [Field K] [LinearOrder K] [IsStrictOrderedRing K]
variable {E : Type} [AddCommGroup E] [Module K E]

/-! ### Specification: explicit Runge-Kutta methods -/

/-- The derivatives of an explicit method: for every stage its abscissa and the weights of the earlier ones. -/
def stages (f : K → E → E) (t h : K) (y : E) : List (K × List K) → List E → List E
  | [], ks => ks
  | (c, row) :: rest, ks =>
    stages f t h y rest (ks ++ [f (t + c * h) (y + h • (List.zipWith (fun a k => a • k) row ks).sum)])

/-- The step of an explicit method with weights `b`. -/
def rkStep (f : K → E → E) (t h : K) (y : E) (table : List (K × List K)) (b : List K) : E :=
  y + h • (List.zipWith (fun a k => a • k) b (stages f t h y table [])).sum

/-- Fehlberg's table. -/
def table (K : Type) [Field K] : List (K × List K) :=
  [(0, []), (1 / 4, [1 / 4]), (3 / 8, [3 / 32, 9 / 32]), (12 / 13, [1932 / 2197, -7200 / 2197, 7296 / 2197]),
    (1, [439 / 216, -8, 3680 / 513, -845 / 4104]), (1 / 2, [-8 / 27, 2, -3544 / 2565, 1859 / 4104, -11 / 40])]

/-- Fehlberg's weights of order 5. -/
def weights5 (K : Type) [Field K] : List K := [16 / 135, 0, 6656 / 12825, 28561 / 56430, -9 / 50, 2 / 55]

/-- Fehlberg's weights of order 4. -/
def weights4 (K : Type) [Field K] : List K := [25 / 216, 0, 1408 / 2565, 2197 / 4104, -1 / 5, 0]

/-- Product component by component. -/
def had (a b : List ℚ) : List ℚ := List.zipWith (· * ·) a b
/-- Scalar product. -/
def dot (a b : List ℚ) : ℚ := (had a b).sum
/-- The table applied to a vector. -/
def app (A : List (ℚ × List ℚ)) (v : List ℚ) : List ℚ := A.map fun r => dot r.2 v
/-- The abscissas. -/
def absc (A : List (ℚ × List ℚ)) : List ℚ := A.map (·.1)

/-- The conditions for order 4: one for every rooted tree with at most four nodes, and the abscissas are the sums
of the rows. -/
def Order4 (A : List (ℚ × List ℚ)) (b : List ℚ) : Prop :=
  (∀ r ∈ A, r.2.sum = r.1) ∧ b.sum = 1 ∧ dot b (absc A) = 1 / 2 ∧
  dot b (had (absc A) (absc A)) = 1 / 3 ∧ dot b (app A (absc A)) = 1 / 6 ∧
  dot b (had (absc A) (had (absc A) (absc A))) = 1 / 4 ∧ dot b (had (absc A) (app A (absc A))) = 1 / 8 ∧
  dot b (app A (had (absc A) (absc A))) = 1 / 12 ∧ dot b (app A (app A (absc A))) = 1 / 24

/-- The conditions for order 5: besides, one for every rooted tree with five nodes. -/
def Order5 (A : List (ℚ × List ℚ)) (b : List ℚ) : Prop :=
  Order4 A b ∧
  dot b (had (absc A) (had (absc A) (had (absc A) (absc A)))) = 1 / 5 ∧
  dot b (had (absc A) (had (absc A) (app A (absc A)))) = 1 / 10 ∧
  dot b (had (app A (absc A)) (app A (absc A))) = 1 / 20 ∧
  dot b (had (absc A) (app A (had (absc A) (absc A)))) = 1 / 15 ∧
  dot b (app A (had (absc A) (had (absc A) (absc A)))) = 1 / 20 ∧
  dot b (had (absc A) (app A (app A (absc A)))) = 1 / 30 ∧
  dot b (app A (had (absc A) (app A (absc A)))) = 1 / 40 ∧
  dot b (app A (app A (had (absc A) (absc A)))) = 1 / 60 ∧
  dot b (app A (app A (app A (absc A)))) = 1 / 120

instance (A : List (ℚ × List ℚ)) (b : List ℚ) : Decidable (Order4 A b) := by unfold Order4; infer_instance
instance (A : List (ℚ × List ℚ)) (b : List ℚ) : Decidable (Order5 A b) := by unfold Order5; infer_instance

/-! ### The program -/

theorem stages_eq (f : K → E → E) (t h : K) (y : E) :
    stages f t h y (table K) [] = [f t y, f (t + h / 4) (y + (h / 4) • f t y),
      (fehl f t h y (f t y) (f t y)).2.c1, (fehl f t h y (f t y) (f t y)).2.c2,
      (fehl f t h y (f t y) (f t y)).2.c3, (fehl f t h y (f t y) (f t y)).2.c4] := by
  have c2 : t + 1 / 4 * h = t + h / 4 := by ring
  have c3 : t + 3 / 8 * h = t + 3 * h / 8 := by ring
  have c4 : t + 12 / 13 * h = t + 12 * h / 13 := by ring
  have c6 : t + 1 / 2 * h = t + h / 2 := by ring
  have a2 : ∀ k1 : E, y + h • ((1 / 4 : K) • k1) = y + (h / 4) • k1 := by intro k1; module
  have a3 : ∀ k1 k2 : E, y + h • ((3 / 32 : K) • k1 + (9 / 32 : K) • k2) =
      y + (3 * h / 32) • (k1 + (3 : K) • k2) := by intro k1 k2; module
  have a4 : ∀ k1 k2 k3 : E, y + h • ((1932 / 2197 : K) • k1 + ((-7200 / 2197 : K) • k2 + (7296 / 2197 : K) • k3)) =
      y + (h / 2197) • ((1932 : K) • k1 + ((7296 : K) • k3 - (7200 : K) • k2)) := by intro k1 k2 k3; module
  have a5 : ∀ k1 k2 k3 k4 : E,
      y + h • ((439 / 216 : K) • k1 + ((-8 : K) • k2 + ((3680 / 513 : K) • k3 + (-845 / 4104 : K) • k4))) =
      y + (h / 4104) • (((8341 : K) • k1 - (845 : K) • k4) + ((29440 : K) • k3 - (32832 : K) • k2)) := by
    intro k1 k2 k3 k4; module
  have a6 : ∀ k1 k2 k3 k4 k5 : E,
      y + h • ((-8 / 27 : K) • k1 + ((2 : K) • k2 + ((-3544 / 2565 : K) • k3 + ((1859 / 4104 : K) • k4 +
        (-11 / 40 : K) • k5)))) =
      y + (h / 20520) • (((-6080 : K) • k1 + ((9295 : K) • k4 - (5643 : K) • k5)) +
        ((41040 : K) • k2 - (28352 : K) • k3)) := by
    intro k1 k2 k3 k4 k5; module
  simp only [table, stages, List.nil_append, List.cons_append, List.zipWith_cons_cons,
    List.zipWith_nil_right, List.sum_cons, List.sum_nil, smul_zero, add_zero, zero_mul, one_mul, a2, a3, a4, a5, a6,
    c2, c3, c4, c6, fehl]

/-- **C133** The result of `fehl`, called with the derivative at the beginning, is the step of Fehlberg's table
with the weights of order 5. -/
theorem fehl_is_step (f : K → E → E) (t h : K) (y : E) :
    (fehl f t h y (f t y) (f t y)).1 = rkStep f t h y (table K) (weights5 K) := by
  unfold rkStep
  rw [stages_eq]
  simp only [weights5, List.zipWith_cons_cons, List.zipWith_nil_right, List.sum_cons, List.sum_nil]
  have h1 : ∀ f f0 : E, ∀ F : Cols E, y + (h / 7618050) • (((902880 : K) • f + ((3855735 : K) • F.c2 - (1371249 : K) • F.c3)) +
      ((3953664 : K) • F.c1 + (277020 : K) • F.c4)) = y + h • ((16 / 135 : K) • f + ((0 : K) • f0 +
      ((6656 / 12825 : K) • F.c1 + ((28561 / 56430 : K) • F.c2 + ((-9 / 50 : K) • F.c3 + ((2 / 55 : K) • F.c4 + 0)))))) := by
    intro f f0 F; module
  rw [← h1]
  rfl

/-- **C133** What is compared with the tolerance is the difference of the steps of order 5 and 4. -/
theorem error_is_difference (f : K → E → E) (t h : K) (y : E) :
    (h / 752400) • errSum (K := K) (f t y) (fehl f t h y (f t y) (f t y)).2 =
      rkStep f t h y (table K) (weights4 K) - rkStep f t h y (table K) (weights5 K) := by
  unfold rkStep errSum
  rw [stages_eq]
  simp only [weights4, weights5, List.zipWith_cons_cons, List.zipWith_nil_right, List.sum_cons, List.sum_nil]
  module

/-- **C133** Fehlberg's table has order 5 with one set of weights and order 4, not 5, with the other. -/
theorem table_orders : Order5 (table ℚ) (weights5 ℚ) ∧ Order4 (table ℚ) (weights4 ℚ) ∧
    ¬ Order5 (table ℚ) (weights4 ℚ) := by
  decide +kernel

/-- **C133** Derivatives that are polynomials of the time of degree at most 4 are integrated exactly. -/
theorem fehl_polynomial (a0 a1 a2 a3 a4 : E) (t h : K) (y : E) :
    let f : K → E → E := fun t _ => a0 + t • a1 + t ^ 2 • a2 + t ^ 3 • a3 + t ^ 4 • a4
    let F : K → E := fun t => t • a0 + (t ^ 2 / 2) • a1 + (t ^ 3 / 3) • a2 + (t ^ 4 / 4) • a3 + (t ^ 5 / 5) • a4
    (fehl f t h y (f t y) (f t y)).1 = y + (F (t + h) - F t) := by
  intro f F
  simp only [fehl, f, F]
  match_scalars <;> ring

/-- **C133** For linear equations `y' = A y` the step is the exponential series up to the fifth power of the step
size. -/
theorem fehl_linear (A : E →ₗ[K] E) (t h : K) (y : E) :
    (fehl (fun _ v => A v) t h y (A y) (A y)).1 =
      y + h • A y + (h ^ 2 / 2) • A (A y) + (h ^ 3 / 6) • A (A (A y)) + (h ^ 4 / 24) • A (A (A (A y))) +
        (h ^ 5 / 120) • A (A (A (A (A y)))) + (h ^ 6 / 2080) • A (A (A (A (A (A y))))) := by
  simp only [fehl, map_add, map_sub, map_smul]
  match_scalars <;> ring

end Verif.Rkf
