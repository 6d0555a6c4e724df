import Mathlib.LinearAlgebra.Lagrange
import Mathlib.Analysis.SpecialFunctions.Integrals.Basic
import Mathlib.Tactic.Ring
import Mathlib.Tactic.FieldSimp
import Mathlib.Tactic.LinearCombination
import Mathlib.Algebra.BigOperators.Intervals

/-
Adams formulas with variable steps, independent of the integrator: divided differences and Newton's
form of the interpolating polynomial, the table of coefficients `table`, and their integrals.

Nodes and values are functions of the index, the newest point first.
-/
namespace Verif.Sgode

open Finset

section Newton

variable {K : Type} [Field K] {V : Type} [AddCommGroup V] [Module K V]

/-- Divided difference of the values `D` over the nodes `X i, …, X (i+m)`. -/
def dd (X : Nat → K) (D : Nat → V) : Nat → Nat → V
  | i, 0 => D i
  | i, m + 1 => (X i - X (i + m + 1))⁻¹ • (dd X D i m - dd X D (i + 1) m)

/-- `(t - X i)(t - X (i+1))…`, `m` factors. -/
def nodal (X : Nat → K) (t : K) (m : Nat) : K := ∏ j ∈ range m, (t - X j)

/-- Newton's form with `m` nodes. -/
def newton (X : Nat → K) (D : Nat → V) (m : Nat) (t : K) : V := ∑ i ∈ range m, nodal X t i • dd X D 0 i

/-- Modified divided difference: `(X 0 - X 1)…(X 0 - X i)` times the divided difference. -/
def modDiff (X : Nat → K) (D : Nat → V) (i : Nat) : V := (∏ j ∈ range i, (X 0 - X (j + 1))) • dd X D 0 i

/-- A new point in front. -/
def push {A : Type} (a : A) (X : Nat → A) : Nat → A
  | 0 => a
  | i + 1 => X i

theorem dd_shift (X : Nat → K) (D : Nat → V) (j : Nat) : ∀ (m i : Nat),
    dd (fun l => X (l + j)) (fun l => D (l + j)) i m = dd X D (i + j) m
  | 0, i => rfl
  | m + 1, i => by
    simp only [dd]
    rw [dd_shift X D j m i, dd_shift X D j m (i + 1), show i + m + 1 + j = i + j + m + 1 by omega,
      show i + 1 + j = i + j + 1 by omega]

theorem dd_push (a : K) (X : Nat → K) (b : V) (D : Nat → V) (i m : Nat) :
    dd (push a X) (push b D) (i + 1) m = dd X D i m :=
  (dd_shift (push a X) (push b D) 1 m i).symm

theorem nodal_succ (X : Nat → K) (t : K) (m : Nat) : nodal X t (m + 1) = nodal X t m * (t - X m) :=
  prod_range_succ _ _

theorem nodal_succ' (X : Nat → K) (t : K) (m : Nat) :
    nodal X t (m + 1) = (t - X 0) * nodal (fun l => X (l + 1)) t m := by
  unfold nodal
  rw [prod_range_succ']
  ring

theorem nodal_zero (X : Nat → K) (m j : Nat) (h : j < m) : nodal X (X j) m = 0 :=
  prod_eq_zero (mem_range.2 h) (sub_self _)

/-- The point in front may be used last. -/
theorem newton_front (X : Nat → K) (D : Nat → V) (t : K) : ∀ (m : Nat),
    (∀ j, 1 ≤ j → j ≤ m → X 0 ≠ X j) →
    newton X D (m + 1) t =
      newton (fun l => X (l + 1)) (fun l => D (l + 1)) m t + nodal (fun l => X (l + 1)) t m • dd X D 0 m
  | 0, _ => by simp [newton, nodal, dd]
  | m + 1, h => by
    have ih := newton_front X D t m fun j h1 h2 => h j h1 (by omega)
    have e1 : newton X D (m + 1 + 1) t = newton X D (m + 1) t + nodal X t (m + 1) • dd X D 0 (m + 1) := by
      unfold newton
      rw [sum_range_succ]
    have e2 : newton (fun l => X (l + 1)) (fun l => D (l + 1)) (m + 1) t =
        newton (fun l => X (l + 1)) (fun l => D (l + 1)) m t +
          nodal (fun l => X (l + 1)) t m • dd X D 1 m := by
      conv_lhs => unfold newton
      rw [sum_range_succ]
      rw [dd_shift X D 1 m 0]
      rfl
    have hne : X 0 - X (m + 1) ≠ 0 := sub_ne_zero.2 (h (m + 1) (by omega) le_rfl)
    have e3 : dd X D 0 m = dd X D 1 m + (X 0 - X (m + 1)) • dd X D 0 (m + 1) := by
      rw [dd, smul_smul]
      simp only [Nat.zero_add]
      rw [mul_inv_cancel₀ hne, one_smul]
      abel
    rw [e1, e2, ih, nodal_succ', nodal_succ (fun l => X (l + 1)), e3]
    simp only [smul_add, smul_smul]
    rw [add_assoc, add_assoc, add_assoc]
    congr 2
    rw [← add_smul]
    congr 1
    ring

/-- Newton's form takes the given values. -/
theorem newton_eval (X : Nat → K) (D : Nat → V) (m : Nat) :
    ∀ (_ : ∀ i j, i < j → j < m → X i ≠ X j) (j : Nat), j < m → newton X D m (X j) = D j := by
  induction m generalizing X D with
  | zero => intro _ j hj; omega
  | succ m ih =>
    intro h j hj
    cases j with
    | zero =>
      unfold newton
      rw [sum_range_succ', sum_eq_zero]
      · simp [nodal, dd]
      · intro i _
        rw [nodal_zero X (i + 1) 0 (by omega), zero_smul]
    | succ j =>
      rw [newton_front X D _ m fun j h1 h2 => h 0 j (by omega) (by omega),
        nodal_zero (fun l => X (l + 1)) m j (by omega), zero_smul, add_zero]
      exact ih (fun l => X (l + 1)) (fun l => D (l + 1)) (fun a b h1 h2 => h _ _ (by omega) (by omega)) j (by omega)

/-- How the modified differences change with a new point in front. -/
theorem modDiff_push (a : K) (X : Nat → K) (b : V) (D : Nat → V) (i : Nat) (h : a ≠ X i) :
    modDiff (push a X) (push b D) (i + 1) =
      modDiff (push a X) (push b D) i - nodal X a i • dd X D 0 i := by
  unfold modDiff nodal
  rw [prod_range_succ, dd]
  simp only [push, Nat.zero_add]
  rw [dd_push, smul_smul, mul_assoc, mul_inv_cancel₀ (sub_ne_zero.2 h), mul_one, smul_sub]

end Newton

section Table

variable {K : Type} [Field K]

/-- The coefficients: first row `1/(q+1)`, each further row from the one before with the quotient
of the step size and the distance of the node. -/
def table (α : Nat → K) : Nat → Nat → K
  | 0, q => 1 / ((q : K) + 1)
  | i + 1, q => table α i q - α i * table α i (q + 1)

theorem table_congr (α β : Nat → K) : ∀ (i q : Nat), (∀ j, j < i → α j = β j) → table α i q = table β i q
  | 0, _, _ => rfl
  | i + 1, q, h => by
    simp only [table]
    rw [table_congr α β i q fun j hj => h j (by omega), table_congr α β i (q + 1) fun j hj => h j (by omega),
      h i (by omega)]

end Table

/-- The table holds integrals over the step, scaled to [0, 1]. -/
theorem table_eq_integral (α : Nat → ℝ) : ∀ (i q : Nat),
    table α i q = ∫ u in (0 : ℝ)..1, (1 - u) ^ q * ∏ j ∈ range i, (1 - α j * (1 - u))
  | 0, q => by
    simp only [table, range_zero, prod_empty, mul_one]
    have h := intervalIntegral.integral_comp_sub_left (a := (0 : ℝ)) (b := 1) (fun u : ℝ => u ^ q) 1
    rw [h, integral_pow]
    simp
  | i + 1, q => by
    have hc : ∀ (m q : Nat), Continuous fun u : ℝ => (1 - u) ^ q * ∏ j ∈ range m, (1 - α j * (1 - u)) := by
      intro m q
      fun_prop
    rw [table, table_eq_integral α i q, table_eq_integral α i (q + 1), ← intervalIntegral.integral_const_mul,
      ← intervalIntegral.integral_sub]
    · congr 1
      funext u
      rw [prod_range_succ]
      ring
    · exact (hc i q).intervalIntegrable _ _
    · exact (continuous_const.mul (hc i (q + 1))).intervalIntegrable _ _

/-- The integral over the step of a product of distances. -/
theorem integral_nodal (X : Nat → ℝ) (h : ℝ) (i : Nat) (hne : ∀ j, j < i → X 0 + h - X j ≠ 0) :
    ∫ t in X 0..X 0 + h, nodal X t i =
      h * (nodal X (X 0 + h) i * table (fun j => h / (X 0 + h - X j)) i 0) := by
  have e1 := intervalIntegral.smul_integral_comp_mul_add (a := (0 : ℝ)) (b := 1) (fun t => nodal X t i) h (X 0)
  rw [smul_eq_mul, mul_zero, zero_add, mul_one, add_comm h (X 0)] at e1
  rw [← e1, table_eq_integral]
  congr 1
  rw [← intervalIntegral.integral_const_mul]
  congr 1
  funext u
  unfold nodal
  rw [pow_zero, one_mul, ← prod_mul_distrib]
  refine prod_congr rfl fun j hj => ?_
  have := hne j (mem_range.1 hj)
  field_simp
  ring

/-- A polynomial of degree below `m` with the values `D` at the nodes is Newton's. -/
theorem poly_eq_newton (X D : Nat → ℝ) (m : Nat) (h : ∀ i j, i < j → j < m → X i ≠ X j) (P : Polynomial ℝ)
    (hd : P.degree < m) (hv : ∀ j, j < m → P.eval (X j) = D j) (t : ℝ) : P.eval t = newton X D m t := by
  have hinj : Set.InjOn X (range m : Finset ℕ) := by
    intro a ha b hb hab
    simp only [coe_range, Set.mem_Iio] at ha hb
    rcases lt_trichotomy a b with hlt | heq | hgt
    · exact absurd hab (h a b hlt hb)
    · exact heq
    · exact absurd hab.symm (h b a hgt ha)
  let Q : Polynomial ℝ := ∑ i ∈ range m, Polynomial.C (dd X D 0 i) * ∏ j ∈ range i, (Polynomial.X - Polynomial.C (X j))
  have hQ : ∀ t, Q.eval t = newton X D m t := by
    intro t
    simp only [Q, Polynomial.eval_finsetSum, Polynomial.eval_mul, Polynomial.eval_C, Polynomial.eval_prod,
      Polynomial.eval_sub, Polynomial.eval_X, newton, nodal, smul_eq_mul]
    exact sum_congr rfl fun i _ => mul_comm _ _
  have hQd : Q.degree < m := by
    refine lt_of_le_of_lt (Polynomial.degree_sum_le _ _) ?_
    rw [Finset.sup_lt_iff (by exact WithBot.bot_lt_coe m)]
    intro i hi
    by_cases hz : dd X D 0 i = 0
    · rw [hz, Polynomial.C_0, zero_mul, Polynomial.degree_zero]
      exact WithBot.bot_lt_coe m
    rw [Polynomial.degree_C_mul hz, Polynomial.degree_prod]
    simp only [Polynomial.degree_X_sub_C, sum_const, card_range, nsmul_eq_mul, mul_one]
    exact_mod_cast mem_range.1 hi
  have hPQ : P = Q := by
    refine Polynomial.eq_of_degrees_lt_of_eval_index_eq (range m) hinj ?_ ?_ ?_
    · rwa [card_range]
    · rwa [card_range]
    · intro j hj
      rw [hQ, newton_eval X D m h j (mem_range.1 hj), hv j (mem_range.1 hj)]
  rw [hPQ, hQ]

/-- The integral over the step of the polynomial through `m` points. -/
theorem integral_poly (X D : Nat → ℝ) (h : ℝ) (m : Nat) (hX : ∀ i j, i < j → j < m → X i ≠ X j)
    (hne : ∀ j, j + 1 < m → X 0 + h - X j ≠ 0) (P : Polynomial ℝ) (hd : P.degree < m)
    (hv : ∀ j, j < m → P.eval (X j) = D j) :
    ∫ t in X 0..X 0 + h, P.eval t =
      h * ∑ i ∈ range m, table (fun j => h / (X 0 + h - X j)) i 0 * (nodal X (X 0 + h) i * dd X D 0 i) := by
  have e : (fun t => P.eval t) = fun t => ∑ i ∈ range m, nodal X t i * dd X D 0 i := by
    funext t
    rw [poly_eq_newton X D m hX P hd hv t]
    rfl
  rw [e, intervalIntegral.integral_finsetSum, mul_sum]
  · refine sum_congr rfl fun i hi => ?_
    rw [intervalIntegral.integral_mul_const, integral_nodal X h i fun j hj => hne j (by have := mem_range.1 hi; omega)]
    ring
  · intro i _
    apply Continuous.intervalIntegrable
    unfold nodal
    fun_prop

section Interpolation

/-- Coefficients of the interpolation formula: as `table`, with factors `γ j - η j (1 - u)`. -/
def table2 {K : Type} [Field K] (γ η : Nat → K) : Nat → Nat → K
  | 0, q => 1 / ((q : K) + 1)
  | i + 1, q => γ i * table2 γ η i q - η i * table2 γ η i (q + 1)

theorem table2_eq_integral (γ η : Nat → ℝ) : ∀ (i q : Nat),
    table2 γ η i q = ∫ u in (0 : ℝ)..1, (1 - u) ^ q * ∏ j ∈ range i, (γ j - η j * (1 - u))
  | 0, q => by
    simp only [table2, range_zero, prod_empty, mul_one]
    have h := intervalIntegral.integral_comp_sub_left (a := (0 : ℝ)) (b := 1) (fun u : ℝ => u ^ q) 1
    rw [h, integral_pow]
    simp
  | i + 1, q => by
    have hc : ∀ (m q : Nat), Continuous fun u : ℝ => (1 - u) ^ q * ∏ j ∈ range m, (γ j - η j * (1 - u)) := by
      intro m q
      fun_prop
    rw [table2, table2_eq_integral γ η i q, table2_eq_integral γ η i (q + 1), ← intervalIntegral.integral_const_mul,
      ← intervalIntegral.integral_const_mul, ← intervalIntegral.integral_sub]
    · congr 1
      funext u
      rw [prod_range_succ]
      ring
    · exact (continuous_const.mul (hc i q)).intervalIntegrable _ _
    · exact (continuous_const.mul (hc i (q + 1))).intervalIntegrable _ _

/-- The integral up to `X 0 + h` of a product of distances, by the distances `X 0 - X (j+1)`. -/
theorem integral_nodal2 (X : Nat → ℝ) (h : ℝ) (i : Nat) (hne : ∀ j, j < i → X 0 - X (j + 1) ≠ 0) :
    ∫ t in X 0..X 0 + h, nodal X t i =
      h * ((∏ j ∈ range i, (X 0 - X (j + 1))) *
        table2 (fun j => (X 0 + h - X j) / (X 0 - X (j + 1))) (fun j => h / (X 0 - X (j + 1))) i 0) := by
  have e1 := intervalIntegral.smul_integral_comp_mul_add (a := (0 : ℝ)) (b := 1) (fun t => nodal X t i) h (X 0)
  rw [smul_eq_mul, mul_zero, zero_add, mul_one, add_comm h (X 0)] at e1
  rw [← e1, table2_eq_integral]
  congr 1
  rw [← intervalIntegral.integral_const_mul]
  congr 1
  funext u
  unfold nodal
  rw [pow_zero, one_mul, ← prod_mul_distrib]
  refine prod_congr rfl fun j hj => ?_
  have := hne j (mem_range.1 hj)
  field_simp
  ring

/-- The integral up to `X 0 + h` of the polynomial through `m` points. -/
theorem integral_poly2 (X D : Nat → ℝ) (h : ℝ) (m : Nat) (hX : ∀ i j, i < j → j < m → X i ≠ X j)
    (P : Polynomial ℝ) (hd : P.degree < m) (hv : ∀ j, j < m → P.eval (X j) = D j) :
    ∫ t in X 0..X 0 + h, P.eval t =
      h * ∑ i ∈ range m,
        table2 (fun j => (X 0 + h - X j) / (X 0 - X (j + 1))) (fun j => h / (X 0 - X (j + 1))) i 0 * modDiff X D i := by
  have e : (fun t => P.eval t) = fun t => ∑ i ∈ range m, nodal X t i * dd X D 0 i := by
    funext t
    rw [poly_eq_newton X D m hX P hd hv t]
    rfl
  rw [e, intervalIntegral.integral_finsetSum, mul_sum]
  · refine sum_congr rfl fun i hi => ?_
    have hi := mem_range.1 hi
    rw [intervalIntegral.integral_mul_const,
      integral_nodal2 X h i fun j hj => sub_ne_zero.2 (hX 0 (j + 1) (by omega) (by omega)), modDiff, smul_eq_mul]
    ring
  · intro i _
    apply Continuous.intervalIntegrable
    unfold nodal
    fun_prop

/-- The value at `t` of the polynomial through `m` points. -/
theorem eval_poly2 (X D : Nat → ℝ) (t : ℝ) (m : Nat) (hX : ∀ i j, i < j → j < m → X i ≠ X j)
    (P : Polynomial ℝ) (hd : P.degree < m) (hv : ∀ j, j < m → P.eval (X j) = D j) :
    P.eval t = ∑ i ∈ range m, (∏ j ∈ range i, ((t - X j) / (X 0 - X (j + 1)))) * modDiff X D i := by
  rw [poly_eq_newton X D m hX P hd hv t]
  unfold newton nodal modDiff
  refine sum_congr rfl fun i hi => ?_
  have hi := mem_range.1 hi
  rw [smul_eq_mul, smul_eq_mul, ← mul_assoc, ← prod_mul_distrib]
  congr 1
  refine prod_congr rfl fun j hj => ?_
  have hj := mem_range.1 hj
  rw [div_mul_cancel₀]
  exact sub_ne_zero.2 (hX 0 (j + 1) (by omega) (by omega))

end Interpolation

/-- A component of a divided difference of vectors. -/
theorem dd_comp {K : Type} [Field K] {n : Nat} (X : Nat → K) (D : Nat → Fin n → K) (c : Fin n) : ∀ (m i : Nat),
    dd X D i m c = dd X (fun j => D j c) i m
  | 0, _ => rfl
  | m + 1, i => by
    simp only [dd, Pi.smul_apply, Pi.sub_apply]
    rw [dd_comp X D c m i, dd_comp X D c m (i + 1)]

theorem modDiff_comp {K : Type} [Field K] {n : Nat} (X : Nat → K) (D : Nat → Fin n → K) (c : Fin n) (i : Nat) :
    modDiff X D i c = modDiff X (fun j => D j c) i := by
  simp only [modDiff, Pi.smul_apply, dd_comp]

theorem dd_congr {K : Type} [Field K] {V : Type} [AddCommGroup V] [Module K V] (X Y : Nat → K) (D E : Nat → V) :
    ∀ (m i : Nat), (∀ j, i ≤ j → j ≤ i + m → X j = Y j ∧ D j = E j) → dd X D i m = dd Y E i m
  | 0, i, h => (h i le_rfl le_rfl).2
  | m + 1, i, h => by
    simp only [dd]
    rw [dd_congr X Y D E m i fun j h1 h2 => h j h1 (by omega),
      dd_congr X Y D E m (i + 1) fun j h1 h2 => h j (by omega) (by omega), (h i le_rfl (by omega)).1,
      (h (i + m + 1) (by omega) (by omega)).1]

theorem nodal_congr {K : Type} [Field K] (X Y : Nat → K) (t : K) (m : Nat) (h : ∀ j, j < m → X j = Y j) :
    nodal X t m = nodal Y t m :=
  prod_congr rfl fun j hj => by rw [h j (mem_range.1 hj)]

end Verif.Sgode
