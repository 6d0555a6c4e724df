import Verif.Var.LegendreModel
import Mathlib.Algebra.Polynomial.Derivative
import Mathlib.Algebra.Polynomial.Eval.Degree
import Mathlib.Tactic.LinearCombination
import Mathlib.Tactic.FieldSimp
import Mathlib.Tactic.Linarith
import Mathlib.Tactic.NormNum

/-
C136: `plegendre` gives the normalised associated Legendre functions.
-/
namespace Verif.Var.Legendre

open Polynomial

/-! ### The functions, by the formula of Rodrigues -/

/-- The derivative of order `k` of (X^2 - 1)^l, divided by 2^l l!. -/
noncomputable def T (l k : Nat) : ℝ[X] := C ((2 ^ l * (l.factorial : ℝ))⁻¹) * derivative^[k] ((X ^ 2 - 1) ^ l)

/-- The associated Legendre function, with the sign (-1)^m. -/
noncomputable def assoc (l m : Nat) (x : ℝ) : ℝ := (-1) ^ m * Real.sqrt (1 - x ^ 2) ^ m * (T l (l + m)).eval x

/-- The normalisation of spherical harmonics. -/
noncomputable def norm (l m : Nat) : ℝ :=
  Real.sqrt ((2 * l + 1) / (4 * Real.pi) * ((l - m).factorial / (l + m).factorial))

/-! ### The recurrence -/

theorem coef_succ (l : Nat) :
    (2 * ((l : ℝ) + 1)) * (2 ^ (l + 1) * ((l + 1).factorial : ℝ))⁻¹ = (2 ^ l * (l.factorial : ℝ))⁻¹ := by
  have h1 : (l.factorial : ℝ) ≠ 0 := by exact_mod_cast l.factorial_ne_zero
  have h2 : ((l : ℝ) + 1) ≠ 0 := by positivity
  rw [Nat.factorial_succ]
  push_cast
  field_simp
  ring

theorem deriv_pow (l : Nat) : derivative ((X ^ 2 - 1 : ℝ[X]) ^ (l + 1)) = C (2 * ((l : ℝ) + 1)) * (X * (X ^ 2 - 1) ^ l) := by
  rw [derivative_pow]
  simp only [derivative_sub, derivative_X_pow, derivative_one, Nat.add_sub_cancel, map_mul, map_add, map_natCast, map_one,
    map_ofNat, Nat.cast_add, Nat.cast_one, Nat.cast_ofNat]
  ring

theorem iterate_X_mul (p : ℝ[X]) (k : Nat) :
    derivative^[k + 1] (X * p) = X * derivative^[k + 1] p + C ((k : ℝ) + 1) * derivative^[k] p := by
  induction k with
  | zero => simp [derivative_mul]; ring
  | succ k ih =>
    rw [Function.iterate_succ_apply', ih, derivative_add, derivative_mul, derivative_C_mul, derivative_X,
      ← Function.iterate_succ_apply' derivative, ← Function.iterate_succ_apply' derivative]
    simp only [map_add, map_natCast, map_one, Nat.cast_add, Nat.cast_one]
    ring

theorem T_first (l k : Nat) : T (l + 1) (k + 2) = X * T l (k + 1) + C ((k : ℝ) + 1) * T l k := by
  unfold T
  rw [Function.iterate_succ_apply, deriv_pow, iterate_derivative_C_mul, iterate_X_mul, ← mul_assoc, ← C_mul,
    mul_comm (_⁻¹) (2 * _), coef_succ]
  ring

theorem T_second (l k : Nat) : T (l + 2) (k + 2) = C (2 * (l : ℝ) + 3) * T (l + 1) k + T l k := by
  unfold T
  have h : derivative (derivative ((X ^ 2 - 1 : ℝ[X]) ^ (l + 2))) = C (2 * ((l + 1 : ℕ) : ℝ) + 2) *
      (C (2 * (l : ℝ) + 3) * (X ^ 2 - 1) ^ (l + 1) + C (2 * ((l : ℝ) + 1)) * (X ^ 2 - 1) ^ l) := by
    rw [deriv_pow (l + 1), derivative_C_mul, derivative_mul, deriv_pow]
    simp only [derivative_X, map_mul, map_add, map_natCast, map_one, map_ofNat, Nat.cast_add, Nat.cast_one]
    ring
  rw [Function.iterate_succ_apply, Function.iterate_succ_apply, h, iterate_derivative_C_mul, iterate_map_add derivative,
    iterate_derivative_C_mul, iterate_derivative_C_mul, ← mul_assoc, ← C_mul,
    show (2 ^ (l + 2) * ((l + 2).factorial : ℝ))⁻¹ * (2 * ((l + 1 : ℕ) : ℝ) + 2) = (2 ^ (l + 1) * ((l + 1).factorial : ℝ))⁻¹ from by
      rw [← coef_succ (l + 1)]; ring,
    ← coef_succ l]
  simp only [map_mul]
  ring

/-- The recurrence over the degrees. -/
theorem T_rec (l k : Nat) :
    C (2 * (l : ℝ) + 2 - k) * T (l + 2) (k + 2) = C (2 * (l : ℝ) + 3) * X * T (l + 1) (k + 1) - C ((k : ℝ) + 1) * T l k := by
  have h1 := T_first (l + 1) k
  have h2 := T_second l k
  have e : C (2 * (l : ℝ) + 2 - k) = C (2 * (l : ℝ) + 3) - C ((k : ℝ) + 1) := by
    rw [← C_sub]; congr 1; ring
  rw [e]
  linear_combination C (2 * (l : ℝ) + 3) * h1 - C ((k : ℝ) + 1) * h2

/-- Derivatives beyond the degree. -/
theorem T_zero (l k : Nat) (h : 2 * l < k) : T l k = 0 := by
  unfold T
  rw [iterate_derivative_eq_zero, mul_zero]
  refine lt_of_le_of_lt natDegree_pow_le ?_
  have : (X ^ 2 - 1 : ℝ[X]).natDegree ≤ 2 := by
    refine le_trans (natDegree_sub_le _ _) ?_
    simp
  nlinarith

theorem T_top_succ (l : Nat) : T (l + 1) (2 * l + 2) = C (2 * (l : ℝ) + 1) * T l (2 * l) := by
  cases l with
  | zero =>
    have := T_first 0 0
    rw [T_zero 0 1 (by omega)] at this
    simpa using this
  | succ l =>
    rw [T_second, T_zero l (2 * (l + 1)) (by omega), add_zero]
    congr 2
    push_cast
    ring

theorem T_first_zero (l : Nat) : T (l + 1) (2 * l + 1) = C (2 * (l : ℝ) + 1) * X * T l (2 * l) := by
  cases l with
  | zero =>
    unfold T
    simp [derivative_pow, ← mul_assoc, ← C_mul]
  | succ l =>
    have h := T_rec l (2 * l + 1)
    rw [T_zero l (2 * l + 1) (by omega), mul_zero, sub_zero] at h
    have e : C (2 * (l : ℝ) + 2 - ((2 * l + 1 : ℕ) : ℝ)) = 1 := by
      rw [← C_1]; congr 1; push_cast; ring
    rw [e, one_mul] at h
    rw [show 2 * (l + 1) + 1 = 2 * l + 1 + 2 by ring, h, show 2 * (l + 1) = 2 * l + 1 + 1 by ring]
    congr 3
    push_cast
    ring

/-! ### The normalisation -/

theorem norm_nonneg (l m : Nat) : 0 ≤ norm l m := Real.sqrt_nonneg _

theorem norm_sq (l m : Nat) : norm l m ^ 2 = (2 * l + 1) / (4 * Real.pi) * ((l - m).factorial / (l + m).factorial) := by
  unfold norm
  rw [Real.sq_sqrt]
  have := Real.pi_pos
  positivity

/-- The factor of line 35. -/
noncomputable def factor (m l : Nat) : ℝ := Real.sqrt ((4 * (l : ℝ) * l - 1) / ((l : ℝ) * l - (m : ℝ) * m))

theorem factor_sq (m d : Nat) : factor m (m + d + 1) ^ 2 =
    ((2 * ((m : ℝ) + d) + 1) * (2 * ((m : ℝ) + d) + 3)) / ((d + 1) * (2 * (m : ℝ) + d + 1)) := by
  unfold factor
  have e1 : 4 * ((m + d + 1 : ℕ) : ℝ) * ((m + d + 1 : ℕ) : ℝ) - 1 = (2 * ((m : ℝ) + d) + 1) * (2 * ((m : ℝ) + d) + 3) := by
    push_cast; ring
  have e2 : ((m + d + 1 : ℕ) : ℝ) * ((m + d + 1 : ℕ) : ℝ) - (m : ℝ) * m = (d + 1) * (2 * (m : ℝ) + d + 1) := by
    push_cast; ring
  rw [e1, e2, Real.sq_sqrt]
  positivity

theorem factor_pos (m d : Nat) : 0 < factor m (m + d + 1) := by
  have h : 0 ≤ factor m (m + d + 1) := Real.sqrt_nonneg _
  refine lt_of_le_of_ne h fun h0 => ?_
  have := factor_sq m d
  rw [← h0] at this
  have h2 : (0 : ℝ) < ((2 * ((m : ℝ) + d) + 1) * (2 * ((m : ℝ) + d) + 3)) / ((d + 1) * (2 * (m : ℝ) + d + 1)) := by positivity
  rw [← this] at h2
  norm_num at h2

theorem norm_succ (m d : Nat) : factor m (m + d + 1) * norm (m + d) m =
    norm (m + d + 1) m * ((2 * ((m : ℝ) + d) + 1) / (d + 1)) := by
  have hp := Real.pi_pos
  refine (sq_eq_sq₀ (mul_nonneg (factor_pos m d).le (norm_nonneg _ _)) (mul_nonneg (norm_nonneg _ _) (by positivity))).mp ?_
  rw [mul_pow, mul_pow, factor_sq, norm_sq, norm_sq]
  have e1 : m + d - m = d := by omega
  have e2 : m + d + 1 - m = d + 1 := by omega
  have e3 : m + d + 1 + m = (m + d + m) + 1 := by omega
  have f1 : ((m + d + m).factorial : ℝ) ≠ 0 := by exact_mod_cast Nat.factorial_ne_zero _
  have f2 : (d.factorial : ℝ) ≠ 0 := by exact_mod_cast Nat.factorial_ne_zero _
  rw [e1, e2, e3, Nat.factorial_succ, Nat.factorial_succ]
  push_cast
  have g1 : ((m : ℝ) + d + m + 1) ≠ 0 := by positivity
  have g2 : (2 * (m : ℝ) + d + 1) ≠ 0 := by positivity
  have g3 : ((d : ℝ) + 1) ≠ 0 := by positivity
  field_simp
  ring

/-- The normalised function. -/
noncomputable def spec (l m : Nat) (x : ℝ) : ℝ := norm l m * assoc l m x

/-- The recurrence of the normalised functions. -/
theorem spec_rec (m d : Nat) (x : ℝ) :
    (x * spec (m + d + 1) m x - spec (m + d) m x / factor m (m + d + 1)) * factor m (m + d + 2) = spec (m + d + 2) m x := by
  have h1 := norm_succ m d
  have h2 := norm_succ m (d + 1)
  have h3 := congrArg (Polynomial.eval x) (T_rec (m + d) (m + d + m))
  simp only [eval_mul, eval_sub, eval_C, eval_X] at h3
  have hs := factor_sq m d
  have hp := factor_pos m d
  unfold spec assoc
  rw [show m + (d + 1) + 1 = m + d + 2 by ring, show m + (d + 1) = m + d + 1 by ring] at h2
  rw [show m + d + 1 + m = m + d + m + 1 by ring, show m + d + 2 + m = m + d + m + 2 by ring]
  generalize T (m + d + 2) (m + d + m + 2) = P2 at *
  generalize T (m + d + 1) (m + d + m + 1) = P1 at *
  generalize T (m + d) (m + d + m) = P0 at *
  generalize norm (m + d + 2) m = n2 at *
  generalize norm (m + d + 1) m = n1 at *
  generalize norm (m + d) m = n0 at *
  generalize factor m (m + d + 2) = f2 at *
  generalize factor m (m + d + 1) = f1 at *
  generalize (-1 : ℝ) ^ m * Real.sqrt (1 - x ^ 2) ^ m = s at *
  generalize eval x P2 = p2 at *
  generalize eval x P1 = p1 at *
  generalize eval x P0 = p0 at *
  push_cast at h2 h3
  have g1 : ((d : ℝ) + 1) ≠ 0 := by positivity
  have g2 : ((d : ℝ) + 1 + 1) ≠ 0 := by positivity
  have g3 : (2 * (m : ℝ) + d + 1) ≠ 0 := by positivity
  have g4 : (2 * ((m : ℝ) + d) + 1) ≠ 0 := by positivity
  have g5 : (2 * ((m : ℝ) + d) + 3) ≠ 0 := by positivity
  -- n0 / f1 in terms of n1
  have k1 : n0 / f1 = n1 * ((2 * (m : ℝ) + d + 1) / (2 * ((m : ℝ) + d) + 3)) := by
    have : n0 = n1 * ((2 * ((m : ℝ) + d) + 1) / (d + 1)) / f1 := by
      rw [← h1]; field_simp
    rw [this, div_div, ← pow_two, hs]
    field_simp
  have k2 : f2 * n1 = n2 * ((2 * ((m : ℝ) + d) + 3) / (d + 2)) := by
    rw [h2]
    congr 2 <;> ring
  have k3 : ((d : ℝ) + 2) * p2 = (2 * ((m : ℝ) + d) + 3) * x * p1 - (2 * (m : ℝ) + d + 1) * p0 := by
    linear_combination h3
  have g6 : ((d : ℝ) + 2) ≠ 0 := by positivity
  calc (x * (n1 * (s * p1)) - n0 * (s * p0) / f1) * f2
      = s * (x * (f2 * n1) * p1 - (n0 / f1) * f2 * p0) := by ring
    _ = s * (x * (f2 * n1) * p1 - (f2 * n1) * ((2 * (m : ℝ) + d + 1) / (2 * ((m : ℝ) + d) + 3)) * p0) := by rw [k1]; ring
    _ = n2 * s * (((2 * ((m : ℝ) + d) + 3) * x * p1 - (2 * (m : ℝ) + d + 1) * p0) / (d + 2)) := by
        rw [k2]; field_simp
    _ = n2 * (s * p2) := by rw [← k3]; field_simp

/-! ### The function -/

theorem product_spec (omx2 : ℝ) (n : Nat) :
    product omx2 n = (omx2 ^ n * ((2 * n).factorial / (4 ^ n * (n.factorial : ℝ) ^ 2)), 2 * (n : ℝ) + 1) := by
  induction n with
  | zero => simp [product]
  | succ n ih =>
    simp only [product, ih]
    have h1 : (n.factorial : ℝ) ≠ 0 := by exact_mod_cast n.factorial_ne_zero
    have h2 : ((n : ℝ) + 1) ≠ 0 := by positivity
    refine Prod.ext ?_ ?_
    · simp only
      rw [show 2 * (n + 1) = 2 * n + 1 + 1 by ring, Nat.factorial_succ, Nat.factorial_succ, Nat.factorial_succ]
      push_cast
      rw [show (2 * (n : ℝ) + 1 + 1) = 2 * (n + 1) by ring]
      field_simp
      ring
    · simp only
      push_cast
      ring

theorem T_top (m : Nat) : T m (2 * m) = C (((2 * m).factorial : ℝ) / (2 ^ m * m.factorial)) := by
  induction m with
  | zero => simp [T]
  | succ m ih =>
    rw [show 2 * (m + 1) = 2 * m + 2 by ring, T_top_succ, ih, ← C_mul, Nat.factorial_succ, Nat.factorial_succ, Nat.factorial_succ]
    congr 1
    have h1 : (m.factorial : ℝ) ≠ 0 := by exact_mod_cast m.factorial_ne_zero
    have h2 : ((m : ℝ) + 1) ≠ 0 := by positivity
    push_cast
    rw [show (2 * (m : ℝ) + 1 + 1) = 2 * (m + 1) by ring]
    field_simp
    ring

theorem start_spec (m : Nat) (x : ℝ) (hx : |x| ≤ 1) :
    Real.sqrt ((2 * m + 1) * (product ((1 - x) * (1 + x)) m).1 / (4 * Real.pi)) =
      norm m m * Real.sqrt (1 - x ^ 2) ^ m * (((2 * m).factorial : ℝ) / (2 ^ m * m.factorial)) := by
  have hp := Real.pi_pos
  have h0 : 0 ≤ 1 - x ^ 2 := by
    have := (abs_le.mp hx)
    nlinarith
  have h1 : (m.factorial : ℝ) ≠ 0 := by exact_mod_cast m.factorial_ne_zero
  have h2 : ((2 * m).factorial : ℝ) ≠ 0 := by exact_mod_cast (2 * m).factorial_ne_zero
  rw [product_spec, show (1 - x) * (1 + x) = 1 - x ^ 2 by ring]
  rw [Real.sqrt_eq_iff_mul_self_eq (by positivity)
    (mul_nonneg (mul_nonneg (norm_nonneg _ _) (pow_nonneg (Real.sqrt_nonneg _) _)) (by positivity)), ← pow_two, mul_pow, mul_pow,
    norm_sq, ← pow_mul, mul_comm m 2, pow_mul, Real.sq_sqrt h0, Nat.sub_self, ← two_mul]
  simp only [Nat.factorial_zero]
  rw [show (4 : ℝ) ^ m = 2 ^ m * 2 ^ m by rw [← mul_pow]; norm_num]
  push_cast
  field_simp

theorem neg_pow_parity (m : Nat) (v : ℝ) : (if m % 2 = 1 then -v else v) = (-1) ^ m * v := by
  split
  · rename_i h
    rw [Odd.neg_one_pow (Nat.odd_iff.mpr h)]; ring
  · rename_i h
    rw [Even.neg_one_pow (Nat.even_iff.mpr (by omega))]; ring

theorem degrees_succ (m : Nat) (x : ℝ) (n ll : Nat) (f p p1 j : ℝ) : degrees m x (n + 1) ll f p p1 j =
    degrees m x n (ll + 1) (factor m ll) p1 ((x * p1 - p / f) * factor m ll) ((x * p1 - p / f) * factor m ll) := rfl

theorem degrees_spec (m : Nat) (x : ℝ) (n : Nat) : ∀ d j, degrees m x (n + 1) (m + d + 2) (factor m (m + d + 1))
    (spec (m + d) m x) (spec (m + d + 1) m x) j = spec (m + d + n + 2) m x := by
  induction n with
  | zero =>
    intro d j
    exact spec_rec m d x
  | succ n ih =>
    intro d j
    rw [degrees_succ, spec_rec m d x]
    have := ih (d + 1) (spec (m + d + 2) m x)
    rw [show m + (d + 1) + 2 = m + d + 2 + 1 by ring, show m + (d + 1) + 1 = m + d + 2 by ring,
      show m + (d + 1) + n + 2 = m + d + (n + 1) + 2 by ring] at this
    exact this

/-- **C136** For all degrees and orders 0 ≤ m ≤ l and all x in [-1, 1], `plegendre` gives
sqrt((2l + 1)/(4 pi) (l - m)!/(l + m)!) times the associated Legendre function
(-1)^m (1 - x^2)^(m/2)/(2^l l!) d^(l+m)/dx^(l+m) (x^2 - 1)^l. -/
theorem plegendre_spec (junk : ℝ) (l m : Nat) (h : m ≤ l) (x : ℝ) (hx : |x| ≤ 1) :
    plegendre junk l m x = some (norm l m * ((-1) ^ m * Real.sqrt (1 - x ^ 2) ^ m *
      ((2 ^ l * (l.factorial : ℝ))⁻¹ * ((derivative^[l + m] ((X ^ 2 - 1 : ℝ[X]) ^ l)).eval x)))) := by
  unfold plegendre
  rw [if_pos ⟨by omega, by exact_mod_cast h⟩, if_pos hx]
  congr 1
  have hspec : norm l m * ((-1) ^ m * Real.sqrt (1 - x ^ 2) ^ m *
      ((2 ^ l * (l.factorial : ℝ))⁻¹ * ((derivative^[l + m] ((X ^ 2 - 1 : ℝ[X]) ^ l)).eval x))) = spec l m x := by
    unfold spec assoc T
    rw [eval_mul, eval_C]
  rw [hspec]
  simp only [Int.toNat_natCast]
  have hprod : (if m > 0 then (product ((1 - x) * (1 + x)) m).1 else 1) = (product ((1 - x) * (1 + x)) m).1 := by
    split
    · rfl
    · rw [show m = 0 by omega]; rfl
  have hstart : (if m % 2 = 1 then -Real.sqrt ((2 * m + 1) * (product ((1 - x) * (1 + x)) m).1 / (4 * Real.pi)) else
      Real.sqrt ((2 * m + 1) * (product ((1 - x) * (1 + x)) m).1 / (4 * Real.pi))) = spec m m x := by
    rw [neg_pow_parity, start_spec m x hx]
    unfold spec assoc
    rw [← two_mul, T_top, eval_C]
    ring
  have hsqrt : Real.sqrt (2 * (m : ℝ) + 3) = factor m (m + 1) := by
    unfold factor
    congr 1
    have g : (2 * (m : ℝ) + 1) ≠ 0 := by positivity
    push_cast
    rw [show ((m : ℝ) + 1) * (m + 1) - m * m = 2 * m + 1 by ring]
    field_simp
    ring
  have hsecond : x * Real.sqrt (2 * m + 3) * spec m m x = spec (m + 1) m x := by
    rw [hsqrt]
    have h1 := norm_succ m 0
    have h2 := congrArg (Polynomial.eval x) (T_first_zero m)
    simp only [eval_mul, eval_C, eval_X] at h2
    unfold spec assoc
    rw [show m + 1 + m = 2 * m + 1 by ring, ← two_mul, h2]
    simp only [add_zero, Nat.cast_zero, zero_add, div_one] at h1
    linear_combination (x * ((-1) ^ m * Real.sqrt (1 - x ^ 2) ^ m * eval x (T m (2 * m)))) * h1
  unfold body
  simp only [hprod, hstart, hsecond]
  by_cases h1 : l = m
  · rw [if_pos h1, h1]
  · rw [if_neg h1]
    by_cases h2 : l = m + 1
    · rw [if_pos h2, h2]
    · rw [if_neg h2, hsqrt]
      obtain ⟨n, rfl⟩ : ∃ n, l = m + n + 2 := ⟨l - m - 2, by omega⟩
      rw [show m + n + 2 + 1 - (m + 2) = n + 1 by omega]
      exact degrees_spec m x n 0 junk

/-- **C136** Outside of this domain an assertion fails. -/
theorem plegendre_domain (junk : ℝ) (l m : Int) (x : ℝ) :
    plegendre junk l m x = none ↔ m < 0 ∨ l < m ∨ 1 < |x| := by
  unfold plegendre
  by_cases h : 0 ≤ m ∧ m ≤ l
  · rw [if_pos h]
    by_cases hx : |x| ≤ 1
    · rw [if_pos hx]
      refine ⟨fun h => (Option.some_ne_none _ h).elim, ?_⟩
      rintro (h1 | h1 | h1)
      · omega
      · omega
      · exact absurd hx (not_le.mpr h1)
    · rw [if_neg hx]
      exact ⟨fun _ => .inr (.inr (not_le.mp hx)), fun _ => rfl⟩
  · rw [if_neg h]
    refine ⟨fun _ => ?_, fun _ => rfl⟩
    rcases not_and_or.mp h with h | h
    · exact .inl (by omega)
    · exact .inr (.inl (by omega))

/-! ### Examples -/

/-- The polynomials of degrees 0, 1, 2. -/
example : T 0 0 = 1 ∧ T 1 1 = X ∧ (2 : ℝ[X]) * T 2 2 = 3 * X ^ 2 - 1 := by
  have h0 : T 0 0 = 1 := by simp [T]
  have h1 : T 1 1 = X := by have := T_first_zero 0; rw [h0] at this; simpa using this
  refine ⟨h0, h1, ?_⟩
  have := T_rec 0 0
  rw [h0, h1] at this
  simp only [Nat.cast_zero, mul_zero, zero_add, sub_zero, map_ofNat, map_one, one_mul] at this
  rw [this]; ring

/-- Degree 1, order 1, x = 0: -sqrt(3/(8 pi)). -/
example (junk : ℝ) : plegendre junk 1 1 0 = some (-Real.sqrt (3 / (8 * Real.pi))) := by
  have hp := Real.pi_ne_zero
  unfold plegendre
  rw [if_pos (by decide), if_pos (by norm_num)]
  simp only [Option.some.injEq]
  unfold body
  simp [product]
  rw [← Real.sqrt_mul (by norm_num), ← Real.sqrt_div (by norm_num)]
  congr 1
  field_simp
  norm_num

end Verif.Var.Legendre
