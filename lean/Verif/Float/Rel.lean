import Verif.Float.Arith
import Verif.Float.ResidualModel
import Mathlib.Tactic.Linarith
import Mathlib.Tactic.FieldSimp

/-
Relative errors of numbers of either sign: `Rel n x y` says that `x` is `y` times a factor that `n` roundings can
produce.  Unlike `Close` (Arith.lean) it allows zero and negative numbers.
-/
namespace Verif.Float

variable {rnd : ℝ → ℝ}

/-- `x` is `y` up to `n` relative errors of `2^-53`. -/
def Rel (n : ℕ) (x y : ℝ) : Prop := ∃ ρ : ℝ, (1 - u) ^ n ≤ ρ ∧ ρ * (1 - u) ^ n ≤ 1 ∧ x = ρ * y

theorem pow_u_pos (n : ℕ) : 0 < (1 - u) ^ n := pow_pos one_sub_u_pos n

theorem pow_u_le (n : ℕ) : (1 - u) ^ n ≤ 1 := pow_le_one₀ one_sub_u_pos.le (by linarith [u_pos])

theorem Rel.refl (x : ℝ) : Rel 0 x x := ⟨1, by simp, by simp, by simp⟩

theorem Rel.mono {m n : ℕ} {x y : ℝ} (h : Rel m x y) (hn : m ≤ n) : Rel n x y := by
  obtain ⟨ρ, h1, h2, rfl⟩ := h
  have le : (1 - u) ^ n ≤ (1 - u) ^ m := pow_le_pow_of_le_one one_sub_u_pos.le (by linarith [u_pos]) hn
  have p : 0 < ρ := (pow_u_pos m).trans_le h1
  exact ⟨ρ, le.trans h1, (mul_le_mul_of_nonneg_left le p.le).trans h2, rfl⟩

theorem Rel.mul {m n : ℕ} {a b x y : ℝ} (h : Rel m a x) (h' : Rel n b y) : Rel (m + n) (a * b) (x * y) := by
  obtain ⟨ρ, h1, h2, rfl⟩ := h
  obtain ⟨σ, h3, h4, rfl⟩ := h'
  have p : 0 < ρ := (pow_u_pos m).trans_le h1
  have q : 0 < σ := (pow_u_pos n).trans_le h3
  refine ⟨ρ * σ, ?_, ?_, by ring⟩
  · rw [pow_add]; exact mul_le_mul h1 h3 (pow_u_pos n).le p.le
  · rw [pow_add, show ρ * σ * ((1 - u) ^ m * (1 - u) ^ n) = ρ * (1 - u) ^ m * (σ * (1 - u) ^ n) by ring]
    exact mul_le_one₀ h2 (mul_pos q (pow_u_pos n)).le h4

theorem Rel.inv {n : ℕ} {a x : ℝ} (h : Rel n a x) : Rel n a⁻¹ x⁻¹ := by
  obtain ⟨ρ, h1, h2, rfl⟩ := h
  have p : 0 < ρ := (pow_u_pos n).trans_le h1
  refine ⟨ρ⁻¹, ?_, ?_, by rw [mul_inv]⟩
  · rw [← one_div, le_div_iff₀ p, mul_comm]; exact h2
  · rw [inv_mul_le_iff₀ p]; linarith

theorem Rel.div {m n : ℕ} {a b x y : ℝ} (h : Rel m a x) (h' : Rel n b y) : Rel (m + n) (a / b) (x / y) := by
  rw [div_eq_mul_inv, div_eq_mul_inv]; exact h.mul h'.inv

theorem Rel.neg {n : ℕ} {a x : ℝ} (h : Rel n a x) : Rel n (-a) (-x) := by
  obtain ⟨ρ, h1, h2, rfl⟩ := h
  exact ⟨ρ, h1, h2, by ring⟩

theorem Rel.nonneg {n : ℕ} {a x : ℝ} (h : Rel n a x) (hx : 0 ≤ x) : 0 ≤ a := by
  obtain ⟨ρ, h1, -, rfl⟩ := h
  exact mul_nonneg ((pow_u_pos n).le.trans h1) hx

theorem Rel.trans {m n : ℕ} {x y z : ℝ} (h : Rel m x y) (h' : Rel n y z) : Rel (m + n) x z := by
  obtain ⟨ρ, h1, h2, rfl⟩ := h
  have r : Rel m ρ 1 := ⟨ρ, h1, h2, (mul_one ρ).symm⟩
  obtain ⟨σ, h3, h4, e⟩ := r.mul h'
  exact ⟨σ, h3, h4, by rw [e, one_mul]⟩

/-- Sums of numbers of the same sign keep the relative error. -/
theorem Rel.add {n : ℕ} {a b x y : ℝ} (h : Rel n a x) (h' : Rel n b y) (hx : 0 ≤ x) (hy : 0 ≤ y) :
    Rel n (a + b) (x + y) := by
  obtain ⟨ρ, h1, h2, rfl⟩ := h
  obtain ⟨σ, h3, h4, rfl⟩ := h'
  rcases eq_or_lt_of_le (add_nonneg hx hy) with e | p
  · have x0 : x = 0 := by linarith
    have y0 : y = 0 := by linarith
    subst x0; subst y0
    exact ⟨ρ, h1, h2, by simp⟩
  · refine ⟨(ρ * x + σ * y) / (x + y), ?_, ?_, by field_simp⟩
    · rw [le_div_iff₀ p]; nlinarith
    · rw [div_mul_eq_mul_div, div_le_one p]; nlinarith

theorem Rel.sqrt {n : ℕ} {a x : ℝ} (h : Rel n a x) : Rel n (√a) (√x) := by
  obtain ⟨ρ, h1, h2, rfl⟩ := h
  have p : 0 < ρ := (pow_u_pos n).trans_le h1
  have q := pow_u_pos n
  have q1 := pow_u_le n
  refine ⟨√ρ, ?_, ?_, Real.sqrt_mul p.le x⟩
  · refine Real.le_sqrt_of_sq_le ?_
    nlinarith
  · have e : √ρ * (1 - u) ^ n = √(ρ * ((1 - u) ^ n * (1 - u) ^ n)) := by
      rw [Real.sqrt_mul p.le, Real.sqrt_mul_self q.le]
    rw [e]
    refine Real.sqrt_le_one.2 ?_
    nlinarith [mul_pos p q]

/-- The error of `n` roundings. -/
theorem Rel.err {n : ℕ} {x y : ℝ} (h : Rel n x y) (hn : (n : ℝ) * u ≤ 1 / 2) : |x - y| ≤ 2 * n * u * |y| := by
  obtain ⟨ρ, h1, h2, rfl⟩ := h
  have hb : 1 - (n : ℝ) * u ≤ (1 - u) ^ n := by
    have := one_add_mul_le_pow (a := -u) (by linarith [u_lt_one]) n
    simp only [mul_neg, ← sub_eq_add_neg] at this
    exact this
  have p : 0 < ρ := (pow_u_pos n).trans_le h1
  have k0 : 0 ≤ (n : ℝ) * u := mul_nonneg (Nat.cast_nonneg n) u_pos.le
  rw [show ρ * y - y = (ρ - 1) * y by ring, abs_mul]
  refine mul_le_mul_of_nonneg_right ?_ (abs_nonneg y)
  have up : ρ * (1 - n * u) ≤ 1 := (mul_le_mul_of_nonneg_left hb p.le).trans h2
  rw [abs_le, show 2 * (n : ℝ) * u = 2 * ((n : ℝ) * u) by ring]
  generalize (n : ℝ) * u = k at *
  constructor
  · linarith
  · nlinarith

/-- `n` roundings do not halve a number. -/
theorem Rel.ge_half {n : ℕ} {x y : ℝ} (h : Rel n x y) (hn : (n : ℝ) * u ≤ 1 / 4) : |y| / 2 ≤ |x| := by
  have := h.err (by linarith)
  have a := abs_sub_abs_le_abs_sub y x
  rw [abs_sub_comm] at a
  have y0 := abs_nonneg y
  nlinarith

/-- One more rounding, where it does not underflow. -/
theorem Rel.round (hr : Nearest rnd) {n : ℕ} {x y : ℝ} (h : Rel n x y) (hx : x = 0 ∨ 2 ^ (-1022 : ℤ) ≤ |x|) :
    Rel (n + 1) (rnd x) y := by
  have e : Rel 1 (rnd x) x := by
    rcases hx with rfl | hx
    · rw [hr.zero]; exact (Rel.refl 0).mono (by norm_num)
    · have x0 : x ≠ 0 := by
        rintro rfl
        have : (0 : ℝ) < 2 ^ (-1022 : ℤ) := zpow_pos (by norm_num) _
        rw [abs_zero] at hx; linarith
      have hu : |rnd x - x| ≤ u * |x| := hr.rel hx
      have hq : |rnd x / x - 1| ≤ u := by
        rw [div_sub_one x0, abs_div, div_le_iff₀ (abs_pos.2 x0)]; exact hu
      have := abs_le.1 hq
      refine ⟨rnd x / x, by rw [pow_one]; linarith [this.1], ?_, by field_simp⟩
      rw [pow_one]
      have up := u_pos
      have u1 := u_lt_one
      nlinarith [this.2]
  rw [add_comm]
  exact e.trans h

/-- One more rounding, where the exact value is not tiny. -/
theorem Rel.round' (hr : Nearest rnd) {n : ℕ} {x y : ℝ} (h : Rel n x y) (hn : n ≤ 1000)
    (hy : y = 0 ∨ 2 ^ (-1000 : ℤ) ≤ |y|) : Rel (n + 1) (rnd x) y := by
  refine h.round hr ?_
  rcases hy with rfl | hy
  · left
    obtain ⟨ρ, -, -, rfl⟩ := h
    simp
  · right
    have k : (n : ℝ) * u ≤ 1 / 4 := by
      have : (n : ℝ) ≤ 1000 := by exact_mod_cast hn
      have hu : u ≤ 1 / 2 ^ 53 := by unfold u; norm_num [zpow_neg]
      have up := u_pos
      calc (n : ℝ) * u ≤ 1000 * (1 / 2 ^ 53) := mul_le_mul this hu up.le (by norm_num)
        _ ≤ _ := by norm_num
    have g := h.ge_half k
    have z : (2 : ℝ) ^ (-1022 : ℤ) ≤ 2 ^ (-1001 : ℤ) := zpow_le_zpow_right₀ (by norm_num) (by norm_num)
    have z' : (2 : ℝ) ^ (-1001 : ℤ) = 2 ^ (-1000 : ℤ) / 2 := by
      rw [show (-1001 : ℤ) = -1000 - 1 by norm_num, zpow_sub₀ (by norm_num)]; norm_num
    rw [z'] at z
    linarith

/-- A small relative error as a number of roundings. -/
theorem Rel.of_err {k : ℕ} {x y : ℝ} (hk : 2 * (k : ℝ) * u ≤ 1) (h : |x - y| ≤ k * u * |y|) (hy : y ≠ 0) :
    Rel (2 * k) x y := by
  have hq : |x / y - 1| ≤ k * u := by
    rw [div_sub_one hy, abs_div, div_le_iff₀ (abs_pos.2 hy)]; exact h
  have q := abs_le.1 hq
  have up := u_pos
  have b : (1 - u) ^ (2 * k) * (1 + 2 * (k * u)) ≤ 1 := by
    have b1 : 1 + ((2 * k : ℕ) : ℝ) * u ≤ (1 + u) ^ (2 * k) := one_add_mul_le_pow (by linarith) _
    have b2 : (1 - u) ^ (2 * k) * (1 + u) ^ (2 * k) ≤ 1 := by
      rw [← mul_pow]
      refine pow_le_one₀ (by nlinarith [u_lt_one]) (by nlinarith)
    refine le_trans (mul_le_mul_of_nonneg_left ?_ (pow_u_pos _).le) b2
    refine le_trans (le_of_eq ?_) b1
    push_cast; ring
  have p := pow_u_pos (2 * k)
  have k0 : 0 ≤ (k : ℝ) * u := mul_nonneg (Nat.cast_nonneg k) up.le
  have hk' : 2 * ((k : ℝ) * u) ≤ 1 := by linarith
  refine ⟨x / y, ?_, ?_, by field_simp⟩
  · generalize (k : ℝ) * u = t at *
    generalize (1 - u) ^ (2 * k) = s at *
    refine le_trans ?_ (by linarith [q.1] : 1 - t ≤ x / y)
    by_contra hc
    push Not at hc
    nlinarith
  · generalize (k : ℝ) * u = t at *
    generalize (1 - u) ^ (2 * k) = s at *
    nlinarith [q.2]

end Verif.Float
