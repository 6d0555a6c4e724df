import Verif.Float.Format
import Mathlib.Analysis.Real.Sqrt

/-
Double arithmetic with overflow: values are finite doubles, infinities and NaN.  `rnd` is the
rounding to nearest with unlimited exponent; a result of `2^1024` or more is an infinity (IEEE 754,
section 7.4).  Simplification: zero has no sign, so a division by zero, which in the code gives an
infinity of the sign of the zero (or NaN for 0/0), is NaN here; it is not used in any theorem.
-/
namespace Verif.Float

/-- The value of a `double` variable. -/
inductive D where
  | fin (x : ℝ)
  | inf (neg : Bool)
  | nan

/-- Result of an operation with exact value `x`. -/
noncomputable def out (rnd : ℝ → ℝ) (x : ℝ) : D :=
  if |rnd x| < 2 ^ 1024 then .fin (rnd x) else .inf (decide (x < 0))

/-- Product (IEEE 754, 5.4.1, 7.2). -/
noncomputable def D.mul (rnd : ℝ → ℝ) : D → D → D
  | .fin a, .fin b => out rnd (a * b)
  | .inf s, .fin b => if b = 0 then .nan else .inf (s ^^ decide (b < 0))
  | .fin a, .inf s => if a = 0 then .nan else .inf (s ^^ decide (a < 0))
  | .inf s, .inf t => .inf (s ^^ t)
  | _, _ => .nan

/-- Quotient (IEEE 754, 5.4.1, 7.2, 7.3). -/
noncomputable def D.div (rnd : ℝ → ℝ) : D → D → D
  | .fin a, .fin b => if b = 0 then .nan else out rnd (a / b)
  | .inf s, .fin b => if b = 0 then .nan else .inf (s ^^ decide (b < 0))
  | .fin _, .inf _ => .fin 0
  | _, _ => .nan

/-- Sum (IEEE 754, 5.4.1, 7.2). -/
noncomputable def D.add (rnd : ℝ → ℝ) : D → D → D
  | .fin a, .fin b => out rnd (a + b)
  | .inf s, .fin _ => .inf s
  | .fin _, .inf s => .inf s
  | .inf s, .inf t => if s = t then .inf s else .nan
  | _, _ => .nan

/-- Change of sign. -/
noncomputable def D.neg : D → D
  | .fin a => .fin (-a)
  | .inf s => .inf (!s)
  | .nan => .nan

/-- Difference. -/
noncomputable def D.sub (rnd : ℝ → ℝ) (a b : D) : D := D.add rnd a b.neg

/-- Square root (IEEE 754, 5.4.1, 7.2). -/
noncomputable def D.sqrt (rnd : ℝ → ℝ) : D → D
  | .fin a => if a < 0 then .nan else out rnd (√a)
  | .inf false => .inf false
  | _ => .nan

/-- `a < b`: false with a NaN on either side. -/
def D.lt : D → D → Prop
  | .fin a, .fin b => a < b
  | .fin _, .inf s => s = false
  | .inf s, .fin _ => s = true
  | .inf s, .inf t => s = true ∧ t = false
  | _, _ => False

theorem out_fin {rnd : ℝ → ℝ} {x : ℝ} (h : |rnd x| < 2 ^ 1024) : out rnd x = .fin (rnd x) :=
  if_pos h

/-! ## Relative errors of products and quotients -/

/-- The unit roundoff. -/
noncomputable def u : ℝ := 2 ^ (-53 : ℤ)

theorem u_pos : 0 < u := zpow_pos (by norm_num) _
theorem u_lt_one : u < 1 := by
  unfold u; norm_num [zpow_neg]

/-- `x` and `y` are positive and differ by at most `n` roundings. -/
def Close (n : ℕ) (x y : ℝ) : Prop := 0 < x ∧ 0 < y ∧ y * (1 - u) ^ n ≤ x ∧ x * (1 - u) ^ n ≤ y

theorem one_sub_u_pos : 0 < 1 - u := by linarith [u_lt_one]

theorem Close.refl {x : ℝ} (h : 0 < x) : Close 0 x x := ⟨h, h, by simp, by simp⟩

theorem Close.mul {m n : ℕ} {a b x y : ℝ} (h : Close m a x) (h' : Close n b y) :
    Close (m + n) (a * b) (x * y) := by
  obtain ⟨a0, x0, h1, h2⟩ := h
  obtain ⟨b0, y0, h3, h4⟩ := h'
  have p := one_sub_u_pos
  refine ⟨mul_pos a0 b0, mul_pos x0 y0, ?_, ?_⟩
  · rw [pow_add]
    calc x * y * ((1 - u) ^ m * (1 - u) ^ n) = (x * (1 - u) ^ m) * (y * (1 - u) ^ n) := by ring
      _ ≤ a * b := mul_le_mul h1 h3 (by positivity) a0.le
  · rw [pow_add]
    calc a * b * ((1 - u) ^ m * (1 - u) ^ n) = (a * (1 - u) ^ m) * (b * (1 - u) ^ n) := by ring
      _ ≤ x * y := mul_le_mul h2 h4 (by positivity) x0.le

theorem Close.inv {n : ℕ} {a x : ℝ} (h : Close n a x) : Close n a⁻¹ x⁻¹ := by
  obtain ⟨a0, x0, h1, h2⟩ := h
  refine ⟨inv_pos.2 a0, inv_pos.2 x0, ?_, ?_⟩
  · rw [inv_mul_le_iff₀ x0, ← div_eq_mul_inv, le_div_iff₀ a0, mul_comm]; exact h2
  · rw [inv_mul_le_iff₀ a0, ← div_eq_mul_inv, le_div_iff₀ x0, mul_comm]; exact h1

theorem Close.div {m n : ℕ} {a b x y : ℝ} (h : Close m a x) (h' : Close n b y) :
    Close (m + n) (a / b) (x / y) := by
  rw [div_eq_mul_inv, div_eq_mul_inv]; exact h.mul h'.inv

theorem Close.sqrt {n : ℕ} {a x : ℝ} (h : Close n a x) : Close n (√a) (√x) := by
  obtain ⟨a0, x0, h1, h2⟩ := h
  have p := one_sub_u_pos
  have hp : (1 - u) ^ n ≤ 1 := pow_le_one₀ p.le (by linarith [u_pos])
  have aux : ∀ s t : ℝ, 0 < s → 0 < t → t * (1 - u) ^ n ≤ s → √t * (1 - u) ^ n ≤ √s := by
    intro s t s0 t0 hst
    apply Real.le_sqrt_of_sq_le
    rw [mul_pow, Real.sq_sqrt t0.le]
    have : ((1 - u) ^ n) ^ 2 ≤ (1 - u) ^ n := by
      rw [pow_two]; exact mul_le_of_le_one_left (by positivity) hp
    calc t * ((1 - u) ^ n) ^ 2 ≤ t * (1 - u) ^ n := mul_le_mul_of_nonneg_left this t0.le
      _ ≤ s := hst
  exact ⟨Real.sqrt_pos.2 a0, Real.sqrt_pos.2 x0, aux _ _ a0 x0 h1, aux _ _ x0 a0 h2⟩

/-- One rounding more. -/
theorem Close.round {rnd : ℝ → ℝ} (hr : Nearest rnd) {n : ℕ} {a x : ℝ} (h : Close n a x)
    (hs : 2 ^ (-1022 : ℤ) ≤ a) : Close (n + 1) (rnd a) x := by
  have e : Close 1 (rnd a) a := by
    have a0 := h.1
    have := hr.rel (x := a) (by rwa [abs_of_pos a0])
    rw [abs_of_pos a0, abs_le] at this
    change -(u * a) ≤ _ ∧ _ ≤ u * a at this
    have p := one_sub_u_pos
    have hl : a * (1 - u) ≤ rnd a := by linarith [this.1]
    refine ⟨lt_of_lt_of_le (mul_pos a0 p) hl, a0, by simpa using hl, ?_⟩
    have hu : rnd a ≤ a * (1 + u) := by linarith [this.2]
    rw [pow_one]
    calc rnd a * (1 - u) ≤ a * (1 + u) * (1 - u) := mul_le_mul_of_nonneg_right hu p.le
      _ = a - a * (u * u) := by ring
      _ ≤ a := by
        have := mul_pos a0 (mul_pos u_pos u_pos)
        linarith
  obtain ⟨r0, a0, h1, h2⟩ := e
  obtain ⟨-, x0, h3, h4⟩ := h
  have p := one_sub_u_pos
  rw [pow_one] at h1 h2
  refine ⟨r0, x0, ?_, ?_⟩
  · rw [pow_succ, ← mul_assoc]
    exact (mul_le_mul_of_nonneg_right h3 p.le).trans h1
  · rw [pow_succ, mul_comm ((1 - u) ^ n), ← mul_assoc]
    exact (mul_le_mul_of_nonneg_right h2 (by positivity)).trans h4

/-- The relative error of `n` roundings. -/
theorem Close.err {n : ℕ} {x y : ℝ} (h : Close n x y) (hn : (n : ℝ) * u ≤ 1 / 2) :
    |x - y| ≤ 2 * n * u * y := by
  obtain ⟨x0, y0, h1, h2⟩ := h
  have hb : 1 - (n : ℝ) * u ≤ (1 - u) ^ n := by
    have := one_add_mul_le_pow (a := -u) (by linarith [u_lt_one]) n
    rw [← sub_eq_add_neg] at this
    linarith
  have hnu : 0 ≤ (n : ℝ) * u := mul_nonneg (Nat.cast_nonneg _) u_pos.le
  rw [abs_le]
  constructor
  · have : y * (1 - n * u) ≤ x := (mul_le_mul_of_nonneg_left hb y0.le).trans h1
    nlinarith
  · have : x * (1 - n * u) ≤ y := (mul_le_mul_of_nonneg_left hb x0.le).trans h2
    nlinarith

/-- At most twice as large, after few roundings. -/
theorem Close.le_two {n : ℕ} {x y : ℝ} (h : Close n x y) (hn : (n : ℝ) * u ≤ 1 / 2) :
    x ≤ 2 * y := by
  have := (abs_le.1 (h.err hn)).2
  have hy := h.2.1
  nlinarith

/-- At least half as large, after few roundings. -/
theorem Close.ge_half {n : ℕ} {x y : ℝ} (h : Close n x y) (hn : (n : ℝ) * u ≤ 1 / 2) :
    y / 2 ≤ x := by
  have h' : Close n y x := ⟨h.2.1, h.1, h.2.2.2, h.2.2.1⟩
  linarith [h'.le_two hn]

end Verif.Float
