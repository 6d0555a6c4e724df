import Verif.Float.AttitudeModel
import Verif.Float.EopProps
import Verif.Attitude.Props
import Mathlib.Tactic.Linarith
import Mathlib.Tactic.FieldSimp
import Mathlib.Tactic.LinearCombination

/-
C172: the dates of the attitude records and the interpolation parameter in double arithmetic.
-/
namespace Verif.Float

variable {rnd : ℝ → ℝ}

/-- Without rounding the parameter is that of the model in exact arithmetic. -/
theorem slerpD_exact {Q : Type} (h : Attitude.Hunter Q) (t : ℚ) (i : Nat) :
    slerpD id t (h.at i).mjd (h.at (i + 1)).mjd = Attitude.slerpParam h t i := rfl

/-- Two doubles are at least the smallest double apart, so their rounded difference is not zero. -/
theorem rnd_sub_pos (h : Nearest rnd) {a b : ℝ} (ha : IsDouble a) (hb : IsDouble b) (hab : a < b) :
    0 < rnd (b - a) := by
  obtain ⟨m, e, -, he, ea⟩ := ha
  obtain ⟨n, f, -, hf, eb⟩ := hb
  have p : (0 : ℝ) < 2 ^ (-1074 : ℤ) := zpow_pos (by norm_num) _
  have g : ∀ (m e : ℤ), -1074 ≤ e → ∃ k : ℤ, (m : ℝ) * 2 ^ e = k * 2 ^ (-1074 : ℤ) := by
    intro m e he
    obtain ⟨j, rfl⟩ : ∃ j : ℕ, e = j + -1074 := ⟨(e + 1074).toNat, by omega⟩
    refine ⟨m * 2 ^ j, ?_⟩
    rw [zpow_add₀ (by norm_num), zpow_natCast]; push_cast; ring
  obtain ⟨k, hk⟩ := g m e he
  obtain ⟨l, hl⟩ := g n f hf
  rw [ea, eb, hk, hl] at hab
  have kl : k < l := by exact_mod_cast lt_of_mul_lt_mul_right hab p.le
  have kl' : (k : ℝ) + 1 ≤ l := by exact_mod_cast kl
  have d : IsDouble ((1 : ℤ) * 2 ^ (-1074 : ℤ) : ℝ) := isDouble_of_le 1 (-1074) (by norm_num) le_rfl
  have ge : ((1 : ℤ) * 2 ^ (-1074 : ℤ) : ℝ) ≤ b - a := by
    rw [ea, eb, hk, hl, ← sub_mul]
    refine mul_le_mul_of_nonneg_right ?_ p.le
    push_cast; linarith
  have := h.ge_of_ge d ge
  refine lt_of_lt_of_le ?_ this
  push_cast; linarith

/-- **C172.**  Between two records the parameter is in [0, 1], whatever doubles the dates are: the assertion of the
program (jason3_quaternions.cpp:218) holds, and no division by zero occurs. -/
theorem slerpD_range (h : Nearest rnd) {t t0 t1 : ℝ} (d0 : IsDouble t0) (d1 : IsDouble t1)
    (h0 : t0 ≤ t) (h1 : t < t1) : 0 ≤ slerpD rnd t t0 t1 ∧ slerpD rnd t t0 t1 ≤ 1 ∧ rnd (t1 - t0) ≠ 0 := by
  have p := rnd_sub_pos h d0 d1 (h0.trans_lt h1)
  have n := h.nonneg (sub_nonneg.2 h0)
  have le : rnd (t - t0) ≤ rnd (t1 - t0) := h.mono (by linarith)
  refine ⟨h.nonneg (div_nonneg n p.le), ?_, p.ne'⟩
  have o : IsDouble (1 : ℝ) := by simpa using isDouble_int (K := ℝ) 1 (by norm_num)
  exact h.le_of_le o ((div_le_one p).2 le)

/-- At the date of a record the parameter is 0: the attitude is the one recorded. -/
theorem slerpD_start (h : Nearest rnd) (t0 t1 : ℝ) : slerpD rnd t0 t0 t1 = 0 := by
  unfold slerpD; rw [sub_self, h.zero, zero_div, h.zero]

/-- The parameter does not decrease with time. -/
theorem slerpD_mono (h : Nearest rnd) {t t' t0 t1 : ℝ} (d0 : IsDouble t0) (d1 : IsDouble t1) (h01 : t0 < t1)
    (ht : t ≤ t') : slerpD rnd t t0 t1 ≤ slerpD rnd t' t0 t1 := by
  have p := rnd_sub_pos h d0 d1 h01
  exact h.mono (div_le_div_of_nonneg_right (h.mono (by linarith)) p.le)

/-- **C172.**  For dates of the years 1948 to 2038 the differences are exact, the parameter differs from the exact
one by the rounding of the quotient alone, and it does not reach 1 before the next record. -/
theorem slerpD_near (h : Nearest rnd) {t t0 t1 : ℝ} (dt : IsDouble t) (d0 : IsDouble t0) (d1 : IsDouble t1)
    (b0 : 32768 ≤ t0) (b1 : t1 ≤ 65536) (h0 : t0 ≤ t) (h1 : t < t1) :
    slerpD rnd t t0 t1 = rnd ((t - t0) / (t1 - t0)) ∧
      |slerpD rnd t t0 t1 - (t - t0) / (t1 - t0)| ≤ 1 / 2 ^ 54 ∧ slerpD rnd t t0 t1 < 1 := by
  have e1 : rnd (t - t0) = t - t0 := h.exact (sterbenz dt d0 (by linarith) (by linarith) (by linarith))
  have e2 : rnd (t1 - t0) = t1 - t0 := h.exact (sterbenz d1 d0 (by linarith) (by linarith) (by linarith))
  have e : slerpD rnd t t0 t1 = rnd ((t - t0) / (t1 - t0)) := by unfold slerpD; rw [e1, e2]
  have p : 0 < t1 - t0 := by linarith
  have q0 : 0 ≤ (t - t0) / (t1 - t0) := div_nonneg (by linarith) p.le
  have q1 : (t - t0) / (t1 - t0) ≤ 1 := (div_le_one p).2 (by linarith)
  refine ⟨e, ?_, ?_⟩
  · rw [e]
    have := h.err (-53) (by norm_num) (x := (t - t0) / (t1 - t0)) (by rw [abs_of_nonneg q0]; simpa using q1)
    refine this.trans_eq ?_
    norm_num
  · rw [e]
    obtain ⟨k, hk⟩ := isDouble_grid dt (b0.trans h0)
    obtain ⟨k0, hk0⟩ := isDouble_grid d0 b0
    obtain ⟨k1, hk1⟩ := isDouble_grid d1 (by linarith)
    have g : (0 : ℝ) < 1 / 2 ^ 37 := by norm_num
    have lt : k < k1 := by
      have : (k : ℝ) * (1 / 2 ^ 37) < k1 * (1 / 2 ^ 37) := by rw [← hk, ← hk1]; exact h1
      exact_mod_cast lt_of_mul_lt_mul_right this g.le
    have lt' : (k : ℝ) + 1 ≤ k1 := by exact_mod_cast lt
    have step : t + 1 / 2 ^ 37 ≤ t1 := by
      rw [hk, hk1]
      have := mul_le_mul_of_nonneg_right lt' g.le
      linarith
    have dd : IsDouble (((2 ^ 53 - 1 : ℤ) : ℝ) * 2 ^ (-53 : ℤ)) :=
      isDouble_of_le (2 ^ 53 - 1) (-53) (by norm_num) (by norm_num)
    have hb : (t - t0) / (t1 - t0) ≤ ((2 ^ 53 - 1 : ℤ) : ℝ) * 2 ^ (-53 : ℤ) := by
      rw [div_le_iff₀ p]
      norm_num at step ⊢
      linarith
    refine lt_of_le_of_lt (h.le_of_le dd hb) ?_
    norm_num

/-- A date is stored with an error of less than a third of a microsecond. -/
theorem recTime_err (h : Nearest rnd) (f : ℝ) (d : ℤ) (h0 : 0 ≤ f + d) (h1 : f + d ≤ 65536) :
    |recTimeD rnd f d - (f + d)| ≤ 1 / 2 ^ 38 := by
  have := h.err (-37) (by norm_num) (x := f + d) (by rw [abs_of_nonneg h0]; norm_num; linarith)
  refine this.trans_eq ?_
  norm_num

/-- **C172.**  Records a microsecond or more apart keep their order: none are merged. -/
theorem recTime_strict (h : Nearest rnd) (f f' : ℝ) (d d' : ℤ) (h0 : 0 ≤ f + d) (h1 : f' + d' ≤ 65536)
    (hs : f + d + 1 / 86400000000 ≤ f' + d') : recTimeD rnd f d < recTimeD rnd f' d' := by
  have a := abs_le.1 (recTime_err h f d h0 (by linarith))
  have b := abs_le.1 (recTime_err h f' d' (by linarith) h1)
  norm_num at a b hs ⊢
  linarith [a.2, b.1]

/-- **C172.**  The parameter computed from rounded dates against the one of the exact dates: for records `s` days
apart the difference is at most `2^-37/s + 2^-54` (6.3e-7 for one second). -/
theorem slerpD_total (h : Nearest rnd) {A B T : ℝ} (b0 : 32768 ≤ A) (b1 : B ≤ 65536) (hT0 : 0 ≤ T) (hT : T ≤ 65536)
    (hs : A + 1 / 86400000000 ≤ B) (h0 : rnd A ≤ rnd T) (h1 : rnd T < rnd B) :
    |slerpD rnd (rnd T) (rnd A) (rnd B) - (T - A) / (B - A)| ≤ 1 / 2 ^ 37 / (B - A) + 1 / 2 ^ 54 := by
  have i32 : IsDouble (32768 : ℝ) := by simpa using isDouble_int (K := ℝ) 32768 (by norm_num)
  have i65 : IsDouble (65536 : ℝ) := by simpa using isDouble_int (K := ℝ) 65536 (by norm_num)
  have er : ∀ x : ℝ, 0 ≤ x → x ≤ 65536 → |rnd x - x| ≤ 1 / 2 ^ 38 := by
    intro x x0 x1
    have := recTime_err h x 0 (by simpa using x0) (by simpa using x1)
    simpa [recTimeD] using this
  obtain ⟨-, n, -⟩ := slerpD_near h (h.mem T) (h.mem A) (h.mem B) (h.ge_of_ge i32 b0) (h.le_of_le i65 b1) h0 h1
  have p : 0 < B - A := by norm_num at hs ⊢; linarith
  have p' : 0 < rnd B - rnd A := by linarith
  set r := (rnd T - rnd A) / (rnd B - rnd A) with hr
  have r0 : 0 ≤ r := div_nonneg (by linarith) p'.le
  have r1 : r ≤ 1 := (div_le_one p').2 (by linarith)
  have er' : r * (rnd B - rnd A) = rnd T - rnd A := by rw [hr]; field_simp
  clear_value r
  have eA := abs_le.1 (er A (by linarith) (by linarith))
  have eB := abs_le.1 (er B (by linarith) b1)
  have eT := abs_le.1 (er T hT0 hT)
  have key : |r - (T - A) / (B - A)| ≤ 1 / 2 ^ 37 / (B - A) := by
    have : r - (T - A) / (B - A) =
        (((rnd T - T) - (1 - r) * (rnd A - A)) - r * (rnd B - B)) / (B - A) := by
      field_simp
      linear_combination er'
    rw [this, abs_div, abs_of_pos p]
    refine div_le_div_of_nonneg_right ?_ p.le
    rw [abs_le]
    generalize rnd T - T = x at *
    generalize rnd A - A = y at *
    generalize rnd B - B = z at *
    norm_num at eA eB eT ⊢
    constructor <;> nlinarith [mul_nonneg r0 (sub_nonneg.2 eB.1), mul_nonneg r0 (sub_nonneg.2 eB.2),
      mul_nonneg (sub_nonneg.2 r1) (sub_nonneg.2 eA.1), mul_nonneg (sub_nonneg.2 r1) (sub_nonneg.2 eA.2)]
  calc _ ≤ |slerpD rnd (rnd T) (rnd A) (rnd B) - r| + |r - (T - A) / (B - A)| := abs_sub_le _ _ _
    _ ≤ _ := by rw [add_comm]; exact add_le_add key n

/-! Instances of the hypotheses: records at 59215.25 and 59215.5, an epoch between them. -/

example : IsDouble (236861 / 4 : ℝ) := by
  have := isDouble_of_le (K := ℝ) 236861 (-2) (by norm_num) (by norm_num)
  norm_num at this ⊢
  exact this

example : slerpD rnd64 (473723 / 8 : ℚ) (236861 / 4) (236862 / 4) = 1 / 2 := by decide +kernel

example : recTimeD rnd64 (1 / 86400 : ℚ) 59215 < recTimeD rnd64 (2 / 86400 : ℚ) 59215 := by decide +kernel

example : rnd64 (59215 + 1 / 86400 : ℚ) ≤ rnd64 (59215 + 5 / 259200) ∧
    rnd64 (59215 + 5 / 259200 : ℚ) < rnd64 (59215 + 2 / 86400) := by decide +kernel

end Verif.Float
