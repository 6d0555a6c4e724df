import Verif.Mat2D.Model

/-! Helper lemmas on the address formulas of `Mat2D`. -/
namespace Verif.Mat2D

theorem trapSlice_eq_loop (s : Shape) (r : Nat) : trapSlice s r = trapLoop s.cols r := by
  induction r with
  | zero => rfl
  | succ r ih => simp [trapSlice, trapLoop, ih, ptsInRow]

theorem trapLoop_twice (n r : Nat) (h : r ≤ n) : 2 * trapLoop n r = r * (r + 1) := by
  induction r with
  | zero => rfl
  | succ r ih =>
    have := ih (by omega)
    have hm : min (r + 1) n = r + 1 := by omega
    simp only [trapLoop, hm]
    have e : (r + 1) * (r + 1 + 1) = r * (r + 1) + 2 * (r + 1) := by
      rw [Nat.mul_comm (r + 1), ← Nat.add_mul]
    omega

theorem trapLoop_square (n r : Nat) (h : r ≤ n) : trapLoop n r = r * (r + 1) / 2 := by
  have := trapLoop_twice n r h
  omega

/-- The special case `rows == cols` of `num_elements` agrees with the general loop. -/
theorem trapNumElements_eq (s : Shape) : trapNumElements s = trapSlice s s.rows := by
  rw [trapSlice_eq_loop]
  unfold trapNumElements
  split
  · rename_i h
    rw [trapLoop_square s.cols s.rows (by omega)]
  · rfl

theorem trapSlice_mono (s : Shape) {a b : Nat} (h : a ≤ b) : trapSlice s a ≤ trapSlice s b := by
  induction b with
  | zero => have : a = 0 := by omega
            subst this; exact Nat.le_refl _
  | succ b ih =>
    by_cases hb : a = b + 1
    · subst hb; exact Nat.le_refl _
    · have := ih (by omega); simp only [trapSlice]; omega

theorem trapSlice_succ_le (s : Shape) {a b : Nat} (h : a < b) :
    trapSlice s a + ptsInRow s a ≤ trapSlice s b := by
  have := trapSlice_mono s (show a + 1 ≤ b from h)
  simpa [trapSlice] using this

/-- every slot below `trapSlice r` lies in exactly the row found by searching downwards -/
theorem trapSlice_search (s : Shape) (r k : Nat) (h : k < trapSlice s r) :
    ∃ i j, i < r ∧ j < ptsInRow s i ∧ trapSlice s i + j = k := by
  induction r with
  | zero => simp [trapSlice] at h
  | succ r ih =>
    by_cases hk : k < trapSlice s r
    · obtain ⟨i, j, hi, hj, he⟩ := ih hk
      exact ⟨i, j, by omega, hj, he⟩
    · simp only [trapSlice] at h
      exact ⟨r, k - trapSlice s r, by omega, by omega, by omega⟩

end Verif.Mat2D
