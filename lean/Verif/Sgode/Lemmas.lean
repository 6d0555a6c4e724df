import Verif.Sgode.Model
import Mathlib.Tactic.Ring
import Mathlib.Tactic.Linarith
import Mathlib.Tactic.FieldSimp
import Mathlib.Tactic.Positivity
import Mathlib.Tactic.ByContra
import Mathlib.Algebra.Order.Ring.Abs

/-! Lemmas about the parts of a step. -/
namespace Verif.Sgode

variable {K : Type} [Field K] [LinearOrder K] [IsStrictOrderedRing K] {n : Nat}

theorem put_same {A : Type} (a : Nat → A) (i : Nat) (b : A) : put a i b i = b := by simp [put]

theorem put_ne {A : Type} (a : Nat → A) {i j : Nat} (b : A) (h : j ≠ i) : put a i b j = a j := by
  simp [put, h]

/-! ### The coefficient loop -/

/-- `coefLoop` followed by the final assignment of `psi` (sgode_step.cpp:106-118). -/
theorem coefLoop_psi (h : K) : ∀ (m i : Nat) (c : Coef K), 1 ≤ i →
    ∀ j, put (coefLoop h m i c).psi (i + m - 1) (coefLoop h m i c).tmp1 j =
      if j + 1 < i ∨ i + m ≤ j then c.psi j
      else if j + 1 = i then c.tmp1
      else c.psi (j - 1) + h
  | 0, i, c, hi, j => by
    simp only [coefLoop, Nat.add_zero]
    by_cases h1 : j = i - 1
    · subst h1
      rw [put_same, if_neg (by omega), if_pos (by omega)]
    · rw [put_ne _ _ h1, if_pos (by omega)]
  | m + 1, i, c, hi, j => by
    simp only [coefLoop]
    have hidx : i + (m + 1) - 1 = i + 1 + m - 1 := by omega
    rw [hidx, coefLoop_psi h m (i + 1) _ (by omega) j]
    dsimp only
    by_cases h1 : j + 1 < i
    · rw [if_pos (by omega), if_pos (by omega), put_ne _ _ (by omega)]
    · by_cases h2 : j + 1 = i
      · rw [if_pos (by omega), if_neg (by omega), if_pos h2, show i - 1 = j by omega, put_same]
      · by_cases h3 : i + (m + 1) ≤ j
        · rw [if_pos (by omega), if_pos (by omega), put_ne _ _ (by omega)]
        · have e1 : ¬ (j + 1 < i + 1 ∨ i + 1 + m ≤ j) := by omega
          have e2 : ¬ (j + 1 < i ∨ i + (m + 1) ≤ j) := by omega
          rw [if_neg e1, if_neg e2, if_neg h2]
          by_cases h4 : j = i
          · rw [if_pos (by omega), h4]
          · rw [if_neg (by omega), put_ne _ _ (by omega)]

theorem coefLoop_beta_other (h : K) : ∀ (m i : Nat) (c : Coef K) (j : Nat), j < i ∨ i + m ≤ j →
    (coefLoop h m i c).beta j = c.beta j
  | 0, _, _, _, _ => rfl
  | m + 1, i, c, j, hj => by
    simp only [coefLoop]
    rw [coefLoop_beta_other h m (i + 1) _ j (by omega)]
    simp only
    rw [put_ne _ _ (by omega)]

theorem mul_self_pos' {d a b : K} (ha : 0 < d * a) (hb : 0 < d * b) : 0 < a * b := by
  have hd : d ≠ 0 := fun h => by simp [h] at ha
  have h1 : 0 < (d * d) * (a * b) := by
    have := mul_pos ha hb
    rw [show d * a * (d * b) = d * d * (a * b) by ring] at this
    exact this
  exact (pos_iff_pos_of_mul_pos h1).1 (mul_self_pos.2 hd)

/-- The `beta` computed are positive as long as the `psi` have the sign of the direction `d`. -/
theorem coefLoop_beta_pos (d h : K) (hh : 0 < d * h) : ∀ (m i : Nat) (c : Coef K), 1 ≤ i →
    0 < c.beta (i - 1) → 0 < d * c.tmp1 → (∀ j, i ≤ j + 1 → j + 1 < i + m → 0 < d * c.psi j) →
    ∀ j, i ≤ j + 1 → j < i + m → 0 < (coefLoop h m i c).beta j
  | 0, i, c, hi, hb, _, _, j, h1, h2 => by
    have : j = i - 1 := by omega
    subst this
    exact hb
  | m + 1, i, c, hi, hb, ht, hp, j, h1, h2 => by
    simp only [coefLoop]
    have hbi : 0 < c.beta (i - 1) * c.tmp1 / c.psi (i - 1) := by
      have h3 := hp (i - 1) (by omega) (by omega)
      have h4 := mul_self_pos' ht h3
      have h5 : c.psi (i - 1) ≠ 0 := fun h => by rw [h] at h3; simp at h3
      have : c.beta (i - 1) * c.tmp1 / c.psi (i - 1) =
          c.beta (i - 1) * (c.tmp1 * c.psi (i - 1)) / (c.psi (i - 1) * c.psi (i - 1)) := by
        field_simp
      rw [this]
      exact div_pos (mul_pos hb h4) (mul_self_pos.2 h5)
    by_cases hj : j + 1 = i
    · rw [coefLoop_beta_other _ _ _ _ _ (by omega)]
      simp only
      rw [put_ne _ _ (by omega), show j = i - 1 by omega]
      exact hb
    · refine coefLoop_beta_pos d h hh m (i + 1) _ (by omega) ?_ ?_ ?_ j (by omega) (by omega)
      · simp only [Nat.add_sub_cancel]
        rw [put_same, put_same]
        exact hbi
      · simp only
        rw [mul_add]
        exact add_pos (hp (i - 1) (by omega) (by omega)) hh
      · intro l hl1 hl2
        simp only
        rw [put_ne _ _ (by omega)]
        exact hp l (by omega) (by omega)

/-! ### Prediction and restoration of the differences -/

theorem predict_phi_ge (g : Nat → K) : ∀ (m : Nat) (p : Vec K n) (phi : Nat → Vec K n) (i : Nat),
    m ≤ i → (predict g m p phi).2 i = phi i
  | 0, _, _, _, _ => rfl
  | m + 1, p, phi, i, hi => by
    simp only [predict]
    rw [predict_phi_ge g m _ _ i (by omega), put_ne _ _ (by omega)]

/-- The differences after the prediction: each is the sum of the old one and the next new one. -/
theorem predict_phi (g : Nat → K) : ∀ (m : Nat) (p : Vec K n) (phi : Nat → Vec K n) (i : Nat),
    i < m → (predict g m p phi).2 i = phi i + (predict g m p phi).2 (i + 1)
  | m + 1, p, phi, i, hi => by
    simp only [predict]
    by_cases h : i = m
    · subst h
      rw [predict_phi_ge g i _ _ i le_rfl, predict_phi_ge g i _ _ (i + 1) (by omega), put_same,
        put_ne _ _ (by omega)]
    · rw [predict_phi g m _ _ i (by omega), put_ne _ _ h]

/-! ### Elementary facts -/

theorem copysign_sign {d a b : K} (ha : a ≠ 0) (hb : 0 < d * b) : 0 < d * copysign a b := by
  unfold copysign
  have hd : d ≠ 0 := fun h => by simp [h] at hb
  have hpos : 0 < |a| := abs_pos.2 ha
  split
  · rename_i h
    have hb0 : 0 < b := lt_of_le_of_ne h (fun h => by rw [← h] at hb; simp at hb)
    have : 0 < d := (pos_iff_pos_of_mul_pos hb).2 hb0
    exact mul_pos this hpos
  · rename_i h
    have hb0 : b < 0 := not_le.1 h
    have : d < 0 := by
      rcases lt_or_gt_of_ne hd with h | h
      · exact h
      · have := mul_neg_of_pos_of_neg h hb0
        exact absurd hb (not_lt.2 this.le)
    rw [mul_neg]
    exact neg_pos.2 (mul_neg_of_neg_of_pos this hpos)

end Verif.Sgode
