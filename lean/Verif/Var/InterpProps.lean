import Verif.Var.InterpModel
import Mathlib.Tactic.Linarith
import Mathlib.Tactic.FieldSimp
import Mathlib.Tactic.Ring
import Mathlib.Tactic.NormNum
import Mathlib.Data.Rat.Cast.Order
import Mathlib.Algebra.Order.Ring.Unbundled.Rat

/-
C135: nearest-neighbour, linear and quadratic interpolation.
-/
namespace Verif.Var

variable {K : Type} [Field K] [LinearOrder K]

/-- Nodes in increasing order. -/
def Increasing (x : Nat → K) (size : Nat) : Prop := ∀ i j, i < j → j < size → x i < x j

omit [Field K] in
theorem Increasing.le {x : Nat → K} {size : Nat} (h : Increasing x size) {i j : Nat} (hij : i ≤ j) (hj : j < size) :
    x i ≤ x j := by
  rcases Nat.lt_or_eq_of_le hij with h' | h'
  · exact (h i j h' hj).le
  · rw [h']

omit [Field K] in
theorem interval_some {x : Nat → K} {size : Nat} {q : K} {i : Nat} (h : interval x size q = some i) :
    1 ≤ i ∧ i < size ∧ x (i - 1) ≤ q ∧ q < x i := by
  have h1 := List.find?_some h
  have h2 := List.mem_of_find?_eq_some h
  rw [List.mem_range'_1] at h2
  have h3 := of_decide_eq_true h1
  exact ⟨h2.1, by omega, h3⟩

omit [Field K] in
theorem interval_inner {x : Nat → K} {size : Nat} {q : K} (h0 : x 0 ≤ q) (h1 : q < x (size - 1)) :
    ∃ i, interval x size q = some i := by
  cases h : interval x size q with
  | some i => exact ⟨i, rfl⟩
  | none =>
    exfalso
    unfold interval at h
    rw [List.find?_eq_none] at h
    have : ∀ k, k ≤ size - 1 → x k ≤ q := by
      intro k
      induction k with
      | zero => intro _; exact h0
      | succ k ih =>
        intro hk
        by_contra hc
        refine h (k + 1) (by rw [List.mem_range'_1]; omega) ?_
        rw [decide_eq_true_eq, Nat.add_sub_cancel]
        exact ⟨ih (by omega), not_le.mp hc⟩
    exact absurd h1 (not_lt.mpr (this (size - 1) (le_refl _)))

omit [Field K] in
theorem interval_above {x : Nat → K} {size : Nat} (hx : Increasing x size) {q : K} (h1 : x (size - 1) ≤ q) :
    interval x size q = none := by
  cases h : interval x size q with
  | none => rfl
  | some i =>
    exfalso
    obtain ⟨a, b, _, d⟩ := interval_some h
    exact absurd (lt_of_lt_of_le d (hx.le (show i ≤ size - 1 by omega) (by omega))) (not_lt.mpr h1)

/-! ### Outside of the nodes -/

/-- **C135** Before the first node all interpolators give the first value with status 1, after the last the last
value with status 2. -/
theorem outside (inner : Nat → Option K) (x y : Nat → K) (size : Nat) (h : 0 < size) (hx : Increasing x size) (q : K) :
    (q < x 0 → valueAt inner x y size q = some (1, y 0)) ∧
    (x (size - 1) < q → valueAt inner x y size q = some (2, y (size - 1))) := by
  constructor
  · intro hq
    unfold valueAt
    rw [if_neg (by omega), if_pos hq.le, if_pos hq]
  · intro hq
    have h0 : x 0 < q := lt_of_le_of_lt (hx.le (Nat.zero_le _) (by omega)) hq
    unfold valueAt
    rw [if_neg (by omega), if_neg (not_le.mpr h0), interval_above hx hq.le]

/-- **C135** At the last of several nodes the status is 2, "outside", with every interpolator. -/
theorem last_node_counterexample (inner : Nat → Option K) (x y : Nat → K) (size : Nat) (h : 1 < size)
    (hx : Increasing x size) : valueAt inner x y size (x (size - 1)) = some (2, y (size - 1)) := by
  have h0 : x 0 < x (size - 1) := hx _ _ (by omega) (by omega)
  unfold valueAt
  rw [if_neg (by omega), if_neg (not_le.mpr h0), interval_above hx (le_refl _)]


omit [Field K] in
theorem inside (inner : Nat → Option K) (x y : Nat → K) (size : Nat) (q : K) (h0 : x 0 < q) (h1 : q < x (size - 1)) :
    ∃ i, 1 ≤ i ∧ i < size ∧ x (i - 1) ≤ q ∧ q < x i ∧ valueAt inner x y size q = (inner i).map fun v => (0, v) := by
  obtain ⟨i, hi⟩ := interval_inner h0.le h1
  obtain ⟨a, b, c, d⟩ := interval_some hi
  refine ⟨i, a, b, c, d, ?_⟩
  unfold valueAt
  rw [if_neg (by omega), if_neg (not_le.mpr h0), hi]

/-! ### Nearest neighbour -/

variable [IsStrictOrderedRing K]

/-- **C135** From the first node to before the last the value is that of a node with the least distance, the later of
two at the same distance, with status 0. -/
theorem nearest_spec (x y : Nat → K) (size : Nat) (hx : Increasing x size) (q : K) (h0 : x 0 ≤ q)
    (h1 : q < x (size - 1)) :
    ∃ k, k < size ∧ nearest x y size q = some (0, y k) ∧ ∀ j, j < size → |q - x k| ≤ |q - x j| := by
  have hs : 0 < size := by
    rcases Nat.eq_zero_or_pos size with h | h
    · subst h; exact absurd h0 (not_le.mpr h1)
    · exact h
  rcases eq_or_lt_of_le h0 with h0 | h0
  · refine ⟨0, hs, ?_, ?_⟩
    · unfold nearest valueAt
      rw [if_neg (by omega), if_pos h0.ge, if_neg (by rw [h0]; exact lt_irrefl _)]
    · intro j _
      rw [← h0, sub_self, abs_zero]
      exact abs_nonneg _
  · unfold nearest
    obtain ⟨i, a, b, c, d, e⟩ := inside (fun i => some (if q - x (i - 1) < x i - q then y (i - 1) else y i)) x y size q h0 h1
    rw [e]
    have hlow : ∀ j, j < size → j ≤ i - 1 → |q - x (i - 1)| ≤ |q - x j| := by
      intro j hj h
      have := hx.le h (by omega)
      rw [abs_of_nonneg (by linarith), abs_of_nonneg (by linarith)]
      linarith
    have hup : ∀ j, j < size → i ≤ j → |q - x i| ≤ |q - x j| := by
      intro j hj h
      have := hx.le h hj
      rw [abs_of_nonpos (by linarith), abs_of_nonpos (by linarith)]
      linarith
    by_cases hc : q - x (i - 1) < x i - q
    · refine ⟨i - 1, by omega, by rw [if_pos hc]; rfl, ?_⟩
      intro j hj
      by_cases h : j ≤ i - 1
      · exact hlow j hj h
      · refine le_trans ?_ (hup j hj (by omega))
        rw [abs_of_nonneg (by linarith), abs_of_nonpos (by linarith)]
        linarith
    · refine ⟨i, b, by rw [if_neg hc]; rfl, ?_⟩
      intro j hj
      by_cases h : i ≤ j
      · exact hup j hj h
      · refine le_trans ?_ (hlow j hj (by omega))
        rw [abs_of_nonneg (show 0 ≤ q - x (i - 1) by linarith), abs_of_nonpos (by linarith)]
        linarith

/-! ### Linear interpolation -/

/-- **C135** Inside, the value of the linear interpolator is on the line between the two neighbours. -/
theorem linear_between (x y : Nat → K) (size : Nat) (q : K) (h0 : x 0 < q) (h1 : q < x (size - 1)) :
    ∃ i w, 1 ≤ i ∧ i < size ∧ 0 ≤ w ∧ w < 1 ∧ q = (1 - w) * x (i - 1) + w * x i ∧
      linear x y size q = some (0, (1 - w) * y (i - 1) + w * y i) := by
  unfold linear
  obtain ⟨i, a, b, c, d, e⟩ := inside (fun i => some (y (i - 1) + ((y (i - 1) - y i) / (x (i - 1) - x i)) *
    (q - x (i - 1)))) x y size q h0 h1
  have hp : 0 < x i - x (i - 1) := by linarith
  refine ⟨i, (q - x (i - 1)) / (x i - x (i - 1)), a, b, div_nonneg (by linarith) hp.le, ?_, ?_, ?_⟩
  · rw [div_lt_one hp]; linarith
  · field_simp; ring
  · rw [e]
    have hn : x (i - 1) - x i ≠ 0 := by linarith
    have hn' : x i - x (i - 1) ≠ 0 := hp.ne'
    simp only [Option.map_some]
    congr 2
    rw [show (y (i - 1) - y i) / (x (i - 1) - x i) = (y i - y (i - 1)) / (x i - x (i - 1)) by
      rw [← neg_sub (y i), ← neg_sub (x i), neg_div_neg_eq]]
    field_simp
    ring

/-- **C135** Values of a function of degree one are reproduced, nodes included. -/
theorem linear_exact (x : Nat → K) (size : Nat) (hs : 0 < size) (hx : Increasing x size) (m b q : K)
    (h0 : x 0 ≤ q) (h1 : q ≤ x (size - 1)) :
    ∃ s, linear x (fun i => m * x i + b) size q = some (s, m * q + b) := by
  rcases eq_or_lt_of_le h0 with h0 | h0
  · refine ⟨0, ?_⟩
    unfold linear valueAt
    rw [if_neg (by omega), if_pos h0.ge, if_neg (by rw [h0]; exact lt_irrefl _)]
    simp only [h0]
  · rcases eq_or_lt_of_le h1 with h1 | h1
    · refine ⟨2, ?_⟩
      have h2 : 1 < size := by
        by_contra hc
        have : size = 1 := by omega
        subst this
        rw [h1] at h0
        exact lt_irrefl _ h0
      rw [h1]
      exact last_node_counterexample _ _ _ size h2 hx
    · obtain ⟨i, w, _, _, _, _, hq, hl⟩ := linear_between x (fun i => m * x i + b) size q h0 h1
      refine ⟨0, ?_⟩
      rw [hl]
      refine congrArg some (Prod.ext rfl ?_)
      have hm := congrArg (fun v => m * v + b) hq
      rw [show m * q + b = m * ((1 - w) * x (i - 1) + w * x i) + b from hm]
      show (1 - w) * (m * x (i - 1) + b) + w * (m * x i + b) = _
      ring

/-! ### Quadratic interpolation -/

/-- **C135** With three nodes or more the third point exists and is the nearest of the other nodes. -/
theorem third_spec (x : Nat → K) (size : Nat) (hx : Increasing x size) (q : K) (i : Nat) (h3 : 3 ≤ size) (a : 1 ≤ i)
    (b : i < size) (c : x (i - 1) ≤ q) (d : q < x i) :
    ∃ k, third x size q i = some k ∧ k < size ∧ k ≠ i ∧ k ≠ i - 1 ∧
      ∀ j, j < size → j ≠ i → j ≠ i - 1 → |q - x k| ≤ |q - x j| := by
  have hlow : 2 ≤ i → ∀ j, j ≤ i - 2 → |q - x (i - 2)| ≤ |q - x j| := by
    intro h2 j h
    have h4 := hx.le h (by omega)
    have h5 := hx.le (show i - 2 ≤ i - 1 by omega) (by omega)
    rw [abs_of_nonneg (by linarith), abs_of_nonneg (by linarith)]
    linarith
  have hup : ∀ j, j < size → i + 1 ≤ j → |q - x (i + 1)| ≤ |q - x j| := by
    intro j hj h
    have h4 := hx.le h hj
    have h5 := hx.le (show i ≤ i + 1 by omega) (by omega)
    rw [abs_of_nonpos (by linarith), abs_of_nonpos (by linarith)]
    linarith
  unfold third
  by_cases h1 : i > 1 ∧ i < size - 1
  · rw [if_pos h1]
    have e1 := hx.le (show i - 2 ≤ i - 1 by omega) (by omega)
    have e2 := hx.le (show i ≤ i + 1 by omega) (by omega)
    by_cases h : q - x (i - 2) < x (i + 1) - q
    · refine ⟨i - 2, by rw [if_pos h], by omega, by omega, by omega, ?_⟩
      intro j hj k1 k2
      by_cases hj2 : j ≤ i - 2
      · exact hlow (by omega) j hj2
      · refine le_trans ?_ (hup j hj (by omega))
        rw [abs_of_nonneg (by linarith), abs_of_nonpos (by linarith)]
        linarith
    · refine ⟨i + 1, by rw [if_neg h], by omega, by omega, by omega, ?_⟩
      intro j hj k1 k2
      by_cases hj2 : j ≤ i - 2
      · refine le_trans ?_ (hlow (by omega) j hj2)
        rw [abs_of_nonpos (by linarith), abs_of_nonneg (by linarith)]
        linarith
      · exact hup j hj (by omega)
  · rw [if_neg h1]
    by_cases h2 : i ≤ 1 ∧ i < size - 1
    · rw [if_pos h2]
      exact ⟨i + 1, rfl, by omega, by omega, by omega, fun j hj k1 k2 => hup j hj (by omega)⟩
    · rw [if_neg h2, if_pos (by omega)]
      exact ⟨i - 2, rfl, by omega, by omega, by omega, fun j hj k1 k2 => hlow (by omega) j (by omega)⟩

/-- **C135** Three nodes or more: values of a function of degree two are reproduced from the first node to before the
last. -/
theorem quadratic_exact (x : Nat → K) (size : Nat) (hx : Increasing x size) (h3 : 3 ≤ size) (a b c q : K)
    (h0 : x 0 ≤ q) (h1 : q < x (size - 1)) :
    quadratic x (fun i => a * x i ^ 2 + b * x i + c) size q = some (0, a * q ^ 2 + b * q + c) := by
  rcases eq_or_lt_of_le h0 with h0 | h0
  · unfold quadratic valueAt
    rw [if_neg (by omega), if_pos h0.ge, if_neg (by rw [h0]; exact lt_irrefl _)]
    simp only [h0]
  · unfold quadratic
    obtain ⟨i, i1, i2, i3, i4, e⟩ := inside (quadInner x (fun i => a * x i ^ 2 + b * x i + c) size q)
      x (fun i => a * x i ^ 2 + b * x i + c) size q h0 h1
    rw [e]
    obtain ⟨k, hk, k1, k2, k3, _⟩ := third_spec x size hx q i h3 i1 i2 i3 i4
    simp only [quadInner, hk]
    rw [if_pos (by omega), Option.map_some]
    congr 2
    have hne : ∀ m n, m < size → n < size → m ≠ n → x m - x n ≠ 0 := by
      intro m n hm hn h
      rcases Nat.lt_or_gt_of_ne h with h' | h'
      · have := hx m n h' hn; intro h0; linarith
      · have := hx n m h' hm; intro h0; linarith
    have n1 := hne (i - 1) i (by omega) i2 (by omega)
    have n2 := hne (i - 1) k (by omega) k1 (by omega)
    have n3 := hne i k i2 k1 (by omega)
    have n4 := hne i (i - 1) i2 (by omega) (by omega)
    have n5 := hne k (i - 1) k1 (by omega) (by omega)
    have n6 := hne k i k1 i2 (by omega)
    unfold parabola
    simp only
    generalize x (i - 1) = u at *
    generalize x i = v at *
    generalize x k = w at *
    have e1 : w - u = -(u - w) := by ring
    have e2 : w - v = -(v - w) := by ring
    have e3 : v - u = -(u - v) := by ring
    rw [e1, e2, e3]
    field_simp
    ring

/-- **C135** At every node but the last the quadratic interpolator gives the value of the node. -/
theorem quadratic_node (x y : Nat → K) (size : Nat) (hx : Increasing x size) (h3 : 3 ≤ size) (k : Nat) (hk : k + 1 < size) :
    quadratic x y size (x k) = some (0, y k) := by
  rcases Nat.eq_zero_or_pos k with h | h
  · subst h
    unfold quadratic valueAt
    rw [if_neg (by omega), if_pos (le_refl _), if_neg (lt_irrefl _)]
  · unfold quadratic
    obtain ⟨i, i1, i2, i3, i4, e⟩ := inside (quadInner x y size (x k))
      x y size (x k) (hx _ _ h (by omega)) (hx _ _ (by omega) (by omega))
    have hik : i - 1 = k := by
      have h4 : ¬ k < i - 1 := fun hc => absurd (hx k (i - 1) hc (by omega)) (not_lt.mpr i3)
      have h5 : ¬ i ≤ k := fun hc => absurd (hx.le hc (by omega)) (not_le.mpr i4)
      omega
    rw [e]
    obtain ⟨l, hl, l1, l2, l3, _⟩ := third_spec x size hx (x k) i h3 i1 i2 i3 i4
    simp only [quadInner, hl]
    rw [if_pos (by omega), Option.map_some, hik]
    congr 2
    have n1 : x k - x i ≠ 0 := by
      have := hx k i (by omega) i2; intro h0; linarith
    have n2 : x k - x l ≠ 0 := by
      intro h0
      rcases Nat.lt_or_gt_of_ne (show k ≠ l by omega) with h' | h'
      · have := hx k l h' l1; linarith
      · have := hx l k h' (by omega); linarith
    unfold parabola
    simp only [sub_self, zero_mul, zero_div, mul_zero, add_zero]
    rw [div_self (mul_ne_zero n1 n2), mul_one]

omit [IsStrictOrderedRing K] in
/-- **C135** With two nodes the quadratic interpolator fails everywhere between them: no third point is found, and
the assertion stops the program. -/
theorem two_nodes_counterexample (x y : Nat → K) (q : K) (h0 : x 0 < q) (h1 : q < x 1) : quadratic x y 2 q = none := by
  unfold quadratic
  obtain ⟨i, i1, i2, _, _, e⟩ := inside (quadInner x y 2 q) x y 2 q h0 h1
  rw [e]
  have : i = 1 := by omega
  subst this
  rfl

/-! ### Examples -/

example : Increasing (fun i : Nat => (5 * i : ℚ)) 19 := by
  intro i j h _
  simp only
  have : (i : ℚ) < j := by exact_mod_cast h
  linarith

/-- The arrays of the program, at 7. -/
example : (nearest (fun i : Nat => (5 * i : ℚ)) (fun i => [0, 205, 724, 921].getD i 0) 4 7,
    linear (fun i : Nat => (5 * i : ℚ)) (fun i => [0, 205, 724, 921].getD i 0) 4 7,
    quadratic (fun i : Nat => (5 * i : ℚ)) (fun i => [0, 205, 724, 921].getD i 0) 4 7) =
    (some (0, 205), some (0, 2063 / 5), some (0, 9373 / 25)) := by
  decide +kernel

end Verif.Var
