import Verif.Astro.KeplerTestModel
import Verif.Astro.KeplerConverge

/-
C139: the solver of the test program and the comparison it makes.
-/
namespace Verif.Astro

open Real

theorem modulo_eq (a : ℝ) : modulo a (2 * π) = arg02pi a := by
  have hp : 0 < 2 * π := by positivity
  have hdiv : a = 2 * π * (a / (2 * π)) := by field_simp
  unfold modulo frac arg02pi fmod
  generalize a / (2 * π) = q at *
  by_cases hq : 0 ≤ q
  · rw [if_pos hq, if_neg]
    · rw [hdiv]; ring
    · rw [not_lt, hdiv, ← mul_sub]
      exact mul_nonneg hp.le (by linarith [Int.floor_le q])
  · rw [if_neg hq, hdiv, ← mul_sub]
    by_cases hz : q - (⌈q⌉ : ℝ) < 0
    · rw [if_pos (mul_neg_of_pos_of_neg hp hz)]
      have hf : ⌊q⌋ = ⌈q⌉ - 1 := by
        rw [Int.floor_eq_iff]
        push_cast
        have := Int.ceil_lt_add_one q
        constructor <;> linarith
      rw [hf]
      push_cast
      ring
    · have h1 : q = ⌈q⌉ := le_antisymm (Int.le_ceil q) (by linarith [not_lt.mp hz])
      rw [← h1, sub_self, mul_zero, if_neg (lt_irrefl _)]
      have hf : (⌊q⌋ : ℝ) = q := by
        rw [h1]
        simp
      rw [hf]
      ring

theorem eccLoop_eq (e M eps : ℝ) : ∀ (fuel : Nat) (E : ℝ) (i : Nat), i + fuel = maxIt → 1 ≤ fuel →
    eccLoop e M eps (fuel + 1) E i = keplerLoop e M eps fuel E i
  | 0, _, _, _, h => by omega
  | fuel + 1, E, i, hs, _ => by
    rw [eccLoop, keplerLoop]
    rw [if_neg (show ¬ i = maxIt by omega)]
    by_cases h1 : |E - e * sin E - M| > eps
    · rw [if_pos h1, if_pos h1]
      by_cases h2 : i + 1 < maxIt
      · rw [if_pos h2, if_pos h2]
        exact eccLoop_eq e M eps fuel _ (i + 1) (by omega) (by omega)
      · rw [if_neg h2, if_neg h2]
    · rw [if_neg h1, if_neg h1]

/-- **C139** The solver of the test program is `kepler`: the same anomaly and the same status for all arguments. -/
theorem eccAnom_eq (M e eps : ℝ) : eccAnom M e eps = kepler e M eps := by
  unfold eccAnom kepler
  simp only [modulo_eq]
  rw [eccLoop_eq e (arg02pi M) eps maxIt _ 0 (by simp) (by decide)]

/-! ### The comparison -/

/-- The largest of a list of numbers, 0 for the empty list. -/
def IsMax (l : List ℝ) (x : ℝ) : Prop := (x = 0 ∨ x ∈ l) ∧ 0 ≤ x ∧ ∀ y ∈ l, y ≤ x

theorem update_diff (d : MaxDiff) (a b e M : ℝ) : (d.update a b e M).diff = max d.diff |a - b| := by
  unfold MaxDiff.update
  split
  · rename_i h
    rw [max_eq_right h.le]
    rfl
  · rename_i h
    rw [max_eq_left (not_lt.mp h)]

theorem compareAll_spec (eps : ℝ) : ∀ (l : List (ℝ × ℝ)) (d13 d23 : MaxDiff) (n1 n2 n3 : Nat),
    (compareAll eps l d13 d23 n1 n2 n3).1.diff = d13.diff ∧
    (compareAll eps l d13 d23 n1 n2 n3).2.1.diff =
      (l.map fun p => |(keplerVallado p.2 p.1 eps).1 - (kepler p.2 p.1 eps).1|).foldl max d23.diff ∧
    (compareAll eps l d13 d23 n1 n2 n3).2.2 =
      (n1 + (l.map fun p => (kepler p.2 p.1 eps).2).sum, n2 + (l.map fun p => (keplerVallado p.2 p.1 eps).2).sum,
        n3 + (l.map fun p => (kepler p.2 p.1 eps).2).sum)
  | [], d13, d23, n1, n2, n3 => by simp [compareAll]
  | (M, e) :: l, d13, d23, n1, n2, n3 => by
    obtain ⟨h1, h2, h3⟩ := compareAll_spec eps l (d13.update (kepler e M eps).1 (eccAnom M e eps).1 e M)
      (d23.update (keplerVallado e M eps).1 (eccAnom M e eps).1 e M) (n1 + (kepler e M eps).2)
      (n2 + (keplerVallado e M eps).2) (n3 + (eccAnom M e eps).2)
    simp only [compareAll]
    refine ⟨?_, ?_, ?_⟩
    · rw [h1, update_diff, eccAnom_eq, sub_self, abs_zero]
      exact max_eq_left (abs_nonneg _)
    · rw [h2, update_diff, eccAnom_eq]
      rfl
    · rw [h3, eccAnom_eq]
      simp only [List.map_cons, List.sum_cons]
      rw [Nat.add_assoc, Nat.add_assoc, Nat.add_assoc]

theorem foldl_max (l : List ℝ) : ∀ (x : ℝ), x ≤ l.foldl max x ∧ (l.foldl max x = x ∨ l.foldl max x ∈ l) ∧
    ∀ y ∈ l, y ≤ l.foldl max x := by
  induction l with
  | nil => intro x; simp
  | cons a l ih =>
    intro x
    obtain ⟨h1, h2, h3⟩ := ih (max x a)
    rw [List.foldl_cons]
    refine ⟨(le_max_left _ _).trans h1, ?_, ?_⟩
    · rcases h2 with h | h
      · rcases max_choice x a with hm | hm
        · left; rw [h, hm]
        · right; rw [h, hm]; exact List.mem_cons_self
      · right; exact List.mem_cons_of_mem _ h
    · intro y hy
      rcases List.mem_cons.mp hy with rfl | hy
      · exact (le_max_right _ _).trans h1
      · exact h3 y hy

/-- **C139** The second difference printed is the largest one between `kepler_vallado` and the solver of the test
program; each solver gets one message per failure. -/
theorem second_difference (eps : ℝ) (l : List (ℝ × ℝ)) (d13 d23 : MaxDiff) (h0 : d23.diff = 0) :
    IsMax (l.map fun p => |(keplerVallado p.2 p.1 eps).1 - (eccAnom p.1 p.2 eps).1|) (compareAll eps l d13 d23 0 0 0).2.1.diff ∧
    (compareAll eps l d13 d23 0 0 0).2.2 =
      ((l.map fun p => (kepler p.2 p.1 eps).2).sum, (l.map fun p => (keplerVallado p.2 p.1 eps).2).sum,
        (l.map fun p => (eccAnom p.1 p.2 eps).2).sum) := by
  obtain ⟨-, h2, h3⟩ := compareAll_spec eps l d13 d23 0 0 0
  simp only [eccAnom_eq]
  refine ⟨?_, by rw [h3]; simp only [Nat.zero_add]⟩
  rw [h2, h0]
  obtain ⟨a, b, c⟩ := foldl_max (l.map fun p => |(keplerVallado p.2 p.1 eps).1 - (kepler p.2 p.1 eps).1|) 0
  exact ⟨b, a, c⟩

/-- **C139** The first difference printed is 0 for every list of pairs, whether or not the anomalies solve the equation:
the program compares `kepler` with the same method. -/
theorem first_difference_counterexample (eps : ℝ) (l : List (ℝ × ℝ)) (d13 d23 : MaxDiff) (h0 : d13.diff = 0) :
    (compareAll eps l d13 d23 0 0 0).1.diff = 0 := by
  rw [(compareAll_spec eps l d13 d23 0 0 0).1, h0]

/-- **C139** Where the eccentricities are at most 0.85 there are no messages, and the second difference is below
`27 eps`. -/
theorem comparison_partial (eps : ℝ) (l : List (ℝ × ℝ)) (d13 d23 : MaxDiff) (h0 : d23.diff = 0)
    (heps : 1 / 10 ^ 17 ≤ eps) (hl : ∀ p ∈ l, 0 ≤ p.2 ∧ p.2 ≤ 17 / 20) :
    (compareAll eps l d13 d23 0 0 0).2.2 = (0, 0, 0) ∧ (compareAll eps l d13 d23 0 0 0).2.1.diff ≤ 27 * eps := by
  obtain ⟨⟨hmem, -, -⟩, hsum⟩ := second_difference eps l d13 d23 h0
  have hk : ∀ p ∈ l, (kepler p.2 p.1 eps).2 = 0 := fun p hp => kepler_converges_partial _ _ _ (hl p hp).1 (hl p hp).2 heps
  have hv : ∀ p ∈ l, (keplerVallado p.2 p.1 eps).2 = 0 :=
    fun p hp => vallado_converges_partial _ _ _ (hl p hp).1 (hl p hp).2 heps
  have hep : 0 < eps := lt_of_lt_of_le (by norm_num) heps
  constructor
  · rw [hsum]
    simp only [eccAnom_eq]
    have a1 : (l.map fun p => (kepler p.2 p.1 eps).2).sum = 0 := by
      rw [List.sum_eq_zero]
      intro x hx
      obtain ⟨p, hp, rfl⟩ := List.mem_map.mp hx
      exact hk p hp
    have a2 : (l.map fun p => (keplerVallado p.2 p.1 eps).2).sum = 0 := by
      rw [List.sum_eq_zero]
      intro x hx
      obtain ⟨p, hp, rfl⟩ := List.mem_map.mp hx
      exact hv p hp
    rw [a1, a2]
  · rcases hmem with h | h
    · rw [h]; linarith
    · obtain ⟨p, hp, h⟩ := List.mem_map.mp h
      rw [← h, eccAnom_eq]
      obtain ⟨b0, b1⟩ := hl p hp
      obtain ⟨r, hr, -⟩ := kepler_unique p.2 (arg02pi p.1) b0 (by linarith)
      have c1 := kepler_accurate p.2 p.1 eps r b0 (by linarith) (hk p hp) hr
      have c2 := vallado_accurate p.2 p.1 eps r b0 (by linarith) (hv p hp) hr
      have c3 := abs_sub_le (keplerVallado p.2 p.1 eps).1 r (kepler p.2 p.1 eps).1
      rw [abs_sub_comm r] at c3
      have c4 : 2 * eps / (1 - p.2) ≤ 2 * eps / (3 / 20) := div_le_div_of_nonneg_left (by linarith) (by norm_num) (by linarith)
      have c5 : 2 * eps / (3 / 20) = 40 / 3 * eps := by ring
      linarith

/-! ### Examples -/

example : (kepler (4 / 10) 3 (10 / 2 ^ 52)).2 = 0 ∧ (keplerVallado (4 / 10) 3 (10 / 2 ^ 52)).2 = 0 :=
  ⟨kepler_converges_partial _ _ _ (by norm_num) (by norm_num) (by norm_num),
    vallado_converges_partial _ _ _ (by norm_num) (by norm_num) (by norm_num)⟩

example : (compareAll (10 / 2 ^ 52) [(1, 1 / 2), (-7, 1 / 10)] ⟨0, 0, 0, 0⟩ ⟨0, 0, 0, 0⟩ 0 0 0).2.2 = (0, 0, 0) := by
  refine (comparison_partial _ _ _ _ (by simp [MaxDiff.diff]) (by norm_num) ?_).1
  intro p hp
  rcases List.mem_cons.mp hp with rfl | hp
  · norm_num
  · rw [List.mem_singleton] at hp
    rw [hp]
    norm_num

end Verif.Astro
