import Verif.Pod.StatModel
import Mathlib.Algebra.Order.BigOperators.Group.List
import Mathlib.Tactic.FieldSimp
import Mathlib.Tactic.Ring
import Mathlib.Tactic.Linarith
import Mathlib.Tactic.NormNum
import Mathlib.Tactic.Positivity

/-
C95: the running statistics are the average and the mean square deviation of the values; which
residuals the outlier test keeps.
-/
namespace Verif.Pod

/-- Specification: the average. -/
noncomputable def average (xs : List ℝ) : ℝ := xs.sum / xs.length

/-- Specification: sum of the squared deviations from `m`. -/
noncomputable def squares (m : ℝ) (xs : List ℝ) : ℝ := (xs.map fun x => (x - m) ^ 2).sum

theorem squares_append (m : ℝ) (xs : List ℝ) (x : ℝ) : squares m (xs ++ [x]) = squares m xs + (x - m) ^ 2 := by
  simp [squares]

/-- Moving the reference point of the squares. -/
theorem squares_shift (m d : ℝ) (xs : List ℝ) :
    squares (m + d) xs = squares m xs - 2 * d * (xs.sum - xs.length * m) + xs.length * d ^ 2 := by
  induction xs with
  | nil => simp [squares]
  | cons x l ih =>
    have h : ∀ m', squares m' (x :: l) = (x - m') ^ 2 + squares m' l := fun m' => by simp [squares]
    rw [h, h, ih]
    push_cast [List.sum_cons, List.length_cons]
    ring

/-- The values kept after any list. -/
theorem after_spec (xs : List ℝ) :
    (Running.after xs).k = xs.length + 1 ∧
    (xs.length : ℝ) * (Running.after xs).mean = xs.sum ∧
    (Running.after xs).var = squares (Running.after xs).mean xs := by
  induction xs using List.reverseRecOn with
  | nil => simp [Running.after, Running.new, squares]
  | append_singleton xs x ih =>
    obtain ⟨hk, hm, hv⟩ := ih
    have hs : Running.after (xs ++ [x]) = (Running.after xs).update x := by
      simp [Running.after, List.foldl_append]
    rw [hs]
    generalize Running.after xs = s at hk hm hv
    have hn : (0 : ℝ) < (xs.length : ℝ) + 1 := by positivity
    refine ⟨?_, ?_, ?_⟩
    · simp [Running.update, hk]
    · simp only [Running.update, hk, List.length_append, List.length_singleton, List.sum_append,
        List.sum_singleton]
      push_cast
      rw [← hm]
      field_simp
      ring
    · simp only [Running.update, hk]
      push_cast
      rw [squares_append, squares_shift, ← hm, hv]
      field_simp
      ring

/-- **C95** After one value or more `mean()` is their average. -/
theorem running_mean (xs : List ℝ) (h : xs ≠ []) : (Running.after xs).mean = average xs := by
  have hp : (0 : ℝ) < xs.length := by
    exact_mod_cast List.length_pos_iff.2 h
  have := (after_spec xs).2.1
  unfold average
  rw [eq_div_iff hp.ne', mul_comm]
  exact this

/-- **C95** `count()` is the number of values. -/
theorem running_count (xs : List ℝ) : (Running.after xs).count = xs.length := by
  simp [Running.count, (after_spec xs).1]

/-- **C95** `variance()` is the mean squared deviation from the average (division by the number of
values, not by one less), and `stddev()` its root. -/
theorem running_variance (xs : List ℝ) (h : xs ≠ []) :
    (Running.after xs).variance = squares (average xs) xs / xs.length ∧
    (Running.after xs).stddev = √(squares (average xs) xs / xs.length) := by
  have : (Running.after xs).variance = squares (average xs) xs / xs.length := by
    unfold Running.variance
    rw [(after_spec xs).2.2, (after_spec xs).1, running_mean xs h]
    simp
  exact ⟨this, by unfold Running.stddev; rw [this]⟩

/-- **C95** Neither depends on the order of the values. -/
theorem running_perm (xs ys : List ℝ) (h : xs.Perm ys) :
    (Running.after xs).mean = (Running.after ys).mean ∧
    (Running.after xs).variance = (Running.after ys).variance := by
  by_cases hx : xs = []
  · subst hx
    rw [List.nil_perm.1 h]
    exact ⟨rfl, rfl⟩
  · have hy : ys ≠ [] := fun h' => hx (by subst h'; exact List.perm_nil.1 h)
    have ha : average xs = average ys := by
      unfold average
      rw [h.sum_eq, h.length_eq]
    refine ⟨by rw [running_mean xs hx, running_mean ys hy, ha], ?_⟩
    rw [(running_variance xs hx).1, (running_variance ys hy).1, ha, h.length_eq]
    unfold squares
    rw [(h.map _).sum_eq]

/-- The residuals that were kept. -/
def kept (l : List (ℝ × ℝ)) (b : List Bool) : List ℝ := ((l.zip b).filter (·.2)).map (·.1.1)

/-- **C95** The statistics of the screening are those of the residuals kept so far, and a residual is
kept exactly if it lies below 1000 while at most five were kept, and later below thirty standard
deviations of the kept ones, divided by the sine of its elevation. -/
theorem screen_spec (l : List (ℝ × ℝ)) (xs : List ℝ) :
    (screenAll (Running.after xs) l).1 = Running.after (xs ++ kept l (screenAll (Running.after xs) l).2) ∧
    (screenAll (Running.after xs) l).2.length = l.length := by
  induction l generalizing xs with
  | nil => simp [screenAll, kept]
  | cons p l ih =>
    obtain ⟨oc, se⟩ := p
    simp only [screenAll, screen]
    split
    · have h1 : (Running.after xs).update oc = Running.after (xs ++ [oc]) := by
        simp [Running.after, List.foldl_append]
      rw [h1]
      obtain ⟨h2, h3⟩ := ih (xs ++ [oc])
      refine ⟨?_, by simp [h3]⟩
      rw [h2]
      simp [kept]
    · obtain ⟨h2, h3⟩ := ih xs
      refine ⟨?_, by simp [h3]⟩
      rw [h2]
      simp [kept]

/-- **C95** The decision for one residual after the residuals `xs` were kept. -/
theorem screen_iff (xs : List ℝ) (oc se : ℝ) :
    (screen (Running.after xs) oc se).2 = true ↔
      (xs.length ≤ 5 ∧ |oc| < 1000) ∨
      (5 < xs.length ∧ |oc| < 30 * √(squares (average xs) xs / xs.length) / se) := by
  unfold screen threshold
  rw [running_count]
  by_cases h : 5 < xs.length
  · have hx : xs ≠ [] := by rintro rfl; simp at h
    rw [if_pos h, (running_variance xs hx).2]
    have h' : ¬ xs.length ≤ 5 := by omega
    generalize 30 * √(squares (average xs) xs / xs.length) / se = T
    split <;> rename_i h2 <;> simp [h, h', h2]
  · rw [if_neg h]
    have h' : xs.length ≤ 5 := by omega
    split <;> rename_i h2 <;> simp [h, h', h2]

/-- **C95** The test can lock up: if the first six residuals or more kept are all equal, nothing is
ever kept again. -/
theorem screen_lockout (n : Nat) (x : ℝ) (hn : 5 < n) (l : List (ℝ × ℝ)) :
    (screenAll (Running.after (List.replicate n x)) l).2 = List.replicate l.length false := by
  have havg : average (List.replicate n x) = x := by
    unfold average
    have : (0 : ℝ) < n := by exact_mod_cast (by omega : 0 < n)
    simp [List.sum_replicate]
    field_simp
  have hz : squares x (List.replicate n x) = 0 := by simp [squares]
  have hno : ∀ oc se, (screen (Running.after (List.replicate n x)) oc se).2 = false := by
    intro oc se
    rw [← Bool.not_eq_true, screen_iff, havg, hz]
    simp only [List.length_replicate, zero_div, Real.sqrt_zero, mul_zero]
    rintro (⟨h, _⟩ | ⟨_, h⟩)
    · omega
    · exact absurd h (not_lt.2 (abs_nonneg _))
  have hsame : ∀ oc se, (screen (Running.after (List.replicate n x)) oc se).1
      = Running.after (List.replicate n x) := by
    intro oc se
    have := hno oc se
    unfold screen at this ⊢
    split at this
    · simp at this
    · rename_i h
      rw [if_neg h]
  induction l with
  | nil => simp [screenAll]
  | cons p l ih =>
    obtain ⟨oc, se⟩ := p
    simp only [screenAll, hno, hsame, ih, List.length_cons, List.replicate_succ]

example : (Running.after [1, 2, 6]).mean = 3 ∧ (Running.after [1, 2, 6]).variance = 14 / 3 := by
  refine ⟨?_, ?_⟩
  · rw [running_mean _ (by simp)]
    norm_num [average]
  · rw [(running_variance _ (by simp)).1]
    norm_num [average, squares]

example : (screen (Running.after [1, 2]) 999 1).2 = true := by
  rw [screen_iff]
  left
  norm_num

example : (screenAll (Running.after (List.replicate 6 2)) [(2, 1), (0, 1)]).2 = [false, false] :=
  screen_lockout 6 2 (by norm_num) _

end Verif.Pod
