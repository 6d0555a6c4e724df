import Verif.Atmosphere.SplineProps
import Mathlib.Analysis.Calculus.Deriv.Mul
import Mathlib.Analysis.Calculus.Deriv.Pow
import Mathlib.MeasureTheory.Integral.IntervalIntegral.FundThmCalculus

/-! C65 over the reals: the evaluated curve is twice continuously differentiable across nodes, and
`splini` is its integral. -/
namespace Verif.Atmosphere

/-- First derivative of the cubic of one interval. -/
noncomputable def cubicD (xa ya y2a : ℕ → ℝ) (i : ℕ) (x : ℝ) : ℝ :=
  let h := xa (i + 1) - xa i
  let a := (xa (i + 1) - x) / h
  let b := (x - xa i) / h
  (ya (i + 1) - ya i) / h + (-(3 * a ^ 2 - 1) * y2a i + (3 * b ^ 2 - 1) * y2a (i + 1)) * h / 6

/-- Second derivative of the cubic of one interval: linear between the node values. -/
noncomputable def cubicDD (xa y2a : ℕ → ℝ) (i : ℕ) (x : ℝ) : ℝ :=
  (xa (i + 1) - x) / (xa (i + 1) - xa i) * y2a i + (x - xa i) / (xa (i + 1) - xa i) * y2a (i + 1)

theorem hasDerivAt_a (X h x : ℝ) : HasDerivAt (fun t => (X - t) / h) (-1 / h) x := by
  simpa using ((hasDerivAt_id x).const_sub X).div_const h

theorem hasDerivAt_b (X h x : ℝ) : HasDerivAt (fun t => (t - X) / h) (1 / h) x := by
  simpa using ((hasDerivAt_id x).sub_const X).div_const h

theorem cubic_hasDerivAt (xa ya y2a : ℕ → ℝ) (i : ℕ) (hi : xa i < xa (i + 1)) (x : ℝ) :
    HasDerivAt (cubic xa ya y2a i (i + 1)) (cubicD xa ya y2a i x) x := by
  have hh : xa (i + 1) - xa i ≠ 0 := (sub_pos.mpr hi).ne'
  unfold cubicD
  simp only []
  set h := xa (i + 1) - xa i
  have ha := hasDerivAt_a (xa (i + 1)) h x
  have hb := hasDerivAt_b (xa i) h x
  have := ((ha.mul_const (ya i)).add (hb.mul_const (ya (i + 1)))).add
    ((((((ha.mul ha).mul ha).sub ha).mul_const (y2a i)).add
      ((((hb.mul hb).mul hb).sub hb).mul_const (y2a (i + 1)))).mul_const h |>.mul_const h
      |>.div_const 6)
  refine HasDerivAt.congr_deriv (f := cubic xa ya y2a i (i + 1)) this ?_
  simp only [Pi.mul_apply]
  field_simp
  ring

theorem cubicD_hasDerivAt (xa ya y2a : ℕ → ℝ) (i : ℕ) (hi : xa i < xa (i + 1)) (x : ℝ) :
    HasDerivAt (cubicD xa ya y2a i) (cubicDD xa y2a i x) x := by
  have hh : xa (i + 1) - xa i ≠ 0 := (sub_pos.mpr hi).ne'
  have ha := hasDerivAt_a (xa (i + 1)) (xa (i + 1) - xa i) x
  have hb := hasDerivAt_b (xa i) (xa (i + 1) - xa i) x
  unfold cubicDD
  have := ((((((ha.pow 2).const_mul 3).sub_const 1).neg.mul_const (y2a i)).add
    ((((hb.pow 2).const_mul 3).sub_const 1).mul_const (y2a (i + 1)))).mul_const
      (xa (i + 1) - xa i) |>.div_const 6).const_add ((ya (i + 1) - ya i) / (xa (i + 1) - xa i))
  refine HasDerivAt.congr_deriv (f := cubicD xa ya y2a i) this ?_
  simp only [Nat.cast_ofNat, Nat.add_one_sub_one, pow_one]
  field_simp
  ring

theorem cubicInt_hasDerivAt (xa ya y2a : ℕ → ℝ) (i : ℕ) (hi : xa i < xa (i + 1)) (x : ℝ) :
    HasDerivAt (cubicInt xa ya y2a i (i + 1)) (cubic xa ya y2a i (i + 1) x) x := by
  have hh : xa (i + 1) - xa i ≠ 0 := (sub_pos.mpr hi).ne'
  unfold cubic
  simp only []
  set h := xa (i + 1) - xa i
  have ha := hasDerivAt_a (xa (i + 1)) h x
  have hb := hasDerivAt_b (xa i) h x
  have ha2 := ha.mul ha
  have hb2 := hb.mul hb
  have := ((((ha2.const_sub 1).mul_const (ya i)).div_const 2).add
    ((hb2.mul_const (ya (i + 1))).div_const 2)).add
    ((((((ha2.mul ha2).const_add 1).neg.div_const 4).add (ha2.div_const 2)).mul_const (y2a i)).add
      ((((hb2.mul hb2).div_const 4).sub (hb2.div_const 2)).mul_const (y2a (i + 1)))
      |>.mul_const h |>.mul_const h |>.div_const 6) |>.mul_const h
  refine HasDerivAt.congr_deriv (f := cubicInt xa ya y2a i (i + 1)) this ?_
  simp only [Pi.mul_apply]
  field_simp
  ring

/-! ### Smoothness -/

theorem cubicD_ends (xa ya y2a : ℕ → ℝ) (i : ℕ) (hi : xa i < xa (i + 1)) :
    cubicD xa ya y2a i (xa i) = slopeRight xa ya y2a i ∧
    cubicD xa ya y2a i (xa (i + 1)) = slopeLeft xa ya y2a i := by
  have hh : xa (i + 1) - xa i ≠ 0 := (sub_pos.mpr hi).ne'
  constructor <;>
  · simp only [cubicD, slopeRight, slopeLeft, sub_self, zero_div, div_self hh]
    ring

/-- **C65 (derivative inside an interval).** -/
theorem splint_hasDerivAt_inside (tiny : ℝ) (xa ya y2a : ℕ → ℝ) (n : ℕ) (hn : 3 ≤ n)
    (hx : Increasing xa n) (i : ℕ) (hi : i + 1 < n) (x : ℝ) (h1 : xa i < x) (h2 : x < xa (i + 1)) :
    HasDerivAt (splint tiny xa ya y2a n) (cubicD xa ya y2a i x) x := by
  refine (cubic_hasDerivAt xa ya y2a i (hx i hi) x).congr_of_eventuallyEq ?_
  filter_upwards [Icc_mem_nhds h1 h2] with t ht
  exact splint_eq tiny xa ya y2a n hn hx i hi t ht.1 ht.2

/-- **C65 (smooth across nodes).**  With the second derivatives computed by `spline`, the evaluated
curve is differentiable at every interior node, and first and second derivatives of the two adjacent
cubics agree there. -/
theorem splint_smooth_at_nodes (tiny big : ℝ) (xa ya : ℕ → ℝ) (n : ℕ) (hn : 3 ≤ n)
    (hx : Increasing xa n) (yp1 ypn : ℝ) (w : Work ℝ) (i : ℕ) (hi : i + 2 < n) :
    let M := spline big xa ya n yp1 ypn w
    HasDerivAt (splint tiny xa ya M n) (cubicD xa ya M i (xa (i + 1))) (xa (i + 1)) ∧
    cubicD xa ya M i (xa (i + 1)) = cubicD xa ya M (i + 1) (xa (i + 1)) ∧
    cubicDD xa M i (xa (i + 1)) = cubicDD xa M (i + 1) (xa (i + 1)) := by
  intro M
  have hlt1 := hx i (by omega)
  have hlt2 := hx (i + 1) hi
  have hM := (spline_solves big xa ya n (by omega) hx yp1 ypn w).interior i hi
  have hslope : cubicD xa ya M i (xa (i + 1)) = cubicD xa ya M (i + 1) (xa (i + 1)) := by
    rw [(cubicD_ends xa ya M i hlt1).2, (cubicD_ends xa ya M (i + 1) hlt2).1]
    exact hM
  refine ⟨?_, hslope, ?_⟩
  · have hl : HasDerivWithinAt (splint tiny xa ya M n) (cubicD xa ya M i (xa (i + 1)))
        (Set.Iic (xa (i + 1))) (xa (i + 1)) := by
      refine (cubic_hasDerivAt xa ya M i hlt1 _).hasDerivWithinAt.congr_of_eventuallyEq ?_ ?_
      · filter_upwards [mem_nhdsWithin_of_mem_nhds (Ioi_mem_nhds hlt1), self_mem_nhdsWithin]
          with t h1 h2
        exact splint_eq tiny xa ya M n hn hx i (by omega) t (le_of_lt h1) h2
      · exact splint_eq tiny xa ya M n hn hx i (by omega) _ hlt1.le (le_refl _)
    have hr : HasDerivWithinAt (splint tiny xa ya M n) (cubicD xa ya M i (xa (i + 1)))
        (Set.Ici (xa (i + 1))) (xa (i + 1)) := by
      rw [hslope]
      refine (cubic_hasDerivAt xa ya M (i + 1) hlt2 _).hasDerivWithinAt.congr_of_eventuallyEq ?_ ?_
      · filter_upwards [mem_nhdsWithin_of_mem_nhds (Iio_mem_nhds hlt2), self_mem_nhdsWithin]
          with t h1 h2
        exact splint_eq tiny xa ya M n hn hx (i + 1) hi t h2 (le_of_lt h1)
      · exact splint_eq tiny xa ya M n hn hx (i + 1) hi _ (le_refl _) hlt2.le
    have := hl.union hr
    rwa [Set.Iic_union_Ici, hasDerivWithinAt_univ] at this
  · have e1 : xa (i + 1) - xa i ≠ 0 := (sub_pos.mpr hlt1).ne'
    have e2 : xa (i + 1 + 1) - xa (i + 1) ≠ 0 := (sub_pos.mpr hlt2).ne'
    simp only [cubicDD, sub_self, zero_div, div_self e1, div_self e2]
    ring

/-! ### Integration -/

theorem cubicInt_start (xa ya y2a : ℕ → ℝ) (i : ℕ) (hi : xa i < xa (i + 1)) :
    cubicInt xa ya y2a i (i + 1) (xa i) = 0 := by
  have hh : xa (i + 1) - xa i ≠ 0 := (sub_pos.mpr hi).ne'
  simp only [cubicInt, sub_self, zero_div, div_self hh]
  ring

theorem cubic_continuous (xa ya y2a : ℕ → ℝ) (i : ℕ) (hi : xa i < xa (i + 1)) :
    Continuous (cubic xa ya y2a i (i + 1)) :=
  continuous_iff_continuousAt.mpr fun x => (cubic_hasDerivAt xa ya y2a i hi x).continuousAt

open MeasureTheory intervalIntegral in
/-- Integral over part of one interval. -/
theorem segment_integral (tiny : ℝ) (xa ya y2a : ℕ → ℝ) (n : ℕ) (hn : 3 ≤ n)
    (hx : Increasing xa n) (i : ℕ) (hi : i + 1 < n) (x : ℝ) (h1 : xa i ≤ x) (h2 : x ≤ xa (i + 1)) :
    IntervalIntegrable (splint tiny xa ya y2a n) volume (xa i) x ∧
    ∫ t in xa i..x, splint tiny xa ya y2a n t = cubicInt xa ya y2a i (i + 1) x := by
  have heq : Set.EqOn (cubic xa ya y2a i (i + 1)) (splint tiny xa ya y2a n) (Set.uIcc (xa i) x) := by
    intro t ht
    rw [Set.uIcc_of_le h1] at ht
    exact (splint_eq tiny xa ya y2a n hn hx i hi t ht.1 (le_trans ht.2 h2)).symm
  have hint := (cubic_continuous xa ya y2a i (hx i hi)).intervalIntegrable (μ := volume) (xa i) x
  refine ⟨hint.congr (heq.mono Set.uIoc_subset_uIcc), ?_⟩
  rw [← integral_congr heq,
    integral_eq_sub_of_hasDerivAt (fun t _ => cubicInt_hasDerivAt xa ya y2a i (hx i hi) t) hint,
    cubicInt_start xa ya y2a i (hx i hi), sub_zero]

open MeasureTheory intervalIntegral in
/-- Integral from the first node to node `i`. -/
theorem nodes_integral (tiny : ℝ) (xa ya y2a : ℕ → ℝ) (n : ℕ) (hn : 3 ≤ n)
    (hx : Increasing xa n) (i : ℕ) (hi : i < n) :
    IntervalIntegrable (splint tiny xa ya y2a n) volume (xa 0) (xa i) ∧
    ∫ t in xa 0..xa i, splint tiny xa ya y2a n t =
      ∑ k ∈ Finset.range i, cubicInt xa ya y2a k (k + 1) (xa (k + 1)) := by
  induction i with
  | zero => simp
  | succ i ih =>
    obtain ⟨h1, h2⟩ := ih (by omega)
    obtain ⟨h3, h4⟩ := segment_integral tiny xa ya y2a n hn hx i hi (xa (i + 1)) (hx i hi).le
      (le_refl _)
    refine ⟨h1.trans h3, ?_⟩
    rw [← integral_add_adjacent_intervals h1 h3, h2, h4, Finset.sum_range_succ]

theorem spliniLoop_spec (xa ya y2a : ℕ → ℝ) (n : ℕ) (hx : Increasing xa n) (i : ℕ)
    (hi : i + 1 < n) (x : ℝ) (h1 : i = 0 ∨ xa i < x) (h2 : x ≤ xa (i + 1)) (f j : ℕ) (hj : j ≤ i)
    (hf : i - j < f) (yi : ℝ) :
    spliniLoop xa ya y2a n x f j yi =
      yi + ∑ k ∈ Finset.Ico j i, cubicInt xa ya y2a k (k + 1) (xa (k + 1)) +
        cubicInt xa ya y2a i (i + 1) x := by
  induction f generalizing j yi with
  | zero => omega
  | succ f ih =>
    rw [spliniLoop]
    rcases Nat.lt_or_eq_of_le hj with hji | rfl
    · have hxi : xa i < x := h1.resolve_left (by omega)
      have hle : xa (j + 1) ≤ xa i := by
        rcases Nat.lt_or_eq_of_le (show j + 1 ≤ i by omega) with h | h
        · exact (inc_lt xa n hx _ _ h (by omega)).le
        · rw [h]
      have hlt : xa (j + 1) < x := lt_of_le_of_lt hle hxi
      rw [if_pos (by omega : j + 1 < n - 1), min_eq_right hlt.le, if_pos ⟨hlt, by omega⟩,
        ih (j + 1) (by omega) (by omega), Finset.sum_eq_sum_Ico_succ_bot hji]
      ring
    · have hxx : (if j + 1 < n - 1 then min x (xa (j + 1)) else x) = x := by
        split
        · exact min_eq_left h2
        · rfl
      rw [hxx, if_neg (fun h => absurd h2 (not_le.mpr h.1))]
      simp

/-- **C65 (integration).**  For every abscissa between the first and the last node, `splini` is the
integral of the evaluated curve from the first node. -/
theorem splini_eq_integral (tiny : ℝ) (xa ya y2a : ℕ → ℝ) (n : ℕ) (hn : 3 ≤ n)
    (hx : Increasing xa n) (x : ℝ) (h1 : xa 0 ≤ x) (h2 : x ≤ xa (n - 1)) :
    splini xa ya y2a n x = ∫ t in xa 0..x, splint tiny xa ya y2a n t := by
  -- the interval containing x
  have hex : ∃ i, i + 1 < n ∧ (i = 0 ∨ xa i < x) ∧ xa i ≤ x ∧ x ≤ xa (i + 1) := by
    have : ∀ m, m + 1 < n → x ≤ xa (m + 1) →
        ∃ i, i + 1 < n ∧ (i = 0 ∨ xa i < x) ∧ xa i ≤ x ∧ x ≤ xa (i + 1) := by
      intro m
      induction m with
      | zero => intro hm hle; exact ⟨0, hm, Or.inl rfl, h1, hle⟩
      | succ m ih =>
        intro hm hle
        by_cases hc : x ≤ xa (m + 1)
        · exact ih (by omega) hc
        · have := not_le.mp hc
          exact ⟨m + 1, hm, Or.inr this, this.le, hle⟩
    refine this (n - 2) (by omega) ?_
    rw [show n - 2 + 1 = n - 1 by omega]; exact h2
  obtain ⟨i, hi, hl, hle, hu⟩ := hex
  rw [splini, spliniLoop_spec xa ya y2a n hx i hi x hl hu n 0 (by omega) (by omega) 0]
  obtain ⟨a1, a2⟩ := nodes_integral tiny xa ya y2a n hn hx i (by omega)
  obtain ⟨b1, b2⟩ := segment_integral tiny xa ya y2a n hn hx i hi x hle hu
  rw [← intervalIntegral.integral_add_adjacent_intervals a1 b1, a2, b2, zero_add,
    Nat.Ico_zero_eq_range]

/-- A concrete case: nodes 0, 1, 3, constant value 5, no curvature; the integral to 2 is 10. -/
example : splini (K := ℚ) (fun i => [(0 : ℚ), 1, 3].getD i 4) (fun _ => 5) (fun _ => 0) 3 2 = 10 := by
  decide +kernel

end Verif.Atmosphere
