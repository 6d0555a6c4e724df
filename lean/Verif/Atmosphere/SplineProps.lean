import Verif.Atmosphere.SplineModel
import Mathlib.Tactic.Ring
import Mathlib.Tactic.FieldSimp
import Mathlib.Tactic.Linarith
import Mathlib.Tactic.LinearCombination
import Mathlib.Tactic.Positivity
import Mathlib.Tactic.NormNum
import Mathlib.Tactic.ByContra
import Mathlib.Algebra.Order.Ring.Rat

/-! C65: the spline routines. -/
namespace Verif.Atmosphere

variable {K : Type} [Field K] [LinearOrder K] [IsStrictOrderedRing K]

/-! ### Specification -/

/-- The first `n` nodes increase. -/
def Increasing (x : ℕ → K) (n : ℕ) : Prop := ∀ i, i + 1 < n → x i < x (i + 1)

/-- Slope at node `i + 1`, seen from the left, of a curve that is linear in its second derivative
between nodes, takes the values `y` and has second derivatives `M` at the nodes. -/
def slopeLeft (x y M : ℕ → K) (i : ℕ) : K :=
  (y (i + 1) - y i) / (x (i + 1) - x i) + (x (i + 1) - x i) / 6 * (M i + 2 * M (i + 1))

/-- Slope at node `i`, seen from the right. -/
def slopeRight (x y M : ℕ → K) (i : ℕ) : K :=
  (y (i + 1) - y i) / (x (i + 1) - x i) - (x (i + 1) - x i) / 6 * (2 * M i + M (i + 1))

/-- The spline equations: slopes agree at interior nodes; at each end either the second derivative
is zero (requested by a huge slope) or the slope is the given one. -/
structure IsSpline (big : K) (x y : ℕ → K) (n : ℕ) (yp1 ypn : K) (M : ℕ → K) : Prop where
  interior : ∀ i, i + 2 < n → slopeLeft x y M i = slopeRight x y M (i + 1)
  first : if yp1 > big then M 0 = 0 else slopeRight x y M 0 = yp1
  last : if ypn > big then M (n - 1) = 0 else slopeLeft x y M (n - 2) = ypn

/-! ### The sweeps -/

theorem put_same (a : ℕ → K) (i : ℕ) (v : K) : put a i v i = v := by simp [put]

theorem put_ne (a : ℕ → K) (i j : ℕ) (v : K) (h : j ≠ i) : put a i v j = a j := by simp [put, h]

theorem back_spec (u : ℕ → K) (m : ℕ) (y2 : ℕ → K) :
    (∀ i, m ≤ i → splineBack u m y2 i = y2 i) ∧
    (∀ i, i < m → splineBack u m y2 i = y2 i * splineBack u m y2 (i + 1) + u i) := by
  induction m generalizing y2 with
  | zero => exact ⟨fun i _ => rfl, fun i h => by omega⟩
  | succ m ih =>
    obtain ⟨h1, h2⟩ := ih (put y2 m (y2 m * y2 (m + 1) + u m))
    refine ⟨?_, ?_⟩
    · intro i hi
      rw [splineBack, h1 i (by omega), put_ne _ _ _ _ (by omega)]
    · intro i hi
      rw [splineBack]
      rcases Nat.lt_succ_iff_lt_or_eq.mp hi with hi | rfl
      · rw [h2 i hi, put_ne _ _ _ _ (by omega)]
      · rw [h1 i (le_refl _), put_same, h1 (i + 1) (by omega), put_ne _ _ _ _ (by omega)]

theorem fwd_stable (x y : ℕ → K) (w : Work K) (m i : ℕ) (h : i ≤ m) :
    (splineFwd x y m w).y2 i = (splineFwd x y i w).y2 i ∧
    (splineFwd x y m w).u i = (splineFwd x y i w).u i := by
  induction m with
  | zero => obtain rfl : i = 0 := by omega
            exact ⟨rfl, rfl⟩
  | succ m ih =>
    rcases Nat.lt_or_eq_of_le h with h | rfl
    · obtain ⟨h1, h2⟩ := ih (by omega)
      simp only [splineFwd, splineStep]
      rw [put_ne _ _ _ _ (by omega), put_ne _ _ _ _ (by omega)]
      exact ⟨h1, h2⟩
    · exact ⟨rfl, rfl⟩

theorem inc_lt (x : ℕ → K) (n : ℕ) (h : Increasing x n) (i j : ℕ) (hij : i < j) (hj : j < n) :
    x i < x j := by
  induction j with
  | zero => omega
  | succ j ih =>
    rcases Nat.lt_succ_iff_lt_or_eq.mp hij with hi | rfl
    · exact lt_trans (ih hi (by omega)) (h j hj)
    · exact h i hj

/-- The elimination factors lie in `(-1, 0]`: the divisors are positive. -/
theorem fwd_range (big : K) (x y : ℕ → K) (n : ℕ) (hx : Increasing x n) (yp1 : K) (w : Work K)
    (i : ℕ) (hi : i + 1 < n) :
    -1 < (splineFwd x y i (splineInit big x y yp1 w)).y2 i ∧
    (splineFwd x y i (splineInit big x y yp1 w)).y2 i ≤ 0 := by
  induction i with
  | zero =>
    simp only [splineFwd, splineInit]
    split
    · simp [put_same]
    · simp only [put_same]
      constructor
      · linarith [one_half_lt_one (α := K)]
      · linarith [one_half_pos (α := K)]
  | succ i ih =>
    obtain ⟨h1, h2⟩ := ih (by omega)
    simp only [splineFwd, splineStep, put_same, Nat.add_sub_cancel]
    set c := (splineFwd x y i (splineInit big x y yp1 w)).y2 i
    have ha : 0 < x (i + 1) - x i := sub_pos.mpr (hx i (by omega))
    have hb : 0 < x (i + 1 + 1) - x (i + 1) := sub_pos.mpr (hx (i + 1) hi)
    have hd : 0 < x (i + 1 + 1) - x i := by linarith
    have hs1 : 0 < (x (i + 1) - x i) / (x (i + 1 + 1) - x i) := div_pos ha hd
    have hs2 : (x (i + 1) - x i) / (x (i + 1 + 1) - x i) < 1 := by
      rw [div_lt_one hd]; linarith
    set s := (x (i + 1) - x i) / (x (i + 1 + 1) - x i)
    have hp : 0 < s * c + 2 := by nlinarith
    constructor
    · rw [lt_div_iff₀ hp]; nlinarith
    · exact div_nonpos_of_nonpos_of_nonneg (by linarith) hp.le

/-! ### C65 -/

/-- **C65 (second derivatives).**  For any number `n ≥ 2` of increasing nodes the routine returns a
solution of the spline equations. -/
theorem spline_solves (big : K) (x y : ℕ → K) (n : ℕ) (hn : 2 ≤ n) (hx : Increasing x n)
    (yp1 ypn : K) (w : Work K) :
    IsSpline big x y n yp1 ypn (spline big x y n yp1 ypn w) := by
  set w0 := splineInit big x y yp1 w with hw0
  set w1 := splineFwd x y (n - 2) w0 with hw1
  set qn : K := if ypn > big then 0 else 1 / 2 with hqn
  set un : K := if ypn > big then 0 else
    (3 / (x (n - 1) - x (n - 2))) * (ypn - (y (n - 1) - y (n - 2)) / (x (n - 1) - x (n - 2))) with hun
  set L := (un - qn * w1.u (n - 2)) / (qn * w1.y2 (n - 2) + 1) with hL
  have hM : spline big x y n yp1 ypn w = splineBack w1.u (n - 1) (put w1.y2 (n - 1) L) := rfl
  obtain ⟨hb1, hb2⟩ := back_spec w1.u (n - 1) (put w1.y2 (n - 1) L)
  rw [← hM] at hb1 hb2
  set M := spline big x y n yp1 ypn w with hMdef
  have hMlast : M (n - 1) = L := by rw [hb1 _ (le_refl _), put_same]
  have hrec : ∀ i, i < n - 1 → M i = w1.y2 i * M (i + 1) + w1.u i := by
    intro i hi
    rw [hb2 i hi, put_ne _ _ _ _ (by omega)]
  have hst : ∀ i, i ≤ n - 2 → w1.y2 i = (splineFwd x y i w0).y2 i ∧
      w1.u i = (splineFwd x y i w0).u i := fun i hi => fwd_stable x y w0 (n - 2) i hi
  have hrange : ∀ i, i ≤ n - 2 → -1 < w1.y2 i ∧ w1.y2 i ≤ 0 := by
    intro i hi
    rw [(hst i hi).1]
    exact fwd_range big x y n hx yp1 w i (by omega)
  refine ⟨?_, ?_, ?_⟩
  · intro i hi
    have e1 := hrec i (by omega)
    have e2 := hrec (i + 1) (by omega)
    have hc := (hst (i + 1) (by omega)).1
    have hu := (hst (i + 1) (by omega)).2
    simp only [splineFwd, splineStep, put_same, Nat.add_sub_cancel] at hc hu
    rw [← (hst i (by omega)).1] at hc hu
    rw [← (hst i (by omega)).2] at hu
    have hr := hrange i (by omega)
    have ha : 0 < x (i + 1) - x i := sub_pos.mpr (hx i (by omega))
    have hb : 0 < x (i + 1 + 1) - x (i + 1) := sub_pos.mpr (hx (i + 1) (by omega))
    have hd : 0 < x (i + 1 + 1) - x i := by linarith
    have hs1 : 0 < (x (i + 1) - x i) / (x (i + 1 + 1) - x i) := div_pos ha hd
    have hs2 : (x (i + 1) - x i) / (x (i + 1 + 1) - x i) < 1 := by
      rw [div_lt_one hd]; linarith
    have hp : 0 < (x (i + 1) - x i) / (x (i + 1 + 1) - x i) * w1.y2 i + 2 := by nlinarith [hr.1]
    have hp' := hp.ne'
    rw [eq_div_iff hp'] at hc hu
    set D1 := (y (i + 1) - y i) / (x (i + 1) - x i) with hD1
    set D2 := (y (i + 1 + 1) - y (i + 1)) / (x (i + 1 + 1) - x (i + 1)) with hD2
    set s := (x (i + 1) - x i) / (x (i + 1 + 1) - x i) with hs
    set d := x (i + 1 + 1) - x i with hdd
    -- combination of the two elimination steps
    have key : s * M i + 2 * M (i + 1) + (1 - s) * M (i + 1 + 1) = 6 * (D2 - D1) / d := by
      have e3 : M (i + 1) * (s * w1.y2 i + 2) =
          (s - 1) * M (i + 1 + 1) + (6 * (D2 - D1) / d - s * w1.u i) := by
        linear_combination (s * w1.y2 i + 2) * e2 + M (i + 1 + 1) * hc + hu
      linear_combination s * e1 + e3
    have hsd : s * d = x (i + 1) - x i := by rw [hs]; field_simp
    have key2 : s * d * M i + 2 * d * M (i + 1) + (d - s * d) * M (i + 1 + 1) = 6 * (D2 - D1) := by
      have : 6 * (D2 - D1) / d * d = 6 * (D2 - D1) := by field_simp
      linear_combination d * key + this
    rw [hsd] at key2
    simp only [slopeLeft, slopeRight, ← hD1, ← hD2]
    rw [hdd] at key2
    linear_combination key2 / 6
  · have e1 := hrec 0 (by omega)
    have hc := (hst 0 (by omega)).1
    have hu := (hst 0 (by omega)).2
    simp only [splineFwd] at hc hu
    have ha : 0 < x 1 - x 0 := sub_pos.mpr (hx 0 (by omega))
    have ha' := ha.ne'
    by_cases hy : yp1 > big
    · rw [if_pos hy]
      simp only [hw0, splineInit, if_pos hy, put_same] at hc hu
      rw [e1, hc, hu]; ring
    · rw [if_neg hy]
      simp only [hw0, splineInit, if_neg hy, put_same] at hc hu
      simp only [slopeRight, zero_add]
      simp only [zero_add] at e1
      rw [hc, hu] at e1
      set D1 := (y 1 - y 0) / (x 1 - x 0) with hD1
      rw [e1]
      field_simp
      ring
  · have e1 := hrec (n - 2) (by omega)
    have h12 : n - 2 + 1 = n - 1 := by omega
    rw [h12] at e1
    have ha : 0 < x (n - 1) - x (n - 2) := by
      have := hx (n - 2) (by omega)
      rw [h12] at this
      linarith
    by_cases hy : ypn > big
    · rw [if_pos hy]
      rw [hMlast, hL, hun, hqn, if_pos hy, if_pos hy]; simp
    · rw [if_neg hy]
      have hr := hrange (n - 2) (le_refl _)
      have hq : qn = 1 / 2 := by rw [hqn, if_neg hy]
      have hden : 0 < qn * w1.y2 (n - 2) + 1 := by rw [hq]; linarith [hr.1]
      have hl : M (n - 1) * (qn * w1.y2 (n - 2) + 1) = un - qn * w1.u (n - 2) := by
        rw [hMlast, hL]; exact div_mul_cancel₀ _ hden.ne'
      simp only [slopeLeft, h12]
      set D1 := (y (n - 1) - y (n - 2)) / (x (n - 1) - x (n - 2)) with hD1
      have hu' : un * (x (n - 1) - x (n - 2)) = 3 * (ypn - D1) := by
        rw [hun, if_neg hy]
        have := ha.ne'
        field_simp
      rw [hq] at hl
      have h3 : M (n - 2) + 2 * M (n - 1) = 2 * un := by linear_combination e1 + 2 * hl
      rw [h3]
      linear_combination hu' / 3

/-- **C65 (uniqueness).**  The spline equations have at most one solution, so the routine's output is
*the* spline. -/
theorem spline_unique (big : K) (x y : ℕ → K) (n : ℕ) (hn : 2 ≤ n) (hx : Increasing x n)
    (yp1 ypn : K) (M N : ℕ → K) (hM : IsSpline big x y n yp1 ypn M)
    (hN : IsSpline big x y n yp1 ypn N) : ∀ i, i < n → M i = N i := by
  -- difference satisfies the homogeneous equations
  set E : ℕ → K := fun i => M i - N i with hE
  have hint : ∀ i, i + 2 < n → (x (i + 1) - x i) * (E i + 2 * E (i + 1)) +
      (x (i + 2) - x (i + 1)) * (2 * E (i + 1) + E (i + 2)) = 0 := by
    intro i hi
    have a := hM.interior i hi
    have b := hN.interior i hi
    simp only [slopeLeft, slopeRight] at a b
    simp only [hE]
    linear_combination 6 * (a - b)
  have hfirst : E 0 = 0 ∨ 2 * E 0 + E 1 = 0 := by
    have a := hM.first
    have b := hN.first
    by_cases hy : yp1 > big
    · rw [if_pos hy] at a b
      left; simp only [hE, a, b, sub_self]
    · rw [if_neg hy] at a b
      right
      simp only [slopeRight, zero_add] at a b
      have ha : 0 < x 1 - x 0 := sub_pos.mpr (hx 0 (by omega))
      have : (x 1 - x 0) * (2 * E 0 + E 1) = 0 := by
        simp only [hE]; linear_combination -6 * (a - b)
      exact (mul_eq_zero.mp this).resolve_left ha.ne'
  have hlast : E (n - 1) = 0 ∨ E (n - 2) + 2 * E (n - 1) = 0 := by
    have a := hM.last
    have b := hN.last
    by_cases hy : ypn > big
    · rw [if_pos hy] at a b
      left; simp only [hE, a, b, sub_self]
    · rw [if_neg hy] at a b
      right
      have h12 : n - 2 + 1 = n - 1 := by omega
      simp only [slopeLeft, h12] at a b
      have ha : 0 < x (n - 1) - x (n - 2) := by
        have := hx (n - 2) (by omega)
        rw [h12] at this
        linarith
      have : (x (n - 1) - x (n - 2)) * (E (n - 2) + 2 * E (n - 1)) = 0 := by
        simp only [hE]; linear_combination 6 * (a - b)
      exact (mul_eq_zero.mp this).resolve_left ha.ne'
  -- going up, |E i| ≤ |E (i+1)|, in the form E i = -c * E (i+1) with 0 ≤ c < 1
  have hup : ∀ i, i + 1 < n → ∃ c : K, 0 ≤ c ∧ c < 1 ∧ E i = -c * E (i + 1) := by
    intro i
    induction i with
    | zero =>
      intro _
      rcases hfirst with h | h
      · exact ⟨0, le_refl _, one_pos, by rw [h]; ring⟩
      · exact ⟨1 / 2, by positivity, one_half_lt_one, by simp only [zero_add]; linear_combination h / 2⟩
    | succ i ih =>
      intro hi
      obtain ⟨c, hc0, hc1, hc⟩ := ih (by omega)
      have h := hint i (by omega)
      rw [hc] at h
      have ha : 0 < x (i + 1) - x i := sub_pos.mpr (hx i (by omega))
      have hb : 0 < x (i + 2) - x (i + 1) := sub_pos.mpr (hx (i + 1) hi)
      have hD : 0 < (x (i + 1) - x i) * (2 - c) + 2 * (x (i + 2) - x (i + 1)) := by nlinarith
      refine ⟨(x (i + 2) - x (i + 1)) / ((x (i + 1) - x i) * (2 - c) + 2 * (x (i + 2) - x (i + 1))),
        div_nonneg hb.le hD.le, ?_, ?_⟩
      · rw [div_lt_one hD]; nlinarith
      · have : E (i + 1) * ((x (i + 1) - x i) * (2 - c) + 2 * (x (i + 2) - x (i + 1))) =
            -(x (i + 2) - x (i + 1)) * E (i + 2) := by linear_combination h
        rw [neg_mul, div_mul_eq_mul_div, ← neg_div, eq_div_iff hD.ne']
        linear_combination this
  have hEl : E (n - 1) = 0 := by
    rcases hlast with h | h
    · exact h
    · obtain ⟨c, hc0, hc1, hc⟩ := hup (n - 2) (by omega)
      rw [show n - 2 + 1 = n - 1 by omega] at hc
      rw [hc] at h
      have : (2 - c) * E (n - 1) = 0 := by linear_combination h
      exact (mul_eq_zero.mp this).resolve_left (by linarith)
  have hall : ∀ k i, n - 1 - i = k → i < n → E i = 0 := by
    intro k
    induction k with
    | zero =>
      intro i hk hi
      rw [show i = n - 1 by omega]; exact hEl
    | succ k ih =>
      intro i hk hi
      obtain ⟨c, _, _, hc⟩ := hup i (by omega)
      rw [hc, ih (i + 1) (by omega) (by omega), mul_zero]
  intro i hi
  have := hall _ i rfl hi
  simp only [hE] at this
  linear_combination this

/-- What the bisection ends with. -/
theorem bisect_spec (xa : ℕ → K) (x : K) (n : ℕ) (hx : Increasing xa n) (f klo khi : ℕ)
    (h : klo + 2 ≤ khi) (hf : khi - klo ≤ f + 1) (hk : khi < n) :
    ∃ k, bisect xa x f klo khi = (k, k + 1) ∧ klo ≤ k ∧ k + 1 ≤ khi ∧
      (k = klo ∨ xa k ≤ x) ∧ (k + 1 = khi ∨ x < xa (k + 1)) := by
  induction f generalizing klo khi with
  | zero => omega
  | succ f ih =>
    rw [bisect]
    have hm1 : klo < (khi + klo) / 2 := by omega
    have hm2 : (khi + klo) / 2 < khi := by omega
    set m := (khi + klo) / 2
    by_cases hc : xa m > x
    · rw [if_pos hc, if_pos hc]
      by_cases hd : (m : ℤ) - klo > 1
      · rw [if_pos hd]
        obtain ⟨k, h1, h2, h3, h4, h5⟩ := ih klo m (by omega) (by omega) (by omega)
        refine ⟨k, h1, h2, by omega, h4, ?_⟩
        rcases h5 with h5 | h5
        · right; rw [h5]; exact hc
        · right; exact h5
      · rw [if_neg hd]
        have hm : m = klo + 1 := by omega
        refine ⟨klo, by rw [hm], le_refl _, by omega, Or.inl rfl, Or.inr ?_⟩
        rw [← hm]; exact hc
    · rw [if_neg hc, if_neg hc]
      have hc' : xa m ≤ x := not_lt.mp hc
      by_cases hd : (khi : ℤ) - m > 1
      · rw [if_pos hd]
        obtain ⟨k, h1, h2, h3, h4, h5⟩ := ih m khi (by omega) (by omega) hk
        refine ⟨k, h1, by omega, h3, ?_, h5⟩
        rcases h4 with h4 | h4
        · right; rw [h4]; exact hc'
        · right; exact h4
      · rw [if_neg hd]
        have hkm : khi = m + 1 := by omega
        exact ⟨m, by rw [hkm], by omega, by omega, Or.inr hc', Or.inl hkm.symm⟩

/-- **C65 (bisection).**  With at least three increasing nodes the search ends with two neighbouring
nodes; if the abscissa lies between the first and the last node, with the ones that bracket it. -/
theorem bisect_brackets (xa : ℕ → K) (x : K) (n : ℕ) (hn : 3 ≤ n) (hx : Increasing xa n) :
    ∃ k, bisect xa x n 0 (n - 1) = (k, k + 1) ∧ k + 1 < n ∧
      (xa 0 ≤ x → xa k ≤ x) ∧ (x < xa (n - 1) → x < xa (k + 1)) ∧
      (x < xa 0 → k = 0) ∧ (xa (n - 1) ≤ x → k + 2 = n) := by
  obtain ⟨k, h1, h2, h3, h4, h5⟩ := bisect_spec xa x n hx n 0 (n - 1) (by omega) (by omega) (by omega)
  refine ⟨k, h1, by omega, ?_, ?_, ?_, ?_⟩
  · intro h
    rcases h4 with rfl | h4
    · exact h
    · exact h4
  · intro h
    rcases h5 with h5 | h5
    · rw [h5]; exact h
    · exact h5
  · intro h
    rcases h4 with h4 | h4
    · exact h4
    · by_contra hk
      have := inc_lt xa n hx 0 k (by omega) (by omega)
      exact absurd h4 (not_le.mpr (lt_trans h this))
  · intro h
    rcases h5 with h5 | h5
    · omega
    · by_contra hk
      have := inc_lt xa n hx (k + 1) (n - 1) (by omega) (by omega)
      exact absurd h5 (not_lt.mpr (le_trans this.le h))

/-- The cubic of interval `i` takes the node values at its ends. -/
theorem cubic_ends (xa ya y2a : ℕ → K) (i : ℕ) (h : xa i < xa (i + 1)) :
    cubic xa ya y2a i (i + 1) (xa i) = ya i ∧
    cubic xa ya y2a i (i + 1) (xa (i + 1)) = ya (i + 1) := by
  have hd : xa (i + 1) - xa i ≠ 0 := (sub_pos.mpr h).ne'
  constructor <;> · simp only [cubic, sub_self, zero_div, div_self hd]; ring

/-- **C65 (evaluation).**  On each closed interval between neighbouring nodes the evaluation is the
cubic of that interval. -/
theorem splint_eq (tiny : K) (xa ya y2a : ℕ → K) (n : ℕ) (hn : 3 ≤ n) (hx : Increasing xa n)
    (i : ℕ) (hi : i + 1 < n) (x : K) (h1 : xa i ≤ x) (h2 : x ≤ xa (i + 1)) :
    splint tiny xa ya y2a n x = cubic xa ya y2a i (i + 1) x := by
  obtain ⟨k, hk, hkn, hlo, hhi, -, hlast⟩ := bisect_brackets xa x n hn hx
  have h0 : xa 0 ≤ x := by
    rcases Nat.eq_zero_or_pos i with rfl | hpos
    · exact h1
    · exact le_trans (inc_lt xa n hx 0 i hpos (by omega)).le h1
  have hkx := hlo h0
  have hne : ¬ (xa (k + 1) - xa k = 0) := (sub_pos.mpr (hx k hkn)).ne'
  simp only [splint, hk]
  rw [if_neg hne]
  rcases lt_trichotomy k i with hki | rfl | hki
  · -- then x < xa (k+1) ≤ xa i unless x is past the end
    exfalso
    have hle : xa (k + 1) ≤ xa i := by
      rcases Nat.lt_or_eq_of_le (show k + 1 ≤ i by omega) with h | h
      · exact (inc_lt xa n hx _ _ h (by omega)).le
      · rw [h]
    by_cases hl : x < xa (n - 1)
    · exact absurd (hhi hl) (not_lt.mpr (le_trans hle h1))
    · have := hlast (not_lt.mp hl)
      omega
  · rfl
  · -- then xa (i+1) ≤ xa k ≤ x ≤ xa (i+1)
    have hle : xa (i + 1) ≤ xa k := by
      rcases Nat.lt_or_eq_of_le (show i + 1 ≤ k by omega) with h | h
      · exact (inc_lt xa n hx _ _ h (by omega)).le
      · rw [h]
    have hxe : x = xa (i + 1) := le_antisymm h2 (le_trans hle hkx)
    have hki' : k = i + 1 := by
      by_contra hne'
      have := inc_lt xa n hx (i + 1) k (by omega) (by omega)
      exact absurd hkx (not_le.mpr (by rw [hxe]; exact this))
    subst hki'
    rw [hxe, (cubic_ends xa ya y2a i (hx i hi)).2, (cubic_ends xa ya y2a (i + 1) (hx (i + 1) hkn)).1]

/-- **C65 (nodes).**  Evaluation at a node returns the node value. -/
theorem splint_node (tiny : K) (xa ya y2a : ℕ → K) (n : ℕ) (hn : 3 ≤ n) (hx : Increasing xa n)
    (i : ℕ) (hi : i < n) : splint tiny xa ya y2a n (xa i) = ya i := by
  by_cases hl : i + 1 < n
  · rw [splint_eq tiny xa ya y2a n hn hx i hl (xa i) (le_refl _) (hx i hl).le]
    exact (cubic_ends xa ya y2a i (hx i hl)).1
  · obtain ⟨j, rfl⟩ : ∃ j, i = j + 1 := ⟨i - 1, by omega⟩
    rw [splint_eq tiny xa ya y2a n hn hx j hi (xa (j + 1)) (hx j hi).le (le_refl _)]
    exact (cubic_ends xa ya y2a j (hx j hi)).2

/-- With two nodes the search works for abscissae not before the first node. -/
theorem splint_two (tiny : K) (xa ya y2a : ℕ → K) (hx : Increasing xa 2) (x : K) (h : xa 0 ≤ x) :
    splint tiny xa ya y2a 2 x = cubic xa ya y2a 0 1 x := by
  have hb : bisect xa x 2 0 1 = (0, 1) := by
    rw [bisect]
    have : ¬ xa ((1 + 0) / 2) > x := not_lt.mpr h
    rw [if_neg this, if_neg this]
    rfl
  have hne : ¬ (xa 1 - xa 0 = 0) := (sub_pos.mpr (hx 0 (by omega))).ne'
  simp only [splint, show 2 - 1 = 1 from rfl, hb]
  rw [if_neg hne]

/-- **C65 (nodes, from two nodes on).**  Evaluation at a node returns the node value. -/
theorem splint_at_node (tiny : K) (xa ya y2a : ℕ → K) (n : ℕ) (hn : 2 ≤ n) (hx : Increasing xa n)
    (i : ℕ) (hi : i < n) : splint tiny xa ya y2a n (xa i) = ya i := by
  rcases Nat.eq_or_lt_of_le hn with rfl | hn
  · have h01 : xa 0 < xa 1 := hx 0 (by omega)
    have : i = 0 ∨ i = 1 := by omega
    rcases this with rfl | rfl
    · rw [splint_two tiny xa ya y2a hx _ (le_refl _)]
      exact (cubic_ends xa ya y2a 0 h01).1
    · rw [splint_two tiny xa ya y2a hx _ h01.le]
      exact (cubic_ends xa ya y2a 0 h01).2
  · exact splint_node tiny xa ya y2a n hn hx i hi

/-- **With two nodes the search fails before the first node**: both ends collapse and the constant
`1e-30` is returned. -/
theorem splint_two_counterexample :
    splint (K := ℚ) (1 / 10 ^ 30) (fun i => i) (fun _ => 5) (fun _ => 0) 2 (-1) = 1 / 10 ^ 30 := by
  decide +kernel

/-- Hypotheses are met, and the values are non-trivial: three nodes 0, 1, 3 with natural ends. -/
example : Increasing (fun i => [(0 : ℚ), 1, 3].getD i 4) 3 := by
  intro i hi
  have : i = 0 ∨ i = 1 := by omega
  rcases this with rfl | rfl <;> norm_num

example : (List.range 3).map (spline (99 * 10 ^ 28 : ℚ) (fun i => [(0 : ℚ), 1, 3].getD i 4)
    (fun i => [(0 : ℚ), 1, 5].getD i 0) 3 (10 ^ 30) (10 ^ 30) ⟨fun _ => 7, fun _ => 9⟩) =
    [0, 1, 0] := by decide +kernel

end Verif.Atmosphere
