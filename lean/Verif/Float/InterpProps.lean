import Verif.Float.InterpModel
import Verif.Float.RangeRateProps
import Verif.Var.InterpProps

/-
C166: the nearest-neighbour and the linear interpolator in double arithmetic.
-/
namespace Verif.Float

open Verif.Var (Increasing valueAt interval)

section
variable {K : Type} [Field K] [LinearOrder K] [IsStrictOrderedRing K] [FloorRing K] {rnd : K → K}

/-- A difference of doubles is a multiple of the smallest double: it is never rounded by more than
a rounding unit, however small it is. -/
theorem Nearest.sub_rel (h : Nearest rnd) {a b : K} (ha : IsDouble a) (hb : IsDouble b) :
    |rnd (a - b) - (a - b)| ≤ 2 ^ (-53 : ℤ) * |a - b| := by
  rcases le_total ((2 : K) ^ (-1022 : ℤ)) |a - b| with hx | hx
  · exact h.rel hx
  · obtain ⟨m, e, -, he, rfl⟩ := ha
    obtain ⟨n, f, -, hf, rfl⟩ := hb
    have key : ∀ (m e : ℤ), -1074 ≤ e → ∃ k : ℤ, (m : K) * 2 ^ e = k * 2 ^ (-1074 : ℤ) := by
      intro m e he
      obtain ⟨j, rfl⟩ : ∃ j : ℕ, e = j + -1074 := ⟨(e + 1074).toNat, by omega⟩
      refine ⟨m * 2 ^ j, ?_⟩
      rw [zpow_add₀ (by norm_num)]
      push_cast
      rw [zpow_natCast]
      ring
    obtain ⟨k, hk⟩ := key m e he
    obtain ⟨l, hl⟩ := key n f hf
    have d : IsDouble ((m : K) * 2 ^ e - n * 2 ^ f) :=
      isDouble_multiple (k - l) (-1074) (le_refl _) (by rw [hk, hl]; push_cast; ring)
        (hx.trans (zpow_le_zpow_right₀ (by norm_num) (by norm_num)))
    rw [h.exact d, sub_self, abs_zero]
    exact mul_nonneg (zpow_pos (by norm_num) _).le (abs_nonneg _)

/-! ### Linear interpolation -/

theorem segD_left (h : Nearest rnd) (fused : Bool) (x0 x1 y0 y1 : K) (hy : IsDouble y0) :
    segD rnd fused x0 x1 y0 y1 x0 = y0 := by
  unfold segD
  simp only [sub_self, h.zero, mul_zero, add_zero, h.exact hy, ite_self]

/-- **C166** At every node the linear interpolator gives the value of the node, without error. -/
theorem linear_node (h : Nearest rnd) (fused : Bool) (x y : Nat → K) (size : Nat) (hx : Increasing x size)
    (hy : ∀ i : Nat, i < size → IsDouble (y i)) (k : Nat) (hk : k < size) :
    linearD rnd fused x y size (x k) = some (if 0 < k ∧ k + 1 = size then 2 else 0, y k) := by
  unfold linearD
  rcases Nat.eq_zero_or_pos k with h0 | h0
  · subst h0
    unfold valueAt
    rw [if_neg (by omega), if_pos (le_refl _), if_neg (lt_irrefl _), if_neg (by omega)]
  · have hlt : x 0 < x k := hx _ _ h0 hk
    by_cases hl : k + 1 = size
    · have e : k = size - 1 := by omega
      rw [if_pos ⟨h0, hl⟩, e]
      exact Var.last_node_counterexample _ x y size (by omega) hx
    · rw [if_neg (by omega)]
      obtain ⟨i, i1, i2, i3, i4, e⟩ := Var.inside
        (fun i => some (segD rnd fused (x (i - 1)) (x i) (y (i - 1)) (y i) (x k))) x y size (x k) hlt
        (hx _ _ (by omega) (by omega))
      have hi : i = k + 1 := by
        rcases Nat.lt_trichotomy i (k + 1) with c | c | c
        · exact absurd (hx.le (by omega : i ≤ k) hk) (not_le.2 i4)
        · exact c
        · exact absurd (hx k (i - 1) (by omega) (by omega)) (not_lt.2 i3)
      subst hi
      rw [e]
      simp only [Nat.add_sub_cancel, Option.map_some, segD_left h fused _ _ _ _ (hy k hk)]

/-- **C166** Between two nodes the computed values follow the order of the arguments: with increasing
values they increase (or stay), and they are not below the value of the left node. -/
theorem linear_mono (h : Nearest rnd) (fused : Bool) (x0 x1 y0 y1 q q' : K) (h01 : x0 ≤ x1)
    (hy : y0 ≤ y1) (hd : IsDouble y0) (h0 : x0 ≤ q) (hq : q ≤ q') :
    y0 ≤ segD rnd fused x0 x1 y0 y1 q ∧ segD rnd fused x0 x1 y0 y1 q ≤ segD rnd fused x0 x1 y0 y1 q' := by
  have s0 : 0 ≤ rnd (rnd (y0 - y1) / rnd (x0 - x1)) :=
    h.nonneg (div_nonneg_of_nonpos (h.nonpos (by linarith)) (h.nonpos (by linarith)))
  have d0 : 0 ≤ rnd (q - x0) := h.nonneg (by linarith)
  have dd : rnd (q - x0) ≤ rnd (q' - x0) := h.mono (by linarith)
  unfold segD
  generalize rnd (rnd (y0 - y1) / rnd (x0 - x1)) = s at *
  simp only
  have p0 : 0 ≤ s * rnd (q - x0) := mul_nonneg s0 d0
  have pp : s * rnd (q - x0) ≤ s * rnd (q' - x0) := mul_le_mul_of_nonneg_left dd s0
  cases fused
  · simp only [Bool.false_eq_true, if_false]
    have := h.nonneg p0
    exact ⟨h.ge_of_ge hd (by linarith), h.mono (by have := h.mono pp; linarith)⟩
  · simp only [if_true]
    exact ⟨h.ge_of_ge hd (by linarith), h.mono (by linarith)⟩

/-- **C166** With decreasing values the computed values decrease (or stay). -/
theorem linear_anti (h : Nearest rnd) (fused : Bool) (x0 x1 y0 y1 q q' : K) (h01 : x0 ≤ x1)
    (hy : y1 ≤ y0) (hd : IsDouble y0) (h0 : x0 ≤ q) (hq : q ≤ q') :
    segD rnd fused x0 x1 y0 y1 q ≤ y0 ∧ segD rnd fused x0 x1 y0 y1 q' ≤ segD rnd fused x0 x1 y0 y1 q := by
  have s0 : rnd (rnd (y0 - y1) / rnd (x0 - x1)) ≤ 0 :=
    h.nonpos (div_nonpos_of_nonneg_of_nonpos (h.nonneg (by linarith)) (h.nonpos (by linarith)))
  have d0 : 0 ≤ rnd (q - x0) := h.nonneg (by linarith)
  have dd : rnd (q - x0) ≤ rnd (q' - x0) := h.mono (by linarith)
  unfold segD
  generalize rnd (rnd (y0 - y1) / rnd (x0 - x1)) = s at *
  simp only
  have p0 : s * rnd (q - x0) ≤ 0 := mul_nonpos_of_nonpos_of_nonneg s0 d0
  have pp : s * rnd (q' - x0) ≤ s * rnd (q - x0) := mul_le_mul_of_nonpos_left dd s0
  cases fused
  · simp only [Bool.false_eq_true, if_false]
    have := h.nonpos p0
    exact ⟨h.le_of_le hd (by linarith), h.mono (by have := h.mono pp; linarith)⟩
  · simp only [if_true]
    exact ⟨h.le_of_le hd (by linarith), h.mono (by linarith)⟩

/-! ### Nearest neighbour -/

theorem nearestD_congr (x y : Nat → K) (size : Nat) (q : K)
    (H : ∀ i : Nat, 1 ≤ i → i < size → x (i - 1) ≤ q → q < x i →
      (rnd (q - x (i - 1)) < rnd (x i - q) ↔ q - x (i - 1) < x i - q)) :
    nearestD rnd x y size q = Var.nearest x y size q := by
  unfold nearestD Var.nearest valueAt
  cases hi : interval x size q with
  | none => rfl
  | some i =>
    obtain ⟨a, b, c, d⟩ := Var.interval_some hi
    simp only [H i a b c d]

/-- **C166** The nearest-neighbour interpolator gives the same value as in exact arithmetic when no
node is more than twice the one before it, or the node before it is zero.  Without such a condition
this is false (`nearest_wrong_counterexample`). -/
theorem nearest_exact_partial (h : Nearest rnd) (x y : Nat → K) (size : Nat) (q : K) (hq : IsDouble q)
    (hd : ∀ i : Nat, i < size → IsDouble (x i) ∧ IsDouble (x i / 2))
    (hx : ∀ i : Nat, 1 ≤ i → i < size → x (i - 1) = 0 ∨ (0 < x (i - 1) ∧ x i ≤ 2 * x (i - 1))) :
    nearestD rnd x y size q = Var.nearest x y size q := by
  refine nearestD_congr x y size q fun i a b c d => ?_
  rcases hx i a b with e | ⟨e1, e2⟩
  · rw [e, sub_zero, h.exact hq]
    rw [e] at c
    rcases le_total (x i) (2 * q) with f | f
    · rw [h.exact (sterbenz (hd i b).1 hq c (by linarith) f)]
    · rcases eq_or_lt_of_le f with f | f
      · rw [show x i - q = q by linarith, h.exact hq]
      · have := h.ge_of_ge (hd i b).2 (show x i / 2 ≤ x i - q by linarith)
        exact ⟨fun _ => by linarith, fun _ => by linarith⟩
  · rw [h.exact (sterbenz hq (hd (i - 1) (by omega)).1 e1.le (by linarith) (by linarith)),
      h.exact (sterbenz (hd i b).1 hq (by linarith) (by linarith) (by linarith))]

/-- **C166** For all nodes: a left neighbour that is chosen is nearer than the right one; a right
neighbour that is chosen is at most 2^-51 farther away, relatively, than the left one. -/
theorem nearest_close (h : Nearest rnd) (x0 x1 q : K) (h0 : IsDouble x0) (h1 : IsDouble x1)
    (hq : IsDouble q) (a : x0 ≤ q) (b : q < x1) :
    (rnd (q - x0) < rnd (x1 - q) → q - x0 < x1 - q) ∧
    (¬ rnd (q - x0) < rnd (x1 - q) → x1 - q ≤ (q - x0) * (1 + 2 ^ (-51 : ℤ))) := by
  constructor
  · intro c
    by_contra hc
    exact absurd (h.mono (not_lt.1 hc)) (not_le.2 c)
  · intro c
    have e0 := h.sub_rel hq h0
    have e1 := h.sub_rel h1 hq
    rw [abs_of_nonneg (by linarith : 0 ≤ q - x0), abs_le] at e0
    rw [abs_of_pos (by linarith : 0 < x1 - q), abs_le] at e1
    have c' := not_lt.1 c
    have e53 : (2 : K) ^ (-53 : ℤ) = 1 / 2 ^ 53 := by norm_num [zpow_neg]
    have e51 : (2 : K) ^ (-51 : ℤ) = 1 / 2 ^ 51 := by norm_num [zpow_neg]
    rw [e53] at e0 e1
    rw [e51]
    generalize rnd (q - x0) = r0 at *
    generalize rnd (x1 - q) = r1 at *
    norm_num at *
    linarith [e0.2, e1.1]

end

/-! ### The error of linear interpolation -/

theorem seg_aux (U E : ℝ) (hU : U = 1 / 2 ^ 53) (hE : 0 < E) (hE1 : E ≤ 1) {rnd : ℝ → ℝ}
    (he : ∀ x, |rnd x - x| ≤ U * |x| + E) (fused : Bool) (y0 y m x h X Y d : ℝ) (hx : x ≠ 0)
    (hm : m = y / x) (hX : |X - x| ≤ U * |x|) (hY : |Y - y| ≤ U * |y|) (hd : |d - h| ≤ U * |h|)
    (hh : |h| ≤ |x|) (V : ℝ) (hV : |y0 + m * h| ≤ V) :
    |(if fused then rnd (y0 + rnd (Y / X) * d) else rnd (y0 + rnd (rnd (Y / X) * d))) - (y0 + m * h)| ≤
      U * (6 * |y| + V) + E * (3 + 2 * |x|) := by
  have px : 0 < |x| := abs_pos.2 hx
  have U0 : 0 < U := by rw [hU]; norm_num
  have Xl : (1 - U) * |x| ≤ |X| := by
    have := abs_sub_abs_le_abs_sub x X
    rw [abs_sub_comm] at this
    linarith
  have X0 : 0 < |X| := lt_of_lt_of_le (mul_pos (by rw [hU]; norm_num) px) Xl
  have X0' : X ≠ 0 := abs_pos.1 X0
  have my : |m| * |x| = |y| := by rw [hm, ← abs_mul, div_mul_cancel₀ _ hx]
  have m0 := abs_nonneg m
  -- the slope
  have q1 : |Y / X - m| ≤ 21 / 10 * U * |m| := by
    have e : Y / X - m = ((Y - y) - m * (X - x)) / X := by
      rw [hm]; field_simp; ring
    rw [e, abs_div, div_le_iff₀ X0]
    have a1 : |(Y - y) - m * (X - x)| ≤ U * |y| + |m| * (U * |x|) := by
      refine (abs_sub _ _).trans (add_le_add hY ?_)
      rw [abs_mul]; exact mul_le_mul_of_nonneg_left hX m0
    refine a1.trans ?_
    rw [← my]
    have : 21 / 10 * U * |m| * ((1 - U) * |x|) ≤ 21 / 10 * U * |m| * |X| :=
      mul_le_mul_of_nonneg_left Xl (by positivity)
    refine le_trans ?_ this
    have k : 2 ≤ 21 / 10 * (1 - U) := by rw [hU]; norm_num
    have k2 := mul_le_mul_of_nonneg_right k (by positivity : 0 ≤ U * |m| * |x|)
    linarith
  have q2 : |rnd (Y / X) - m| ≤ 32 / 10 * U * |m| + E := by
    have a := he (Y / X)
    have b := abs_near q1 (le_refl |m|)
    have c := near_trans a q1
    have k : U * (|m| + 21 / 10 * U * |m|) ≤ 11 / 10 * U * |m| := by
      have : U * (21 / 10 * U) ≤ 1 / 10 * U := by rw [hU]; norm_num
      have := mul_le_mul_of_nonneg_right this m0
      linarith
    have b' := mul_le_mul_of_nonneg_left b U0.le
    linarith
  generalize rnd (Y / X) = s at *
  have sa : |s| ≤ 11 / 10 * |m| + E := by
    have := abs_near q2 (le_refl |m|)
    have k : 32 / 10 * U ≤ 1 / 10 := by rw [hU]; norm_num
    have := mul_le_mul_of_nonneg_right k m0
    linarith
  -- the product
  have h0 := abs_nonneg h
  have p1 := near_mul q2 hd sa (le_refl |h|)
  have mh : |m| * |h| ≤ |y| := by rw [← my]; exact mul_le_mul_of_nonneg_left hh m0
  have p2 : |s * d - m * h| ≤ 43 / 10 * U * |y| + 11 / 10 * E * |x| := by
    refine p1.trans ?_
    have k1 := mul_le_mul_of_nonneg_left mh U0.le
    have k2 := mul_le_mul_of_nonneg_left hh hE.le
    have k3 : E * (U * |h|) ≤ 1 / 10 * (E * |h|) := by
      have : U ≤ 1 / 10 := by rw [hU]; norm_num
      have := mul_le_mul_of_nonneg_right this (by positivity : 0 ≤ E * |h|)
      linarith
    linarith
  have y00 := abs_nonneg y
  have last : ∀ t : ℝ, |t - m * h| ≤ 54 / 10 * U * |y| + 12 / 10 * E * |x| + E →
      |rnd (y0 + t) - (y0 + m * h)| ≤ U * (6 * |y| + V) + E * (3 + 2 * |x|) := by
    intro t ht
    have ht' : |y0 + t - (y0 + m * h)| ≤ 54 / 10 * U * |y| + 12 / 10 * E * |x| + E := by
      rwa [add_sub_add_left_eq_sub]
    have a := near_trans (he (y0 + t)) ht'
    have b := mul_le_mul_of_nonneg_left (abs_near ht' hV) U0.le
    have k1 : U * (54 / 10 * U * |y|) ≤ 1 / 10 * U * |y| := by
      have : U * (54 / 10 * U) ≤ 1 / 10 * U := by rw [hU]; norm_num
      have := mul_le_mul_of_nonneg_right this y00
      linarith
    have k2 : U * (12 / 10 * E * |x| + E) ≤ 1 / 10 * (12 / 10 * E * |x| + E) :=
      mul_le_mul_of_nonneg_right (by rw [hU]; norm_num) (by positivity)
    have k3 : 0 ≤ U * |y| := by positivity
    have k4 : 0 ≤ E * |x| := by positivity
    linarith
  cases fused
  · simp only [Bool.false_eq_true, if_false]
    refine last _ ?_
    have a := near_trans (he (s * d)) p2
    have b := mul_le_mul_of_nonneg_left (abs_near p2 (le_refl |m * h|)) U0.le
    rw [abs_mul m h] at b
    have k0 := mul_le_mul_of_nonneg_left mh U0.le
    have k1 : U * (43 / 10 * U * |y|) ≤ 1 / 10 * U * |y| := by
      have : U * (43 / 10 * U) ≤ 1 / 10 * U := by rw [hU]; norm_num
      have := mul_le_mul_of_nonneg_right this y00
      linarith
    have k2 : U * (11 / 10 * E * |x|) ≤ 1 / 10 * (E * |x|) := by
      have : U * (11 / 10) ≤ 1 / 10 := by rw [hU]; norm_num
      have := mul_le_mul_of_nonneg_right this (by positivity : 0 ≤ E * |x|)
      linarith
    linarith
  · simp only [if_true]
    refine last _ (p2.trans ?_)
    have k3 : 0 ≤ U * |y| := by positivity
    have k4 : 0 ≤ E * |x| := by positivity
    linarith

/-- **C166** Between two nodes the computed value differs from the line through them by at most
2^-53 (6 |y1 - y0| + max(|y0|, |y1|)) and a few of the smallest doubles, fused or not. -/
theorem linear_error {rnd : ℝ → ℝ} (h : Nearest rnd) (fused : Bool) (x0 x1 y0 y1 q : ℝ)
    (dx0 : IsDouble x0) (dx1 : IsDouble x1) (dy0 : IsDouble y0) (dy1 : IsDouble y1) (dq : IsDouble q)
    (a : x0 ≤ q) (b : q < x1) :
    |segD rnd fused x0 x1 y0 y1 q - (y0 + (q - x0) * ((y1 - y0) / (x1 - x0)))| ≤
      2 ^ (-53 : ℤ) * (6 * |y1 - y0| + max |y0| |y1|) + 2 ^ (-1074 : ℤ) * (2 + (x1 - x0)) := by
  have p : 0 < x1 - x0 := by linarith
  have e1 : (2 : ℝ) ^ (-1074 : ℤ) = 2 * eta := by unfold eta; ring
  have e2 : (2 : ℝ) ^ (-53 : ℤ) = 1 / 2 ^ 53 := by norm_num [zpow_neg]
  have eE : (eta : ℝ) ≤ 1 := by
    unfold eta
    have : (2 : ℝ) ^ (-1074 : ℤ) ≤ 2 ^ (0 : ℤ) := zpow_le_zpow_right₀ (by norm_num) (by norm_num)
    rw [zpow_zero] at this
    linarith
  have ex : y0 + (q - x0) * ((y1 - y0) / (x1 - x0)) = y0 + (y0 - y1) / (x0 - x1) * (q - x0) := by
    rw [← neg_sub y0 y1, ← neg_sub x0 x1, neg_div_neg_eq]; ring
  have hV : |y0 + (y0 - y1) / (x0 - x1) * (q - x0)| ≤ max |y0| |y1| := by
    have t0 : 0 ≤ (q - x0) / (x1 - x0) := div_nonneg (by linarith) p.le
    have t1 : (q - x0) / (x1 - x0) ≤ 1 := by rw [div_le_one p]; linarith
    have : y0 + (y0 - y1) / (x0 - x1) * (q - x0) =
        (1 - (q - x0) / (x1 - x0)) * y0 + (q - x0) / (x1 - x0) * y1 := by
      have : x0 - x1 ≠ 0 := by linarith
      field_simp
      ring
    rw [this]
    generalize (q - x0) / (x1 - x0) = t at *
    refine (abs_add_le _ _).trans ?_
    rw [abs_mul, abs_mul, abs_of_nonneg t0, abs_of_nonneg (by linarith : 0 ≤ 1 - t)]
    have := mul_le_mul_of_nonneg_left (le_max_left |y0| |y1|) (by linarith : 0 ≤ 1 - t)
    have := mul_le_mul_of_nonneg_left (le_max_right |y0| |y1|) t0
    linarith
  have hx : x0 - x1 ≠ 0 := by linarith
  have hh : |q - x0| ≤ |x0 - x1| := by
    rw [abs_of_nonneg (by linarith : 0 ≤ q - x0), abs_sub_comm, abs_of_pos p]; linarith
  have := seg_aux (2 ^ (-53 : ℤ)) eta e2 eta_pos eE h.err_both fused y0 (y0 - y1) _ (x0 - x1) (q - x0)
    (rnd (x0 - x1)) (rnd (y0 - y1)) (rnd (q - x0)) hx rfl (h.sub_rel dx0 dx1) (h.sub_rel dy0 dy1)
    (h.sub_rel dq dx0) hh _ hV
  rw [ex]
  refine this.trans ?_
  rw [abs_sub_comm y0 y1, abs_sub_comm x0 x1, abs_of_pos p, e1]
  have : eta * (3 + 2 * (x1 - x0)) ≤ 2 * eta * (2 + (x1 - x0)) := by
    have := eta_pos (K := ℝ)
    generalize (eta : ℝ) = E at *
    linarith
  exact add_le_add_right this _

/-! ### What fails -/

/-- **C166** Nodes -2^-53 and 15/8 with the values 0 and 249/128: at the last double before 15/8 the computed value
is larger than 249/128, fused or not.  The computed function leaves the range of the values and falls back at the
node. -/
theorem linear_overshoot_counterexample (fused : Bool) :
    (249 / 128 : ℚ) < segD rnd64 fused (-1 / 2 ^ 53) (15 / 8) 0 (249 / 128) (15 / 8 - 1 / 2 ^ 52) := by
  revert fused
  decide +kernel

/-- **C166** Nodes 2^-60 and 1 with the values 10 and 20: for 1/2 the value of the node 1 is given although 2^-60 is
nearer; the distance 1/2 - 2^-60 is rounded to 1/2. -/
theorem nearest_wrong_counterexample :
    ∃ x y : Nat → ℚ, Increasing x 2 ∧ (∀ i : Nat, IsDouble (x i)) ∧
      nearestD rnd64 x y 2 (1 / 2) = some (0, 20) ∧ Var.nearest x y 2 (1 / 2) = some (0, 10) := by
  refine ⟨fun i => if i = 0 then 1 / 2 ^ 60 else 1, fun i => if i = 0 then 10 else 20, ?_, ?_, ?_, ?_⟩
  · intro i j h1 h2
    have : i = 0 ∧ j = 1 := by omega
    rw [this.1, this.2]; norm_num
  · intro i
    simp only
    split
    · exact ⟨1, -60, by norm_num, by norm_num, by norm_num [zpow_neg]⟩
    · exact ⟨1, 0, by norm_num, by norm_num, by norm_num⟩
  · decide +kernel
  · decide +kernel

/-! ### Witnesses -/

/-- The nodes of the program: multiples of five degrees. -/
example (y : Nat → ℚ) : nearestD rnd64 (fun i => 5 * (i : ℚ)) y 19 (77 / 8) =
    Var.nearest (fun i => 5 * (i : ℚ)) y 19 (77 / 8) := by
  refine nearest_exact_partial rnd64_nearest _ y 19 _ ⟨77, -3, by norm_num, by norm_num, by norm_num [zpow_neg]⟩ ?_ ?_
  · intro i hi
    have b : |(5 * (i : ℤ))| < 2 ^ 53 := by rw [abs_of_nonneg (by positivity)]; omega
    exact ⟨⟨5 * i, 0, b, by norm_num, by push_cast; ring⟩,
      ⟨5 * i, -1, b, by norm_num, by push_cast; norm_num [zpow_neg]; ring⟩⟩
  · intro i h1 _
    obtain ⟨j, rfl⟩ : ∃ j, i = j + 1 := ⟨i - 1, by omega⟩
    simp only [Nat.add_sub_cancel]
    rcases Nat.eq_zero_or_pos j with h | h
    · left; rw [h]; simp
    · right
      have : (1 : ℚ) ≤ j := by exact_mod_cast h
      push_cast
      constructor <;> linarith

/-- Nodes at 80 and 85 degrees: the value at a node, the error between them. -/
example : segD (rnd64 : ℝ → ℝ) true 80 85 5 (1 / 2) 80 = 5 :=
  segD_left rnd64_nearest true _ _ _ _ (by have := isDouble_int (K := ℝ) 5 (by norm_num); norm_num at this ⊢; exact this)

example : |segD (rnd64 : ℝ → ℝ) false 80 85 5 (1 / 2) 83 - (5 + (83 - 80) * ((1 / 2 - 5) / (85 - 80)))| ≤
    2 ^ (-53 : ℤ) * (6 * |1 / 2 - 5| + max |5| |1 / 2|) + 2 ^ (-1074 : ℤ) * (2 + (85 - 80)) :=
  linear_error rnd64_nearest false 80 85 5 (1 / 2) 83 ⟨80, 0, by norm_num, by norm_num, by norm_num⟩
    ⟨85, 0, by norm_num, by norm_num, by norm_num⟩ ⟨5, 0, by norm_num, by norm_num, by norm_num⟩
    ⟨1, -1, by norm_num, by norm_num, by norm_num⟩ ⟨83, 0, by norm_num, by norm_num, by norm_num⟩
    (by norm_num) (by norm_num)

end Verif.Float
