import Verif.Float.StatModel
import Mathlib.Data.Rat.Floor

/-
C116: the running statistics in double arithmetic.  The mean lies between two of the values, the
variance is never negative (so the standard deviation is a number), and for equal values the
results are exact.  For every rounding to nearest, with or without fused operations.
-/
namespace Verif.Float

variable {K : Type} [Field K] [LinearOrder K] [IsStrictOrderedRing K] {rnd : K → K}

/-- Rounding seen from the other side is a rounding to nearest as well. -/
theorem Nearest.mirror (h : Nearest rnd) : Nearest (fun x => -rnd (-x)) := by
  refine ⟨fun x => (h.mem (-x)).neg, fun x y hy => ?_⟩
  have := h.near (-x) (-y) hy.neg
  have e1 : -rnd (-x) - x = -(rnd (-x) - -x) := by ring
  have e2 : y - x = -(-y - -x) := by ring
  rw [e1, e2, abs_neg, abs_neg]
  exact this

/-- Differences of doubles are multiples of the smallest positive double. -/
theorem sub_multiple {x y : K} (hx : IsDouble x) (hy : IsDouble y) :
    ∃ n : ℤ, x - y = n * 2 ^ (-1074 : ℤ) := by
  have aux : ∀ z : K, IsDouble z → ∃ n : ℤ, z = n * 2 ^ (-1074 : ℤ) := by
    rintro z ⟨m, e, -, he, rfl⟩
    obtain ⟨k, rfl⟩ : ∃ k : ℕ, e = -1074 + k := ⟨(e + 1074).toNat, by omega⟩
    exact ⟨m * 2 ^ k, by rw [zpow_add₀ (by norm_num), zpow_natCast]; push_cast; ring⟩
  obtain ⟨n, hn⟩ := aux x hx
  obtain ⟨m, hm⟩ := aux y hy
  exact ⟨n - m, by rw [hn, hm]; push_cast; ring⟩

/-- The step of the mean: from `m` towards `x`, but not past it. -/
theorem mean_step (h : Nearest rnd) {m x k : K} (hm : IsDouble m) (hx : IsDouble x) (hmx : m ≤ x)
    (hk : 2 ≤ k) : m ≤ rnd (m + rnd (rnd (x - m) / k)) ∧ rnd (m + rnd (rnd (x - m) / k)) ≤ x := by
  have hk0 : 0 < k := by linarith
  set d := rnd (x - m) with hd
  have hd0 : 0 ≤ d := h.nonneg (by linarith)
  have hdd : IsDouble d := h.mem _
  have hq0 : 0 ≤ rnd (d / k) := h.nonneg (div_nonneg hd0 hk0.le)
  refine ⟨h.ge_of_ge hm (by linarith), h.le_of_le hx ?_⟩
  have hq1 : rnd (d / k) ≤ d := h.le_of_le hdd (by
    rw [div_le_iff₀ hk0]; nlinarith)
  have hd2 : d ≤ 2 * (x - m) := by
    have := h.near (x - m) 0 isDouble_zero
    rw [← hd, zero_sub, abs_neg, abs_of_nonneg (a := x - m) (by linarith)] at this
    have := (abs_le.1 this).2
    linarith
  rcases le_or_gt d (x - m) with hle | hgt
  · linarith
  · -- the difference was rounded up, so it is not subnormal and half of it is a double
    have hhalf : IsDouble (d / 2) := by
      obtain ⟨n, hn⟩ := sub_multiple hx hm
      have hbig : (2 : K) ^ (-1074 + 53 : ℤ) ≤ d := by
        by_contra hc
        push Not at hc
        have hb : |x - m| ≤ 2 ^ (-1074 + 53 : ℤ) := by
          rw [abs_of_nonneg (by linarith)]; linarith
        have := h.exact (isDouble_multiple n (-1074) (by norm_num) hn hb)
        rw [← hd] at this
        linarith
      obtain ⟨M, e, hM, he, hde⟩ := hdd
      have he' : -1073 ≤ e := by
        by_contra hc
        have : e = -1074 := by omega
        rw [hde, this, zpow_add₀ (by norm_num), mul_comm] at hbig
        have h1 := le_of_mul_le_mul_right hbig (zpow_pos (by norm_num : (0 : K) < 2) (-1074))
        rw [show (2 : K) ^ (53 : ℤ) = ((2 ^ 53 : ℤ) : K) by norm_cast] at h1
        have h2 := Int.cast_le.1 h1
        have := (abs_lt.1 hM).2
        omega
      refine ⟨M, e - 1, hM, by omega, ?_⟩
      rw [hde, zpow_sub₀ (by norm_num)]
      norm_num
      ring
    have : rnd (d / k) ≤ d / 2 := h.le_of_le hhalf (by
      rw [div_le_div_iff₀ hk0 (by norm_num)]; nlinarith)
    linarith

/-- As `mean_step`, towards smaller values. -/
theorem mean_step' (h : Nearest rnd) {m x k : K} (hm : IsDouble m) (hx : IsDouble x) (hmx : x ≤ m)
    (hk : 2 ≤ k) : x ≤ rnd (m + rnd (rnd (x - m) / k)) ∧ rnd (m + rnd (rnd (x - m) / k)) ≤ m := by
  have := mean_step h.mirror hm.neg hx.neg (by linarith : -m ≤ -x) hk
  have e1 : -(-x - -m) = x - m := by ring
  have e2 : -(-rnd (x - m) / k) = rnd (x - m) / k := by ring
  have e3 : -(-m + -rnd (rnd (x - m) / k)) = m + rnd (rnd (x - m) / k) := by ring
  simp only [e1, e2, e3] at this
  constructor <;> linarith [this.1, this.2]

/-- The product added to `_var` is not negative. -/
theorem var_grows (h : Nearest rnd) (fused : Bool) {v a b : K} (hv : IsDouble v)
    (hab : 0 ≤ a * b) :
    v ≤ (if fused then rnd (v + a * b) else rnd (v + rnd (a * b))) := by
  split_ifs
  · exact h.ge_of_ge hv (by linarith)
  · exact h.ge_of_ge hv (by linarith [h.nonneg hab])

/-- What holds after every list of values. -/
theorem after_inv (h : Nearest rnd) (fused : Bool) (xs : List K) (hxs : ∀ x ∈ xs, IsDouble x) :
    (Stat.after rnd fused xs).k = xs.length + 1 ∧
    IsDouble (Stat.after rnd fused xs).mean ∧ IsDouble (Stat.after rnd fused xs).var ∧
    0 ≤ (Stat.after rnd fused xs).var ∧
    (xs = [] ∧ (Stat.after rnd fused xs).mean = 0 ∨
      (∃ a ∈ xs, a ≤ (Stat.after rnd fused xs).mean) ∧
      (∃ b ∈ xs, (Stat.after rnd fused xs).mean ≤ b)) := by
  induction xs using List.reverseRecOn with
  | nil => exact ⟨rfl, isDouble_zero, isDouble_zero, le_rfl, .inl ⟨rfl, rfl⟩⟩
  | append_singleton xs x ih =>
    obtain ⟨hk, hm, hv, hv0, hb⟩ := ih fun y hy => hxs y (by simp [hy])
    have hx : IsDouble x := hxs x (by simp)
    have hs : Stat.after rnd fused (xs ++ [x]) =
        (Stat.after rnd fused xs).update rnd fused x := by
      simp [Stat.after, List.foldl_append]
    rw [hs]
    generalize Stat.after rnd fused xs = s at hk hm hv hv0 hb
    -- the new mean lies between the old one and `x`, except for the first value
    have hmean : (xs = [] ∧ (s.update rnd fused x).mean = x) ∨
        (s.mean ≤ (s.update rnd fused x).mean ∧ (s.update rnd fused x).mean ≤ x ∧ s.mean ≤ x ∨
          x ≤ (s.update rnd fused x).mean ∧ (s.update rnd fused x).mean ≤ s.mean ∧
            x ≤ s.mean) ∧ xs ≠ [] := by
      rcases xs.eq_nil_or_concat with rfl | hne
      · left
        refine ⟨rfl, ?_⟩
        have h0 : s.mean = 0 := by
          rcases hb with ⟨-, h0⟩ | ⟨⟨a, ha, -⟩, -⟩
          · exact h0
          · simp at ha
        have h1 : rnd 1 = (1 : K) := h.exact (by simpa using isDouble_int (K := K) 1 (by norm_num))
        have hk1 : s.k = 1 := by simpa using hk
        simp [Stat.update, h0, hk1, h.exact hx, h1]
      · right
        have hne' : xs ≠ [] := by
          obtain ⟨l, b, rfl⟩ := hne
          simp
        refine ⟨?_, hne'⟩
        have hk2 : (2 : K) ≤ rnd (s.k : K) := by
          refine h.ge_of_ge (by simpa using isDouble_int (K := K) 2 (by norm_num)) ?_
          have : 2 ≤ s.k := by
            have := List.length_pos_iff.2 hne'
            omega
          exact_mod_cast this
        rcases le_total s.mean x with hle | hle
        · left
          exact ⟨(mean_step h hm hx hle hk2).1, (mean_step h hm hx hle hk2).2, hle⟩
        · right
          exact ⟨(mean_step' h hm hx hle hk2).1, (mean_step' h hm hx hle hk2).2, hle⟩
    have hprod : 0 ≤ rnd (x - s.mean) * rnd (x - (s.update rnd fused x).mean) := by
      rcases hmean with ⟨-, e⟩ | ⟨⟨h1, h2, h3⟩ | ⟨h1, h2, h3⟩, -⟩
      · rw [e, sub_self, h.zero, mul_zero]
      · exact mul_nonneg (h.nonneg (by linarith)) (h.nonneg (by linarith))
      · exact mul_nonneg_of_nonpos_of_nonpos (h.nonpos (by linarith)) (h.nonpos (by linarith))
    have hgrow : s.var ≤ (s.update rnd fused x).var := var_grows h fused hv hprod
    refine ⟨by simp [Stat.update, hk], h.mem _, ?_, hv0.trans hgrow, .inr ⟨?_, ?_⟩⟩
    · unfold Stat.update
      simp only
      split_ifs
      · exact h.mem _
      · exact h.mem _
    · rcases hmean with ⟨-, e⟩ | ⟨⟨h1, h2, h3⟩ | ⟨h1, h2, h3⟩, hne⟩
      · exact ⟨x, by simp, e.ge⟩
      · rcases hb with ⟨e, -⟩ | ⟨⟨a, ha, ha'⟩, -⟩
        · exact absurd e hne
        · exact ⟨a, by simp [ha], ha'.trans h1⟩
      · exact ⟨x, by simp, h1⟩
    · rcases hmean with ⟨-, e⟩ | ⟨⟨h1, h2, h3⟩ | ⟨h1, h2, h3⟩, hne⟩
      · exact ⟨x, by simp, e.le⟩
      · exact ⟨x, by simp, h2⟩
      · rcases hb with ⟨e, -⟩ | ⟨-, ⟨b, hb, hb'⟩⟩
        · exact absurd e hne
        · exact ⟨b, by simp [hb], h2.trans hb'⟩

/-- **C116** After one value or more the mean lies between two of the values. -/
theorem double_mean_between (h : Nearest rnd) (fused : Bool) (xs : List K)
    (hxs : ∀ x ∈ xs, IsDouble x) (hne : xs ≠ []) :
    (∃ a ∈ xs, a ≤ (Stat.after rnd fused xs).mean) ∧
    (∃ b ∈ xs, (Stat.after rnd fused xs).mean ≤ b) := by
  rcases (after_inv h fused xs hxs).2.2.2.2 with ⟨e, -⟩ | hb
  · exact absurd e hne
  · exact hb

/-- **C116** The variance is never negative, so the standard deviation is a number. -/
theorem double_variance_nonneg (h : Nearest rnd) (fused : Bool) (xs : List K)
    (hxs : ∀ x ∈ xs, IsDouble x) : 0 ≤ (Stat.after rnd fused xs).variance rnd :=
  h.nonneg (div_nonneg (after_inv h fused xs hxs).2.2.2.1 (h.nonneg (Nat.cast_nonneg _)))

/-- **C116** A further value never lowers the sum of squares. -/
theorem double_squares_grow (h : Nearest rnd) (fused : Bool) (xs ys : List K)
    (hxs : ∀ x ∈ xs ++ ys, IsDouble x) :
    (Stat.after rnd fused xs).var ≤ (Stat.after rnd fused (xs ++ ys)).var := by
  induction ys using List.reverseRecOn with
  | nil => simp
  | append_singleton ys y ih =>
    refine (ih fun x hx => hxs x ?_).trans ?_
    · simp only [List.mem_append] at hx ⊢
      tauto
    rw [← List.append_assoc]
    have hd : ∀ x ∈ xs ++ ys, IsDouble x := fun x hx => hxs x (by
      simp only [List.mem_append] at hx ⊢; tauto)
    have hy : IsDouble y := hxs y (by simp)
    obtain ⟨hk, hm, hv, -, hb⟩ := after_inv h fused (xs ++ ys) hd
    have hs : Stat.after rnd fused (xs ++ ys ++ [y]) =
        (Stat.after rnd fused (xs ++ ys)).update rnd fused y := by
      simp [Stat.after, List.foldl_append]
    rw [hs]
    generalize Stat.after rnd fused (xs ++ ys) = s at hk hm hv hb
    generalize xs ++ ys = zs at hk hb
    refine var_grows h fused hv ?_
    show 0 ≤ rnd (y - s.mean) * rnd (y - (rnd (s.mean + rnd (rnd (y - s.mean) / rnd (s.k : K)))))
    rcases zs.eq_nil_or_concat with rfl | ⟨l, b, rfl⟩
    · have h0 : s.mean = 0 := by
        rcases hb with ⟨-, h0⟩ | ⟨⟨a, ha, -⟩, -⟩
        · exact h0
        · simp at ha
      have h1 : rnd 1 = (1 : K) := h.exact (by simpa using isDouble_int (K := K) 1 (by norm_num))
      have hk1 : s.k = 1 := by simpa using hk
      simp [h0, hk1, h.exact hy, h1, h.zero]
    · have hk2 : (2 : K) ≤ rnd (s.k : K) := by
        refine h.ge_of_ge (by simpa using isDouble_int (K := K) 2 (by norm_num)) ?_
        have : 2 ≤ s.k := by rw [hk]; simp
        exact_mod_cast this
      rcases le_total s.mean y with hle | hle
      · have := mean_step h hm hy hle hk2
        exact mul_nonneg (h.nonneg (by linarith)) (h.nonneg (by linarith [this.2]))
      · have := mean_step' h hm hy hle hk2
        exact mul_nonneg_of_nonpos_of_nonpos (h.nonpos (by linarith))
          (h.nonpos (by linarith [this.1]))

/-- **C116** For equal values the mean is that value and the variance zero, without error. -/
theorem double_equal_values (h : Nearest rnd) (fused : Bool) (c : K) (hc : IsDouble c) (n : ℕ) :
    (Stat.after rnd fused (List.replicate (n + 1) c)).mean = c ∧
    (Stat.after rnd fused (List.replicate (n + 1) c)).variance rnd = 0 := by
  have hd : ∀ k, ∀ x ∈ List.replicate k c, IsDouble x := fun k x hx => by
    rw [List.eq_of_mem_replicate hx]; exact hc
  have hmean : ∀ n, (Stat.after rnd fused (List.replicate (n + 1) c)).mean = c := by
    intro n
    obtain ⟨⟨a, ha, h1⟩, ⟨b, hb, h2⟩⟩ := double_mean_between h fused (List.replicate (n + 1) c)
      (hd _) (by simp)
    rw [List.eq_of_mem_replicate ha] at h1
    rw [List.eq_of_mem_replicate hb] at h2
    exact le_antisymm h2 h1
  refine ⟨hmean n, ?_⟩
  have hvar : ∀ n, (Stat.after rnd fused (List.replicate n c)).var = 0 := by
    intro n
    induction n with
    | zero => rfl
    | succ n ih =>
      have hs : Stat.after rnd fused (List.replicate (n + 1) c) =
          (Stat.after rnd fused (List.replicate n c)).update rnd fused c := by
        rw [List.replicate_succ']
        simp [Stat.after, List.foldl_append]
      have h2 := hmean n
      rw [hs] at h2 ⊢
      have h3 : rnd ((Stat.after rnd fused (List.replicate n c)).mean +
          rnd (rnd (c - (Stat.after rnd fused (List.replicate n c)).mean) /
            rnd ((Stat.after rnd fused (List.replicate n c)).k : K))) = c := h2
      unfold Stat.update
      simp only [h3, ih, sub_self, h.zero, mul_zero, add_zero, ite_self]
  unfold Stat.variance
  rw [hvar, zero_div, h.zero]

/-- The hypotheses are met: rounding with ties to even, and three doubles of different size and
sign. -/
example : Nearest (rnd64 : ℚ → ℚ) ∧
    ∀ x ∈ [(3 : ℚ), -7, 2 ^ 60], IsDouble x := by
  refine ⟨rnd64_nearest, ?_⟩
  intro x hx
  simp only [List.mem_cons, List.not_mem_nil, or_false] at hx
  rcases hx with rfl | rfl | rfl
  · simpa using isDouble_int (K := ℚ) 3 (by norm_num)
  · simpa using isDouble_int (K := ℚ) (-7) (by norm_num)
  · exact ⟨1, 60, by norm_num, by norm_num, by norm_num⟩

end Verif.Float
