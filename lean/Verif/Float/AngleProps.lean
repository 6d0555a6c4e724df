import Verif.Float.AngleModel
import Mathlib.Analysis.SpecialFunctions.Trigonometric.Bounds
import Mathlib.Analysis.Real.Pi.Bounds

/-
C120: angles of an orbit in double arithmetic are numbers, or not.
-/
namespace Verif.Float

open Verif.Astro (V3)
open Real

variable {rnd : ℝ → ℝ}

/-- A vector of doubles of the usual sizes. -/
def RangedV (v : V3) : Prop := Ranged v.x ∧ Ranged v.y ∧ Ranged v.z

/-- The sum of squares is at least each rounded square. -/
theorem normSqD_ge (hr : Nearest rnd) (fused : Bool) (v : V3) :
    rnd (v.x * v.x) ≤ normSqD rnd fused v ∧ rnd (v.y * v.y) ≤ normSqD rnd fused v ∧
      rnd (v.z * v.z) ≤ normSqD rnd fused v := by
  have x0 := hr.nonneg (mul_self_nonneg v.x)
  have y0 := hr.nonneg (mul_self_nonneg v.y)
  have z0 := hr.nonneg (mul_self_nonneg v.z)
  unfold normSqD
  cases fused
  · simp only [Bool.false_eq_true, if_false]
    have a : rnd (v.x * v.x) ≤ rnd (rnd (v.x * v.x) + rnd (v.y * v.y)) :=
      hr.ge_of_ge (hr.mem _) (by linarith)
    have b : rnd (v.y * v.y) ≤ rnd (rnd (v.x * v.x) + rnd (v.y * v.y)) :=
      hr.ge_of_ge (hr.mem _) (by linarith)
    have c : rnd (rnd (v.x * v.x) + rnd (v.y * v.y)) ≤
        rnd (rnd (rnd (v.x * v.x) + rnd (v.y * v.y)) + rnd (v.z * v.z)) :=
      hr.ge_of_ge (hr.mem _) (by linarith)
    exact ⟨a.trans c, b.trans c, hr.ge_of_ge (hr.mem _) (by linarith)⟩
  · simp only [if_true]
    have a : rnd (v.x * v.x) ≤ rnd (v.y * v.y + rnd (v.x * v.x)) :=
      hr.ge_of_ge (hr.mem _) (by nlinarith)
    have b : rnd (v.y * v.y) ≤ rnd (v.y * v.y + rnd (v.x * v.x)) := hr.mono (by linarith)
    have c : rnd (v.y * v.y + rnd (v.x * v.x)) ≤
        rnd (v.z * v.z + rnd (v.y * v.y + rnd (v.x * v.x))) :=
      hr.ge_of_ge (hr.mem _) (by nlinarith)
    exact ⟨a.trans c, b.trans c, hr.mono (by linarith)⟩

/-- **C120 (a)** The computed norm of a vector is not smaller than any of its components. -/
theorem norm_ge_component (hr : Nearest rnd) (fused : Bool) (v : V3) (h : RangedV v) :
    |v.x| ≤ normD rnd fused v ∧ |v.y| ≤ normD rnd fused v ∧ |v.z| ≤ normD rnd fused v := by
  obtain ⟨a, b, c⟩ := normSqD_ge hr fused v
  exact ⟨(h.1.sqrt_ge hr).trans (hr.mono (Real.sqrt_le_sqrt a)),
    (h.2.1.sqrt_ge hr).trans (hr.mono (Real.sqrt_le_sqrt b)),
    (h.2.2.sqrt_ge hr).trans (hr.mono (Real.sqrt_le_sqrt c))⟩

theorem normD_pos (hr : Nearest rnd) (fused : Bool) (v : V3) (h : RangedV v)
    (h0 : v ≠ ⟨0, 0, 0⟩) : 0 < normD rnd fused v := by
  obtain ⟨a, b, c⟩ := norm_ge_component hr fused v h
  by_contra hc
  rw [not_lt] at hc
  apply h0
  ext
  · exact abs_nonpos_iff.1 (a.trans hc)
  · exact abs_nonpos_iff.1 (b.trans hc)
  · exact abs_nonpos_iff.1 (c.trans hc)

theorem isDouble_one : IsDouble (1 : ℝ) := by simpa using isDouble_int (K := ℝ) 1 (by norm_num)

/-- A component divided by the norm is a possible cosine. -/
theorem cosine_number (hr : Nearest rnd) {c n : ℝ} (hn : 0 < n) (hc : |c| ≤ n) :
    ∃ t, quotD rnd c n = some t ∧ -1 ≤ t ∧ t ≤ 1 := by
  refine ⟨rnd (c / n), if_neg hn.ne', ?_, ?_⟩
  · apply hr.ge_of_ge isDouble_one.neg
    rw [le_div_iff₀ hn]
    linarith [neg_abs_le c]
  · apply hr.le_of_le isDouble_one
    rw [div_le_iff₀ hn]
    linarith [le_abs_self c]

theorem acosD_some (rnd : ℝ → ℝ) {t : ℝ} (h : -1 ≤ t ∧ t ≤ 1) : (acosD rnd t).isSome := by
  unfold acosD; rw [if_pos h]; rfl

theorem turnD_some (turn : ℝ) (b : Prop) {a : Option ℝ} (h : a.isSome) :
    (turnD rnd turn b a).isSome := by
  unfold turnD
  split
  · rw [Option.isSome_map]; exact h
  · exact h

theorem inclination_core (hr : Nearest rnd) (fused : Bool) (v : V3) (h : RangedV v)
    (h0 : v ≠ ⟨0, 0, 0⟩) : ((quotD rnd v.z (normD rnd fused v)).bind (acosD rnd)).isSome ∧
      ((quotD rnd v.x (normD rnd fused v)).bind (acosD rnd)).isSome := by
  have p := normD_pos hr fused v h h0
  obtain ⟨a, b, c⟩ := norm_ge_component hr fused v h
  constructor
  · obtain ⟨t, e, ht⟩ := cosine_number hr p c
    rw [e]
    exact acosD_some rnd ht
  · obtain ⟨t, e, ht⟩ := cosine_number hr p a
    rw [e]
    exact acosD_some rnd ht

/-- **C120 (b)** Inclination and, off the equator, the node are numbers for every state whose
computed angular momentum is nonzero and of usual size, in both functions, with or without fused
operations.  Missing for the full statement: perigee and anomaly, see `perigee_nan_counterexample`. -/
theorem node_number_partial (hr : Nearest rnd) (fused : Bool) (turn : ℝ) (pos vel : V3) (m : ℝ)
    (h : RangedV (crossD rnd pos vel)) (h0 : crossD rnd pos vel ≠ ⟨0, 0, 0⟩) :
    (state2keplerD rnd fused turn pos vel m).i.isSome ∧
      (valladoNodeD rnd fused turn pos vel).1.isSome ∧
      ((crossD rnd pos vel).x ≠ 0 ∨ (crossD rnd pos vel).y ≠ 0 →
        (state2keplerD rnd fused turn pos vel m).Omega.isSome ∧
        (valladoNodeD rnd fused turn pos vel).2.isSome) := by
  have hi := (inclination_core hr fused _ h h0).1
  refine ⟨hi, hi, fun hxy => ?_⟩
  have hN := (inclination_core hr fused ⟨-(crossD rnd pos vel).y, (crossD rnd pos vel).x, 0⟩
    ⟨h.2.1.neg, h.1, ranged_zero⟩ (by
      intro hc
      simp only [V3.mk.injEq, neg_eq_zero, and_true] at hc
      rcases hxy with hx | hy
      · exact hx hc.2
      · exact hy hc.1)).2
  exact ⟨turnD_some _ _ hN, turnD_some _ _ hN⟩

/-- **C120 (c)** The declination is a number for every position but the origin. -/
theorem declination_number_partial (hr : Nearest rnd) (fused : Bool) (turn : ℝ) (pos : V3)
    (h : RangedV pos) (h0 : pos ≠ ⟨0, 0, 0⟩) : (pos2adD rnd fused turn pos).2.isSome := by
  obtain ⟨t, e, ht⟩ := cosine_number hr (normD_pos hr fused pos h h0)
    (norm_ge_component hr fused pos h).2.2
  unfold pos2adD
  simp only [e]
  change (asinD rnd t).isSome
  unfold asinD; rw [if_pos ht]; rfl

/-! ## Where NaN appears -/

theorem Nearest.num (hr : Nearest rnd) {x y : ℝ} (m e : ℤ) (he : -1074 ≤ e)
    (hm : 2 ^ 52 < |m|) (hm' : |m| < 2 ^ 53) (hy : y = m * 2 ^ e) (hx : |y - x| < 2 ^ e / 2) :
    rnd x = y := by
  rw [hy] at hx ⊢
  exact hr.eq_of_close m e he hm hm' hx

theorem Nearest.int (hr : Nearest rnd) {x : ℝ} (m : ℤ) (hm : |m| ≤ 2 ^ 53) (hx : x = m) :
    rnd x = x := by
  rw [hx]; exact hr.exact (isDouble_int m hm)

/-- The norm of a vector along the first axis has no error. -/
theorem normD_axis (hr : Nearest rnd) (fused : Bool) (a : ℝ) (ha : IsDouble a)
    (h : 2 ^ (-500 : ℤ) ≤ |a|) : normD rnd fused ⟨a, 0, 0⟩ = |a| := by
  rw [← sqrt_sq hr ha h]
  unfold normD normSqD
  have e := hr.exact (hr.mem (a * a))
  cases fused <;> simp [hr.zero, e]

/-- `4503599627370497 / 2^52`, the double after 1. -/
theorem acosD_above_one (rnd : ℝ → ℝ) : acosD rnd (4503599627370497 / 4503599627370496) = none := by
  unfold acosD
  rw [if_neg]
  norm_num

theorem turnD_none (rnd : ℝ → ℝ) (turn : ℝ) (b : Prop) : turnD rnd turn b none = none := by
  unfold turnD
  split <;> rfl

theorem half_range {a : ℝ} (h : 1 / 1024 ≤ |a|) : 2 ^ (-500 : ℤ) ≤ |a| := by
  refine le_trans ?_ h
  have : (2 : ℝ) ^ (-500 : ℤ) ≤ 2 ^ (-10 : ℤ) := zpow_le_zpow_right₀ (by norm_num) (by norm_num)
  rwa [show (2 : ℝ) ^ (-10 : ℤ) = 1 / 1024 by norm_num] at this

/-- **C120 (d)** A satellite at its perigee on the first axis, 7042 km from the geocentre, with
velocity (0, 4.572, 6.096) km/s: argument of perigee and true anomaly, both zero, are NaN.  The
computed cosines are the next double above 1. -/
theorem perigee_nan_counterexample (hr : Nearest rnd) (fused : Bool) (turn : ℝ) :
    (state2keplerD rnd fused turn ⟨7042000, 0, 0⟩ ⟨0, 4572, 6096⟩ 398600441800000).omega = none ∧
    (state2keplerD rnd fused turn ⟨7042000, 0, 0⟩ ⟨0, 4572, 6096⟩ 398600441800000).theta = none := by
  have dx : IsDouble (7042000 : ℝ) := by simpa using isDouble_int (K := ℝ) 7042000 (by norm_num)
  have dN : IsDouble (42928032000 : ℝ) := by
    simpa using isDouble_int (K := ℝ) 42928032000 (by norm_num)
  have nr : normD rnd fused ⟨7042000, 0, 0⟩ = 7042000 := by
    rw [normD_axis hr fused _ dx (half_range (by norm_num))]; norm_num
  have i1 : rnd (4572 * 4572) = 4572 * 4572 := hr.int 20903184 (by norm_num) (by norm_num)
  have i2 : rnd (6096 * 6096) = 6096 * 6096 := hr.int 37161216 (by norm_num) (by norm_num)
  have i3 : rnd (4572 * 4572 + 6096 * 6096) = 4572 * 4572 + 6096 * 6096 :=
    hr.int 58064400 (by norm_num) (by norm_num)
  have i3' : rnd (6096 * 6096 + 4572 * 4572) = 6096 * 6096 + 4572 * 4572 :=
    hr.int 58064400 (by norm_num) (by norm_num)
  have i4 : rnd 7620 = 7620 := hr.int 7620 (by norm_num) (by norm_num)
  have nv : normD rnd fused ⟨0, 4572, 6096⟩ = 7620 := by
    have s1 : √(4572 * 4572 + 6096 * 6096 : ℝ) = 7620 := by
      rw [show (4572 * 4572 + 6096 * 6096 : ℝ) = 7620 * 7620 by norm_num,
        Real.sqrt_mul_self (by norm_num)]
    have s2 : √(6096 * 6096 + 4572 * 4572 : ℝ) = 7620 := by
      rw [add_comm]; exact s1
    unfold normD normSqD
    cases fused
    · simp only [Bool.false_eq_true, if_false, mul_zero, hr.zero, zero_add, i1, i2, i3, s1, i4]
    · simp only [if_true, mul_zero, hr.zero, add_zero, i1, i3', s2, i4]
  have dt : dotD rnd ⟨7042000, 0, 0⟩ ⟨0, 4572, 6096⟩ = 0 := by
    unfold dotD
    simp [hr.zero]
  have i5 : rnd (7042000 * 6096) = 42928032000 := by
    rw [hr.int 42928032000 (by norm_num) (by norm_num)]; norm_num
  have i6 : rnd (-42928032000) = -42928032000 := hr.int (-42928032000) (by norm_num) (by norm_num)
  have hy : (crossD rnd ⟨7042000, 0, 0⟩ ⟨0, 4572, 6096⟩).y = -42928032000 := by
    unfold crossD
    simp only [zero_mul, mul_zero, hr.zero, zero_sub, i5, i6]
  have hx : (crossD rnd ⟨7042000, 0, 0⟩ ⟨0, 4572, 6096⟩).x = 0 := by
    unfold crossD
    simp [hr.zero]
  have nN : normD rnd fused ⟨42928032000, 0, 0⟩ = 42928032000 := by
    rw [normD_axis hr fused _ dN (half_range (by norm_num))]; norm_num
  have v2 : rnd (7620 * 7620) = 58064400 := by
    rw [hr.int 58064400 (by norm_num) (by norm_num)]; norm_num
  have q : rnd (398600441800000 / 7042000) = 7597166384293131 / 134217728 :=
    hr.num 7597166384293131 (-27) (by norm_num) (by norm_num) (by norm_num)
      (by norm_num) (by rw [abs_lt]; norm_num)
  have A : rnd (58064400 - 7597166384293131 / 134217728) = 6275374764482208 / 4294967296 :=
    hr.num 6275374764482208 (-32) (by norm_num) (by norm_num) (by norm_num)
      (by norm_num) (by rw [abs_lt]; norm_num)
  have xa : rnd (7042000 * (6275374764482208 / 4294967296)) = 5268000256000007 / 512 :=
    hr.num 5268000256000007 (-9) (by norm_num) (by norm_num) (by norm_num)
      (by norm_num) (by rw [abs_lt]; norm_num)
  have xa' : rnd (5268000256000007 / 512) = 5268000256000007 / 512 := by
    rw [← xa]; exact hr.exact (hr.mem _)
  have ex : rnd (5268000256000007 / 512 / 398600441800000) = 7440083320897773 / 288230376151711744 :=
    hr.num 7440083320897773 (-58) (by norm_num) (by norm_num) (by norm_num)
      (by norm_num) (by rw [abs_lt]; norm_num)
  have dex : IsDouble (7440083320897773 / 288230376151711744 : ℝ) := by rw [← ex]; exact hr.mem _
  have ne : normD rnd fused ⟨7440083320897773 / 288230376151711744, 0, 0⟩ =
      7440083320897773 / 288230376151711744 := by
    rw [normD_axis hr fused _ dex (half_range (by norm_num))]; norm_num
  -- the two cosines
  have o1 : rnd (42928032000 * (7440083320897773 / 288230376151711744)) =
      4647709063751476 / 4194304 :=
    hr.num 4647709063751476 (-22) (by norm_num) (by norm_num) (by norm_num)
      (by norm_num) (by rw [abs_lt]; norm_num)
  have o1' : rnd (4647709063751476 / 4194304) = 4647709063751476 / 4194304 := by
    rw [← o1]; exact hr.exact (hr.mem _)
  have o2 : rnd (4647709063751476 / 4194304 / 42928032000) =
      7440083320897774 / 288230376151711744 :=
    hr.num 7440083320897774 (-58) (by norm_num) (by norm_num) (by norm_num)
      (by norm_num) (by rw [abs_lt]; norm_num)
  have o3 : rnd (7440083320897774 / 288230376151711744 / (7440083320897773 / 288230376151711744)) =
      4503599627370497 / 4503599627370496 :=
    hr.num 4503599627370497 (-52) (by norm_num) (by norm_num) (by norm_num)
      (by norm_num) (by rw [abs_lt]; norm_num)
  have t1 : rnd (7440083320897773 / 288230376151711744 * 7042000) = 6245740264148965 / 34359738368 :=
    hr.num 6245740264148965 (-35) (by norm_num) (by norm_num) (by norm_num)
      (by norm_num) (by rw [abs_lt]; norm_num)
  have t1' : rnd (6245740264148965 / 34359738368) = 6245740264148965 / 34359738368 := by
    rw [← t1]; exact hr.exact (hr.mem _)
  have t2 : rnd (6245740264148965 / 34359738368 / (7440083320897773 / 288230376151711744)) =
      7561289924608001 / 1073741824 :=
    hr.num 7561289924608001 (-30) (by norm_num) (by norm_num) (by norm_num)
      (by norm_num) (by rw [abs_lt]; norm_num)
  have t3 : rnd (7561289924608001 / 1073741824 / 7042000) = 4503599627370497 / 4503599627370496 :=
    hr.num 4503599627370497 (-52) (by norm_num) (by norm_num) (by norm_num)
      (by norm_num) (by rw [abs_lt]; norm_num)
  unfold state2keplerD
  simp only [nr, nv, dt, hx, hy, zero_div, hr.zero, v2, q, A, mul_zero, zero_mul, sub_zero, xa, xa',
    ex, neg_neg]
  constructor
  · have d : dotD rnd ⟨42928032000, 0, 0⟩ ⟨7440083320897773 / 288230376151711744, 0, 0⟩ =
        4647709063751476 / 4194304 := by
      unfold dotD
      simp only [mul_zero, hr.zero, add_zero, o1, o1']
    simp only [d, nN, ne, quotD]
    rw [if_neg (by norm_num), o2, Option.bind_some, if_neg (by norm_num), o3, Option.bind_some,
      acosD_above_one, turnD_none]
  · have d : dotD rnd ⟨7440083320897773 / 288230376151711744, 0, 0⟩ ⟨7042000, 0, 0⟩ =
        6245740264148965 / 34359738368 := by
      unfold dotD
      simp only [mul_zero, hr.zero, add_zero, t1, t1']
    simp only [d, ne, quotD]
    rw [if_neg (by norm_num), t2, Option.bind_some, if_neg (by norm_num), t3, Option.bind_some,
      acosD_above_one, turnD_none]

/-- **C120 (e)** A satellite on a circular polar orbit, 7001 km from the geocentre with velocity
7912045249/2^20 m/s: the eccentricity of `state2kepler_montenbruck` is NaN, the root of a negative
number. -/
theorem circular_nan_counterexample (hr : Nearest rnd) (fused : Bool) :
    montenbruckEccD rnd fused ⟨7001000, 0, 0⟩ ⟨0, 0, 7912045249 / 1048576⟩ 398600441800000 = none := by
  have dx : IsDouble (7001000 : ℝ) := by simpa using isDouble_int (K := ℝ) 7001000 (by norm_num)
  have nr : normD rnd fused ⟨7001000, 0, 0⟩ = 7001000 := by
    rw [normD_axis hr fused _ dx (half_range (by norm_num))]; norm_num
  have h1 : rnd (7001000 * (7912045249 / 1048576)) = 6924028598531125 / 131072 :=
    hr.num 6924028598531125 (-17) (by norm_num) (by norm_num) (by norm_num)
      (by norm_num) (by rw [abs_lt]; norm_num)
  have h1' : rnd (-(6924028598531125 / 131072)) = -(6924028598531125 / 131072) := by
    apply hr.exact
    rw [← h1]; exact (hr.mem _).neg
  have hc : crossD rnd ⟨7001000, 0, 0⟩ ⟨0, 0, 7912045249 / 1048576⟩ =
      ⟨0, -(6924028598531125 / 131072), 0⟩ := by
    unfold crossD
    simp only [zero_mul, mul_zero, hr.zero, zero_sub, sub_zero, h1, h1']
  have h2 : rnd (6924028598531125 / 131072 * (6924028598531125 / 131072)) =
      5322650324188427 * 524288 :=
    hr.num 5322650324188427 19 (by norm_num) (by norm_num) (by norm_num)
      (by norm_num) (by rw [abs_lt]; norm_num)
  have h2' : rnd (5322650324188427 * 524288) = 5322650324188427 * 524288 := by
    rw [← h2]; exact hr.exact (hr.mem _)
  have hh : normSqD rnd fused ⟨0, -(6924028598531125 / 131072), 0⟩ = 5322650324188427 * 524288 := by
    unfold normSqD
    cases fused
    · simp only [Bool.false_eq_true, if_false, mul_zero, hr.zero, zero_add, add_zero, neg_mul_neg,
        h2, h2']
    · simp only [if_true, mul_zero, hr.zero, zero_add, add_zero, neg_mul_neg, h2, h2']
  have v1 : rnd (7912045249 / 1048576 * (7912045249 / 1048576)) = 7641657717556576 / 134217728 :=
    hr.num 7641657717556576 (-27) (by norm_num) (by norm_num) (by norm_num)
      (by norm_num) (by rw [abs_lt]; norm_num)
  have v1' : rnd (7641657717556576 / 134217728) = 7641657717556576 / 134217728 := by
    rw [← v1]; exact hr.exact (hr.mem _)
  have hv : normSqD rnd fused ⟨0, 0, 7912045249 / 1048576⟩ = 7641657717556576 / 134217728 := by
    unfold normSqD
    cases fused
    · simp only [Bool.false_eq_true, if_false, mul_zero, hr.zero, zero_add, add_zero, v1, v1']
    · simp only [if_true, mul_zero, hr.zero, add_zero, v1]
  have p : rnd (5322650324188427 * 524288 / 398600441800000) = 7517266510164230 / 1073741824 :=
    hr.num 7517266510164230 (-30) (by norm_num) (by norm_num) (by norm_num)
      (by norm_num) (by rw [abs_lt]; norm_num)
  have t : rnd (2 / 7001000) = 5396219377654215 / 18889465931478580854784 :=
    hr.num 5396219377654215 (-74) (by norm_num) (by norm_num) (by norm_num)
      (by norm_num) (by rw [abs_lt]; norm_num)
  have w : rnd (7641657717556576 / 134217728 / 398600441800000) =
      5396219377898446 / 37778931862957161709568 :=
    hr.num 5396219377898446 (-75) (by norm_num) (by norm_num) (by norm_num)
      (by norm_num) (by rw [abs_lt]; norm_num)
  have d : rnd (5396219377654215 / 18889465931478580854784 -
      5396219377898446 / 37778931862957161709568) = 5396219377409984 / 37778931862957161709568 :=
    hr.num 5396219377409984 (-75) (by norm_num) (by norm_num) (by norm_num)
      (by norm_num) (by rw [abs_lt]; norm_num)
  have a : rnd (1 / (5396219377409984 / 37778931862957161709568)) = 7517266510164229 / 1073741824 :=
    hr.num 7517266510164229 (-30) (by norm_num) (by norm_num) (by norm_num)
      (by norm_num) (by rw [abs_lt]; norm_num)
  have pa : rnd (7517266510164230 / 1073741824 / (7517266510164229 / 1073741824)) =
      4503599627370497 / 4503599627370496 :=
    hr.num 4503599627370497 (-52) (by norm_num) (by norm_num) (by norm_num)
      (by norm_num) (by rw [abs_lt]; norm_num)
  have z : rnd (1 - 4503599627370497 / 4503599627370496) = -1 / 4503599627370496 := by
    rw [hr.exact ⟨-1, -52, by norm_num, by norm_num, by norm_num⟩]; norm_num
  unfold montenbruckEccD
  simp only [nr, hc, hh, hv, p, t, w, d, a, pa, z]
  unfold sqrtD
  rw [if_pos (by norm_num)]

/-- **C120 (f)** A satellite at (10485760, 0, 0.125) m: the right ascension is NaN.  The computed
distance is the first coordinate, the cosine of the declination less than 1, the quotient greater. -/
theorem right_ascension_nan_counterexample (hr : Nearest rnd) (fused : Bool) (turn : ℝ) :
    (pos2adD rnd fused turn ⟨10485760, 0, 1 / 8⟩).1 = none := by
  have i1 : rnd (10485760 * 10485760) = 10485760 * 10485760 :=
    hr.int 109951162777600 (by norm_num) (by norm_num)
  have i2 : rnd ((1 / 8 : ℝ) * (1 / 8)) = 1 / 64 := by
    rw [hr.exact ⟨1, -6, by norm_num, by norm_num, by norm_num⟩]; norm_num
  have i3 : rnd (10485760 * 10485760 + 1 / 64) = 10485760 * 10485760 + 1 / 64 :=
    hr.num 7036874417766401 (-6) (by norm_num) (by norm_num) (by norm_num)
      (by norm_num) (by rw [abs_lt]; norm_num)
  have i4 : rnd √(10485760 * 10485760 + 1 / 64) = 10485760 := by
    apply hr.num 5629499534213120 (-29) (by norm_num) (by norm_num) (by norm_num) (by norm_num)
    rw [abs_lt]
    constructor
    · have : √(10485760 * 10485760 + 1 / 64 : ℝ) < 10485760 + 1 / 1073741824 := by
        rw [Real.sqrt_lt' (by norm_num)]; norm_num
      norm_num at this ⊢; linarith
    · have : (10485760 : ℝ) < √(10485760 * 10485760 + 1 / 64) := by
        apply Real.lt_sqrt_of_sq_lt; norm_num
      norm_num at this ⊢; linarith
  have nr : normD rnd fused ⟨10485760, 0, 1 / 8⟩ = 10485760 := by
    unfold normD normSqD
    cases fused
    · simp only [Bool.false_eq_true, if_false, mul_zero, hr.zero, add_zero, i1, i2, i3, i4]
    · have : rnd (1 / 8 * (1 / 8) + 10485760 * 10485760) = 10485760 * 10485760 + 1 / 64 := by
        rw [← i3]; congr 1; norm_num
      simp only [if_true, mul_zero, zero_add, i1, this, i4]
  have l : quotD rnd 10485760 10485760 = some 1 := by
    unfold quotD
    rw [if_neg (by norm_num), div_self (by norm_num), hr.exact isDouble_one]
  -- the sine of the declination
  set n := rnd ((1 / 8 : ℝ) / 10485760) with hn
  have n1 : 119 / 10000000000 < n ∧ n < 1193 / 100000000000 := by
    have tiny : (2 : ℝ) ^ (-1022 : ℤ) ≤ 2 ^ (-30 : ℤ) :=
      zpow_le_zpow_right₀ (by norm_num) (by norm_num)
    have := abs_le.1 (hr.rel (x := (1 / 8 : ℝ) / 10485760) (by
      rw [abs_of_pos (by norm_num)]; refine tiny.trans ?_; norm_num))
    rw [abs_of_pos (by norm_num), ← hn] at this
    norm_num at this
    constructor <;> linarith [this.1, this.2]
  have hq : quotD rnd (1 / 8) 10485760 = some n := by
    unfold quotD
    rw [if_neg (by norm_num)]
  have ha : asinD rnd n = some (rnd (arcsin n)) := by
    unfold asinD
    rw [if_pos ⟨by linarith [n1.1], by linarith [n1.2]⟩]
  set d := rnd (arcsin n) with hd
  have d1 : 118 / 10000000000 < d ∧ d < 12 / 1000000000 := by
    have lo : n ≤ arcsin n := by
      have := Real.sin_le (Real.arcsin_nonneg.2 (by linarith [n1.1] : (0 : ℝ) ≤ n))
      rwa [Real.sin_arcsin (by linarith [n1.1]) (by linarith [n1.2])] at this
    have hi : arcsin n < 1194 / 100000000000 := by
      rw [Real.arcsin_lt_iff_lt_sin' ⟨by linarith [Real.pi_pos], by
        linarith [Real.pi_gt_three]⟩]
      have := Real.sin_gt_sub_cube (x := 1194 / 100000000000) (by norm_num)
      norm_num at this
      linarith [n1.2]
    have tiny : (2 : ℝ) ^ (-1022 : ℤ) ≤ 2 ^ (-30 : ℤ) :=
      zpow_le_zpow_right₀ (by norm_num) (by norm_num)
    have := abs_le.1 (hr.rel (x := arcsin n) (by
      rw [abs_of_pos (by linarith [n1.1])]
      refine tiny.trans ?_
      rw [show (2 : ℝ) ^ (-30 : ℤ) = 1 / 1073741824 by norm_num]
      linarith [n1.1]))
    rw [abs_of_pos (by linarith [n1.1]), ← hd,
      show (2 : ℝ) ^ (-53 : ℤ) = 1 / 9007199254740992 by norm_num] at this
    constructor <;> linarith [this.1, this.2, n1.1]
  have hcos : rnd (cos d) = 9007199254740991 / 9007199254740992 := by
    apply hr.num 9007199254740991 (-53) (by norm_num) (by norm_num) (by norm_num) (by norm_num)
    have hb := abs_le.1 (Real.cos_bound (x := d) (by rw [abs_of_pos (by linarith [d1.1])]; linarith [d1.2]))
    rw [abs_of_pos (by linarith [d1.1])] at hb
    have d2 : d ^ 2 < (12 / 1000000000) ^ 2 := by
      apply pow_lt_pow_left₀ d1.2 (by linarith [d1.1]) (by norm_num)
    have d2' : (118 / 10000000000 : ℝ) ^ 2 < d ^ 2 := by
      apply pow_lt_pow_left₀ d1.1 (by norm_num) (by norm_num)
    have d4 : d ^ 4 < (12 / 1000000000) ^ 4 := by
      apply pow_lt_pow_left₀ d1.2 (by linarith [d1.1]) (by norm_num)
    norm_num at hb d2 d2' d4 ⊢
    rw [abs_lt]
    constructor <;> linarith [hb.1, hb.2]
  have hl : quotD rnd 1 (9007199254740991 / 9007199254740992) =
      some (4503599627370497 / 4503599627370496) := by
    unfold quotD
    rw [if_neg (by norm_num), hr.num (y := 4503599627370497 / 4503599627370496) 4503599627370497 (-52)
      (by norm_num) (by norm_num) (by norm_num) (by norm_num) (by rw [abs_lt]; norm_num)]
  have hm : quotD rnd 0 10485760 = some 0 := by
    unfold quotD
    rw [if_neg (by norm_num), zero_div, hr.zero]
  unfold pos2adD
  simp only [nr, l, hq, hm, Option.bind_some, ha, hcos, hl, acosD_above_one, turnD_none]

/-- The hypotheses are satisfiable: an inclined orbit. -/
example : (pos2adD rnd64 false 6 ⟨3, 4, 5⟩).2.isSome := by
  have h : ∀ k : ℤ, 0 < k → k ≤ 5 → Ranged (k : ℝ) := fun k h1 h2 => by
    have k1 : (1 : ℝ) ≤ k := by exact_mod_cast h1
    have k2 : (k : ℝ) ≤ 5 := by exact_mod_cast h2
    refine ⟨isDouble_int k (by rw [abs_of_pos h1]; exact h2.trans (by norm_num)), Or.inr ⟨?_, ?_⟩⟩
    · exact half_range (by rw [abs_of_pos (by linarith)]; linarith)
    · rw [abs_of_pos (by linarith)]
      have : (2 : ℝ) ^ 3 ≤ 2 ^ 500 := pow_le_pow_right₀ (by norm_num) (by norm_num)
      refine le_trans ?_ this
      norm_num; linarith
  refine declination_number_partial rnd64_nearest false 6 ⟨3, 4, 5⟩ ⟨?_, ?_, ?_⟩ ?_
  · simpa using h 3 (by norm_num) (by norm_num)
  · simpa using h 4 (by norm_num) (by norm_num)
  · simpa using h 5 (by norm_num) (by norm_num)
  · intro hc
    have := congrArg V3.x hc
    norm_num at this

example : (state2keplerD rnd64 false 6 ⟨1, 0, 0⟩ ⟨0, 3, 4⟩ 1).i.isSome ∧
    (state2keplerD rnd64 false 6 ⟨1, 0, 0⟩ ⟨0, 3, 4⟩ 1).Omega.isSome := by
  have hr := rnd64_nearest (K := ℝ)
  have i3 : rnd64 (3 : ℝ) = 3 := hr.int 3 (by norm_num) (by norm_num)
  have i4 : rnd64 (4 : ℝ) = 4 := hr.int 4 (by norm_num) (by norm_num)
  have i5 : rnd64 (-4 : ℝ) = -4 := hr.int (-4) (by norm_num) (by norm_num)
  have hc : crossD rnd64 ⟨1, 0, 0⟩ ⟨0, 3, 4⟩ = ⟨0, -4, 3⟩ := by
    unfold crossD
    simp only [zero_mul, mul_zero, one_mul, hr.zero, sub_zero, zero_sub, i3, i4, i5]
  have rg : ∀ k : ℤ, k ≠ 0 → |k| ≤ 5 → Ranged (k : ℝ) := fun k h1 h2 => by
    have k1 : (1 : ℝ) ≤ |(k : ℝ)| := by exact_mod_cast Int.one_le_abs h1
    have k2 : |(k : ℝ)| ≤ 5 := by exact_mod_cast h2
    refine ⟨isDouble_int k (h2.trans (by norm_num)), Or.inr ⟨half_range (by linarith), ?_⟩⟩
    have : (2 : ℝ) ^ 3 ≤ 2 ^ 500 := pow_le_pow_right₀ (by norm_num) (by norm_num)
    refine le_trans ?_ this
    norm_num; linarith
  have := node_number_partial hr false 6 ⟨1, 0, 0⟩ ⟨0, 3, 4⟩ 1 (by
    rw [hc]
    exact ⟨ranged_zero, by simpa using rg (-4) (by norm_num) (by norm_num),
      by simpa using rg 3 (by norm_num) (by norm_num)⟩) (by
    rw [hc]
    intro h
    have := congrArg V3.y h
    norm_num at this)
  exact ⟨this.1, (this.2.2 (Or.inr (by rw [hc]; norm_num))).1⟩

end Verif.Float
