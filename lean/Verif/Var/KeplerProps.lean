import Verif.Var.KeplerLemmas

/-
C138: four conversions from a state to the elements of its orbit.
-/
namespace Verif.Var.Kepler

open Verif.Astro Verif.Orbit Real

/-! ### Common values -/

theorem cross_sq {k : Classic} {m : ℝ} {x v : V3} (F : Facts k m x v) : (x.cross v).dot (x.cross v) = k.h ^ 2 := by
  unfold V3.dot
  rw [F.hx, F.hy, F.hz]
  linear_combination k.h ^ 2 * sin k.i ^ 2 * sin_sq_add_cos_sq k.Omega + k.h ^ 2 * sin_sq_add_cos_sq k.i

theorem inc_arccos {k : Classic} (hk : Valid k) : arccos (k.h * cos k.i / k.h) = k.i := by
  rw [mul_div_cancel_left₀ _ hk.h.ne', arccos_cos hk.i0.le hk.i1.le]

theorem node_atan2 {k : Classic} (hk : Valid k) :
    atan2 (k.h * sin k.i * sin k.Omega) (k.h * sin k.i * cos k.Omega) = k.Omega :=
  atan2_polar_eq _ _ (mul_pos hk.h (sin_pos_of_pos_of_lt_pi hk.i0 hk.i1)) hk.O0 hk.O1

theorem p_over_r {k : Classic} {m : ℝ} (hk : Valid k) (hm : 0 < m) : k.h ^ 2 / m / rho k m = 1 + k.e * cos k.theta := by
  have := rad_pos' (f := k.theta) hk.e0 hk.e1
  have := hk.h
  unfold rho
  field_simp

theorem energy {k : Classic} {m : ℝ} {x v : V3} (F : Facts k m x v) (hk : Valid k) (hm : 0 < m) :
    v.dot v / 2 - m / √(x.dot x) = -(m ^ 2 / k.h ^ 2 * (1 - k.e * k.e) / 2) := by
  have hw := rad_pos' (f := k.theta) hk.e0 hk.e1
  have hh := hk.h
  rw [F.vv, F.r]
  unfold rho
  field_simp
  ring

theorem one_sub_sq_pos {k : Classic} (hk : Valid k) : 0 < 1 - k.e * k.e := by
  nlinarith [hk.e0, hk.e1]

theorem sqrt_pm {k : Classic} {m : ℝ} (hk : Valid k) (hm : 0 < m) : √(k.h ^ 2 / m / m) = k.h / m := by
  have hh := hk.h
  rw [show k.h ^ 2 / m / m = (k.h / m) ^ 2 by field_simp, Real.sqrt_sq (by positivity)]

theorem esv_eq {k : Classic} {m : ℝ} (hk : Valid k) (hm : 0 < m) :
    √(k.h ^ 2 / m / m) / rho k m * (rho k m * (m / k.h) * (k.e * sin k.theta)) = k.e * sin k.theta := by
  have hr := rho_pos hk hm
  have hh := hk.h
  rw [sqrt_pm hk hm]
  field_simp

theorem anomaly_atan2 {k : Classic} (hk : Valid k) : atan2 (k.e * sin k.theta) (k.e * cos k.theta) = k.theta :=
  atan2_polar_eq _ _ hk.e0 hk.f0 hk.f1.le

theorem ecc_sqrt {k : Classic} (hk : Valid k) :
    √(k.e * cos k.theta * (k.e * cos k.theta) + k.e * sin k.theta * (k.e * sin k.theta)) = k.e := by
  rw [show k.e * cos k.theta * (k.e * cos k.theta) + k.e * sin k.theta * (k.e * sin k.theta) = k.e ^ 2 by
    linear_combination k.e ^ 2 * sin_sq_add_cos_sq k.theta, Real.sqrt_sq hk.e0.le]

theorem ecc_energy_sqrt {k : Classic} {m : ℝ} (hk : Valid k) (hm : 0 < m) :
    √(1 + 2 * -(m ^ 2 / k.h ^ 2 * (1 - k.e * k.e) / 2) * k.h ^ 2 / m / m) = k.e := by
  have hh := hk.h
  rw [show 1 + 2 * -(m ^ 2 / k.h ^ 2 * (1 - k.e * k.e) / 2) * k.h ^ 2 / m / m = k.e ^ 2 by field_simp; ring,
    Real.sqrt_sq hk.e0.le]

theorem axis_pos {k : Classic} {m : ℝ} (hk : Valid k) (hm : 0 < m) : 0 < axis k m := by
  have := one_sub_sq_pos hk
  have := hk.h
  unfold axis
  positivity

/-- What a time of the perigee has to satisfy: Kepler's equation. -/
def PerigeeTime (k : Classic) (m t T : ℝ) : Prop :=
  ∃ E, IsEcc k.e k.theta E ∧ E - k.e * sin E = √(m / axis k m ^ 3) * (t - T)

/-- What a mean anomaly has to satisfy. -/
def MeanAnomaly (k : Classic) (M : ℝ) : Prop := ∃ E, IsEcc k.e k.theta E ∧ M = E - k.e * sin E

/-! ### Bernese -/

/-- **C138** The conversion after the Bernese software gives the elements of the orbit: semi-major axis, eccentricity,
inclination and node, the argument of the perigee up to whole turns, and the time of the perigee. -/
theorem bernese_recovers (k : Classic) (m t : ℝ) (hk : Valid k) (hm : 0 < m) :
    let b := bernese m (k.position m) (k.velocity m) t
    b.a = axis k m ∧ b.e = k.e ∧ b.i = k.i ∧ b.Omega = k.Omega ∧ (∃ n : ℤ, b.omega = k.omega + n * (2 * π)) ∧
      PerigeeTime k m t b.last := by
  have F := facts hk hm
  generalize k.position m = x at F
  generalize k.velocity m = v at F
  have hh := hk.h
  have hr := rho_pos hk hm
  have hsi := sin_pos_of_pos_of_lt_pi hk.i0 hk.i1
  have c0 : x.y * v.z - x.z * v.y = k.h * sin k.i * sin k.Omega := F.hx
  have c1 : -x.z * v.x + x.x * v.z = k.h * sin k.i * cos k.Omega := by
    have := F.hy
    simp only [V3.cross] at this
    linarith
  have c2 : x.x * v.y - x.y * v.x = k.h * cos k.i := F.hz
  have c3 : √(x.x * x.x + x.y * x.y + x.z * x.z) = rho k m := F.r
  have c4 : x.x * v.x + x.y * v.y + x.z * v.z = rho k m * (m / k.h) * (k.e * sin k.theta) := F.rv
  have hO := sin_sq_add_cos_sq k.Omega
  have c5 : √(k.h * sin k.i * sin k.Omega * (k.h * sin k.i * sin k.Omega) +
      k.h * sin k.i * cos k.Omega * (k.h * sin k.i * cos k.Omega)) = k.h * sin k.i := by
    rw [show k.h * sin k.i * sin k.Omega * (k.h * sin k.i * sin k.Omega) +
      k.h * sin k.i * cos k.Omega * (k.h * sin k.i * cos k.Omega) = (k.h * sin k.i) ^ 2 by
        linear_combination (k.h * sin k.i) ^ 2 * hO, Real.sqrt_sq (by positivity)]
  have c6 : k.h * sin k.i * sin k.Omega * (k.h * sin k.i * sin k.Omega) +
      k.h * sin k.i * cos k.Omega * (k.h * sin k.i * cos k.Omega) + k.h * cos k.i * (k.h * cos k.i) = k.h ^ 2 := by
    linear_combination (k.h * sin k.i) ^ 2 * hO + k.h ^ 2 * sin_sq_add_cos_sq k.i
  have c7 : atan2 (k.h * sin k.i) (k.h * cos k.i) = k.i := atan2_polar_eq _ _ hh (by linarith [hk.i0, pi_pos]) hk.i1.le
  have c8 : -cos k.i * sin k.Omega * x.x + cos k.i * cos k.Omega * x.y + sin k.i * x.z =
    rho k m * sin (k.omega + k.theta) := F.across
  obtain ⟨n, hn⟩ := atan2_polar (rho k m) (k.omega + k.theta) hr
  have hE := half_anomaly hk.e0 hk.e1 hk.f0 hk.f1
  have hax := axis_pos hk hm
  unfold bernese
  simp only [c0, c1, c2, c3, c4, c5, c6, c7, node_atan2 hk, p_over_r hk hm, add_sub_cancel_left, esv_eq hk hm, anomaly_atan2 hk,
    ecc_sqrt hk, F.along, c8, hn]
  refine ⟨rfl, trivial, trivial, trivial, ⟨n, by ring⟩, ?_⟩
  refine ⟨_, hE, ?_⟩
  have e1 : k.h ^ 2 / m / (1 - k.e * k.e) = axis k m := rfl
  rw [e1, show axis k m * axis k m * axis k m = axis k m ^ 3 by ring]
  have hs : √(m / axis k m ^ 3) ≠ 0 := (Real.sqrt_pos.mpr (by positivity)).ne'
  field_simp
  ring

/-! ### Beutler -/

theorem beutler_common (k : Classic) (m t : ℝ) (hk : Valid k) (hm : 0 < m) :
    ∃ n : ℤ, beutler m (k.position m) (k.velocity m) t = ⟨axis k m, k.e, k.omega + n * (2 * π), k.Omega, k.i,
      t - (arctan (√(1 + k.e * k.e) * sin k.theta / (k.e + cos k.theta)) -
        k.e * sin (arctan (√(1 + k.e * k.e) * sin k.theta / (k.e + cos k.theta)))) / √(m / axis k m ^ 3)⟩ := by
  have F := facts hk hm
  generalize k.position m = x at F
  generalize k.velocity m = v at F
  have hh := hk.h
  have hr := rho_pos hk hm
  have hax := axis_pos hk hm
  have c6 : k.h * sin k.i * sin k.Omega * (k.h * sin k.i * sin k.Omega) +
      k.h * sin k.i * cos k.Omega * (k.h * sin k.i * cos k.Omega) + k.h * cos k.i * (k.h * cos k.i) = k.h ^ 2 := by
    linear_combination (k.h * sin k.i) ^ 2 * sin_sq_add_cos_sq k.Omega + k.h ^ 2 * sin_sq_add_cos_sq k.i
  obtain ⟨n, hn⟩ := atan2_polar (rho k m) (k.omega + k.theta) hr
  refine ⟨n, ?_⟩
  have c9 : √(1 + 2 * k.h ^ 2 * -(m ^ 2 / k.h ^ 2 * (1 - k.e * k.e) / 2) / m / m) = k.e := by
    have := ecc_energy_sqrt hk hm
    rwa [mul_right_comm] at this
  unfold beutler
  simp only [F.hx, F.hy, F.hz, F.rv, neg_neg, c6, Real.sqrt_sq hh.le, node_atan2 hk, inc_arccos hk, energy F hk hm, c9]
  simp only [F.r, p_over_r hk hm, add_sub_cancel_left, esv_eq hk hm, anomaly_atan2 hk, F.along, F.across, hn]
  have e1 : k.h ^ 2 / m / (1 - k.e * k.e) = axis k m := rfl
  rw [e1, show m / axis k m / axis k m / axis k m = m / axis k m ^ 3 by field_simp]
  congr 1
  ring

/-- **C138** The conversion after Beutler gives all elements but the time of the perigee. -/
theorem beutler_partial (k : Classic) (m t : ℝ) (hk : Valid k) (hm : 0 < m) :
    let b := beutler m (k.position m) (k.velocity m) t
    b.a = axis k m ∧ b.e = k.e ∧ b.i = k.i ∧ b.Omega = k.Omega ∧ (∃ n : ℤ, b.omega = k.omega + n * (2 * π)) := by
  obtain ⟨n, hn⟩ := beutler_common k m t hk hm
  simp only [hn]
  exact ⟨trivial, trivial, trivial, trivial, n, rfl⟩

/-- **C138** With a root of 1 + e² in place of 1 - e², and no regard to the quadrant, the time of the perigee after
Beutler is wrong everywhere but at the perigee (and apogee, and where e + cos f = 0). -/
theorem beutler_time_counterexample (k : Classic) (m t : ℝ) (hk : Valid k) (hm : 0 < m) (hs : sin k.theta ≠ 0)
    (hc : k.e + cos k.theta ≠ 0) : ¬ PerigeeTime k m t (beutler m (k.position m) (k.velocity m) t).last := by
  rintro ⟨E, hE, hM⟩
  obtain ⟨n, hn⟩ := beutler_common k m t hk hm
  rw [hn] at hM
  simp only at hM
  have hax := axis_pos hk hm
  have hsq : √(m / axis k m ^ 3) ≠ 0 := (Real.sqrt_pos.mpr (by positivity)).ne'
  rw [show t - (t - (arctan (√(1 + k.e * k.e) * sin k.theta / (k.e + cos k.theta)) - k.e *
    sin (arctan (√(1 + k.e * k.e) * sin k.theta / (k.e + cos k.theta)))) / √(m / axis k m ^ 3)) =
      (arctan (√(1 + k.e * k.e) * sin k.theta / (k.e + cos k.theta)) - k.e *
    sin (arctan (√(1 + k.e * k.e) * sin k.theta / (k.e + cos k.theta)))) / √(m / axis k m ^ 3) by ring,
    mul_div_cancel₀ _ hsq] at hM
  have hEq : E = arctan (√(1 + k.e * k.e) * sin k.theta / (k.e + cos k.theta)) := by
    rcases lt_trichotomy E (arctan (√(1 + k.e * k.e) * sin k.theta / (k.e + cos k.theta))) with h | h | h
    · exact absurd hM (kepler_strict hk.e0 hk.e1 h).ne
    · exact h
    · exact absurd hM (kepler_strict hk.e0 hk.e1 h).ne'
  have hw := rad_pos' (f := k.theta) hk.e0 hk.e1
  have htan : tan E = √(1 + k.e * k.e) * sin k.theta / (k.e + cos k.theta) := by rw [hEq, tan_arctan]
  have hcE : cos E ≠ 0 := by
    intro h0
    have := hE.cos
    rw [h0, zero_mul] at this
    exact hc this.symm
  have htan' : tan E = √(1 - k.e * k.e) * sin k.theta / (k.e + cos k.theta) := by
    rw [tan_eq_sin_div_cos, ← hE.sin, ← hE.cos]
    field_simp
  rw [htan', div_left_inj' hc] at htan
  have h2 := mul_right_cancel₀ hs htan
  have h3 : √(1 - k.e * k.e) ^ 2 = √(1 + k.e * k.e) ^ 2 := congrArg (fun z => z ^ 2) h2
  rw [Real.sq_sqrt (one_sub_sq_pos hk).le, Real.sq_sqrt (by nlinarith [hk.e0])] at h3
  nlinarith [hk.e0]

/-! ### Tapley -/

theorem tapley_common (k : Classic) (m : ℝ) (hk : Valid k) (hm : 0 < m) :
    ∃ E, IsEcc k.e k.theta E ∧ tapley m (k.position m) (k.velocity m) = ⟨axis k m, k.e,
      arctan (sin (k.omega + k.theta) / cos (k.omega + k.theta)) - arctan (sin k.theta / cos k.theta), k.Omega, k.i,
      arctan (sin E / cos E) - k.e * sin E⟩ := by
  have F := facts hk hm
  generalize k.position m = x at F
  generalize k.velocity m = v at F
  have hh := hk.h
  have he := hk.e0
  have hr := rho_pos hk hm
  have hax := axis_pos hk hm
  have hsi := sin_pos_of_pos_of_lt_pi hk.i0 hk.i1
  have hw := rad_pos' (f := k.theta) hk.e0 hk.e1
  have h1 := one_sub_sq_pos hk
  have hE := half_anomaly hk.e0 hk.e1 hk.f0 hk.f1
  refine ⟨_, hE, ?_⟩
  generalize 2 * arctan (√((1 - k.e) / (1 + k.e)) * (sin (k.theta / 2) / cos (k.theta / 2))) = E at hE
  have ha : -m / -(m ^ 2 / k.h ^ 2 * (1 - k.e * k.e) / 2) / 2 = axis k m := by
    unfold axis
    field_simp
  have hcf : (k.h ^ 2 / m - rho k m) / rho k m / k.e = cos k.theta := by
    rw [sub_div, p_over_r hk hm, div_self hr.ne']
    field_simp
    ring
  have hsf : k.h ^ 2 / m / k.h / k.e * (rho k m * (m / k.h) * (k.e * sin k.theta)) / rho k m = sin k.theta := by
    field_simp
  have hcu : x.x / rho k m * cos k.Omega + x.y / rho k m * sin k.Omega = cos (k.omega + k.theta) := by
    have := F.along
    field_simp
    linarith
  have hsu : x.z / rho k m / sin k.i = sin (k.omega + k.theta) := by
    rw [F.z]
    field_simp
  have hra : rho k m / axis k m = (1 - k.e * k.e) / (1 + k.e * cos k.theta) := by
    unfold rho axis
    field_simp
  have hcE : rho k m * cos k.theta / axis k m + k.e = cos E := by
    have h2 : cos E = (k.e + cos k.theta) / (1 + k.e * cos k.theta) := by rw [eq_div_iff hw.ne']; exact hE.cos
    rw [mul_div_right_comm, hra, h2]
    field_simp
    ring
  have hsE : rho k m * sin k.theta / (axis k m * √(1 - k.e * k.e)) = sin E := by
    have hq : √(1 - k.e * k.e) * √(1 - k.e * k.e) = 1 - k.e * k.e := Real.mul_self_sqrt h1.le
    have hqp : 0 < √(1 - k.e * k.e) := Real.sqrt_pos.mpr h1
    have h2 : sin E = √(1 - k.e * k.e) * sin k.theta / (1 + k.e * cos k.theta) := by rw [eq_div_iff hw.ne']; exact hE.sin
    rw [show rho k m * sin k.theta / (axis k m * √(1 - k.e * k.e)) = rho k m / axis k m * sin k.theta / √(1 - k.e * k.e) by
      field_simp, hra, h2]
    generalize √(1 - k.e * k.e) = q at hq hqp
    rw [← hq]
    field_simp
  have hen := energy F hk hm
  rw [F.r] at hen
  unfold tapley
  simp only [cross_sq F, Real.sqrt_sq hh.le, F.hx, F.hy, F.hz, neg_neg, inc_arccos hk, node_atan2 hk, F.r, hen, ha,
    ecc_energy_sqrt hk hm, F.rv, hcf, hsf, hcu, hsu, hcE, hsE]

theorem ratio_pi {n : ℤ} (h1 : -(3 / 2 * π) < n * π) (h2 : n * π < 3 / 2 * π) : n = -1 ∨ n = 0 ∨ n = 1 := by
  have hp := pi_pos
  have a : (-2 : ℝ) < n := by nlinarith
  have b : (n : ℝ) < 2 := by nlinarith
  have a' : (-2 : ℤ) < n := by exact_mod_cast a
  have b' : n < (2 : ℤ) := by exact_mod_cast b
  omega

/-- **C138** The conversion after Tapley gives semi-major axis, eccentricity, inclination and node. The argument of the
perigee is right up to half turns, and right up to whole turns exactly if the cosines of the true anomaly and of the
argument of latitude have the same sign. The mean anomaly is right exactly if the position is on the half of the orbit,
seen from the centre, with the perigee. -/
theorem tapley_iff (k : Classic) (m : ℝ) (hk : Valid k) (hm : 0 < m) (hf : cos k.theta ≠ 0)
    (hu : cos (k.omega + k.theta) ≠ 0) (hc : k.e + cos k.theta ≠ 0) :
    let b := tapley m (k.position m) (k.velocity m)
    b.a = axis k m ∧ b.e = k.e ∧ b.i = k.i ∧ b.Omega = k.Omega ∧
      (∃ n : ℤ, b.omega = k.omega + n * π ∧ (Even n ↔ (0 < cos (k.omega + k.theta) ↔ 0 < cos k.theta))) ∧
      (MeanAnomaly k b.last ↔ 0 < k.e + cos k.theta) := by
  obtain ⟨E, hE, hb⟩ := tapley_common k m hk hm
  have hw := rad_pos' (f := k.theta) hk.e0 hk.e1
  simp only [hb]
  refine ⟨trivial, trivial, trivial, trivial, ?_, ?_⟩
  · rw [← tan_eq_sin_div_cos, ← tan_eq_sin_div_cos]
    obtain ⟨k1, e1, p1⟩ := arctan_tan_mod _ hu
    obtain ⟨k2, e2, p2⟩ := arctan_tan_mod _ hf
    refine ⟨k1 - k2, ?_, ?_⟩
    · rw [e1, e2]; push_cast; ring
    · rw [Int.even_sub, p1, p2]
  · have hcE : cos E ≠ 0 := by
      intro h0
      have := hE.cos
      rw [h0, zero_mul] at this
      exact hc this.symm
    have hpos : 0 < k.e + cos k.theta ↔ 0 < cos E := by
      rw [← hE.cos, mul_pos_iff_of_pos_right hw]
    rw [hpos, ← tan_eq_sin_div_cos]
    obtain ⟨n, e1, p1⟩ := arctan_tan_mod _ hcE
    rw [p1, e1]
    have b1 := arctan_lt_pi_div_two (tan E)
    have b2 := neg_pi_div_two_lt_arctan (tan E)
    rw [e1] at b1 b2
    have hn := ratio_pi (n := n) (by linarith [hE.hi]) (by linarith [hE.lo])
    constructor
    · rintro ⟨E', hE', hM⟩
      have := ecc_unique hk.e0 hk.e1 hE' hE
      subst this
      have h0 : (n : ℝ) * π = 0 := by linarith
      have h1 : (n : ℝ) = 0 := by
        rcases mul_eq_zero.mp h0 with h | h
        · exact h
        · exact absurd h pi_ne_zero
      have h2 : n = 0 := by exact_mod_cast h1
      rw [h2]
      exact Even.zero
    · intro hev
      have h2 : n = 0 := by
        rcases hn with h | h | h
        · rw [h] at hev; exact absurd hev (by decide)
        · exact h
        · rw [h] at hev; exact absurd hev (by decide)
      refine ⟨E, hE, ?_⟩
      rw [h2]
      simp

/-- **C138** On the half of the orbit away from the perigee the mean anomaly after Tapley is wrong, and where the
cosines of true anomaly and argument of latitude differ in sign the argument of the perigee is off by half a turn. -/
theorem tapley_quadrant_counterexample (k : Classic) (m : ℝ) (hk : Valid k) (hm : 0 < m) (hu : 0 < cos (k.omega + k.theta))
    (hc : k.e + cos k.theta < 0) :
    ¬ MeanAnomaly k (tapley m (k.position m) (k.velocity m)).last ∧
      ¬ ∃ n : ℤ, (tapley m (k.position m) (k.velocity m)).omega = k.omega + n * (2 * π) := by
  have hcf : cos k.theta < 0 := by linarith [hk.e0]
  obtain ⟨-, -, -, -, ⟨n, hn, hev⟩, hM⟩ := tapley_iff k m hk hm hcf.ne hu.ne' hc.ne
  refine ⟨fun h => absurd (hM.mp h) (not_lt.mpr hc.le), ?_⟩
  rintro ⟨l, hl⟩
  rw [hn] at hl
  have h1 : (n : ℝ) = 2 * l := by
    have : ((n : ℝ) - 2 * l) * π = 0 := by linarith
    rcases mul_eq_zero.mp this with h | h
    · linarith
    · exact absurd h pi_ne_zero
  have h2 : n = 2 * l := by exact_mod_cast h1
  have h3 := hev.mp ⟨l, by omega⟩
  exact absurd (h3.mp hu) (not_lt.mpr hcf.le)

/-! ### Schwarz -/

theorem ecc_vector {k : Classic} {m : ℝ} (hk : Valid k) (hm : 0 < m) :
    let x := k.position m
    let v := k.velocity m
    let c := v.cross (x.cross v)
    (⟨c.x / m - x.x / rho k m, c.y / m - x.y / rho k m, c.z / m - x.z / rho k m⟩ : V3) =
      ((node k.Omega).smul (k.e * cos k.omega)).add ((quarter k.Omega k.i).smul (k.e * sin k.omega)) := by
  have F := facts hk hm
  have hr := rho_pos hk hm
  have hh := hk.h
  have hO := sin_sq_add_cos_sq k.Omega
  have hi := sin_sq_add_cos_sq k.i
  have hcross : (k.position m).cross (k.velocity m) = (pole k.Omega k.i).smul k.h := by
    ext
    · rw [F.hx]; simp only [V3.smul, pole]; ring
    · rw [F.hy]; simp only [V3.smul, pole]; ring
    · rw [F.hz]; simp only [V3.smul, pole]
  simp only [hcross]
  have hpos : k.position m = (((node k.Omega).smul (cos (k.omega + k.theta))).add
      ((quarter k.Omega k.i).smul (sin (k.omega + k.theta)))).smul (rho k m) := rfl
  rw [hpos]
  unfold Classic.velocity
  ext
  · simp only [V3.smul, V3.add, V3.cross, node, quarter, pole]
    field_simp
    linear_combination (cos k.Omega * (cos (k.omega + k.theta) + k.e * cos k.omega)) * hi
  · simp only [V3.smul, V3.add, V3.cross, node, quarter, pole]
    field_simp
    linear_combination (sin k.Omega * (cos (k.omega + k.theta) + k.e * cos k.omega)) * hi
  · simp only [V3.smul, V3.add, V3.cross, node, quarter, pole]
    field_simp
    linear_combination (sin k.i * (sin (k.omega + k.theta) + k.e * sin k.omega)) * hO

theorem arccos_cos_abs {t : ℝ} (h1 : -π < t) (h2 : t ≤ π) : arccos (cos t) = |t| := by
  rw [← cos_abs t, arccos_cos (abs_nonneg t) (abs_le.mpr ⟨h1.le, h2⟩)]

/-- **C138** The conversion after Schwarz gives semi-major axis, eccentricity, inclination and mean anomaly; of the node
and of the argument of the perigee it gives the absolute value. -/
theorem schwarz_partial (k : Classic) (m : ℝ) (hk : Valid k) (hm : 0 < m) (o0 : -π < k.omega) (o1 : k.omega ≤ π) :
    let b := schwarz m (k.position m) (k.velocity m)
    b.a = axis k m ∧ b.e = k.e ∧ b.i = k.i ∧ b.Omega = |k.Omega| ∧ b.omega = |k.omega| ∧ MeanAnomaly k b.last := by
  have F := facts hk hm
  have hev := ecc_vector hk hm
  have hpos : k.position m = (((node k.Omega).smul (cos (k.omega + k.theta))).add
      ((quarter k.Omega k.i).smul (sin (k.omega + k.theta)))).smul (rho k m) := rfl
  have hh := hk.h
  have he := hk.e0
  have hr := rho_pos hk hm
  have hsi := sin_pos_of_pos_of_lt_pi hk.i0 hk.i1
  have hw := rad_pos' (f := k.theta) hk.e0 hk.e1
  have h1 := one_sub_sq_pos hk
  have hO := sin_sq_add_cos_sq k.Omega
  have hi := sin_sq_add_cos_sq k.i
  have hom := sin_sq_add_cos_sq k.omega
  simp only at hev
  have hee : (((node k.Omega).smul (k.e * cos k.omega)).add ((quarter k.Omega k.i).smul (k.e * sin k.omega))).dot
      (((node k.Omega).smul (k.e * cos k.omega)).add ((quarter k.Omega k.i).smul (k.e * sin k.omega))) = k.e ^ 2 := by
    simp only [V3.smul, V3.add, V3.dot, node, quarter]
    linear_combination (k.e ^ 2 * (cos k.omega ^ 2 + sin k.omega ^ 2 * cos k.i ^ 2)) * hO + k.e ^ 2 * sin k.omega ^ 2 * hi +
      k.e ^ 2 * hom
  have hex : (((node k.Omega).smul (k.e * cos k.omega)).add ((quarter k.Omega k.i).smul (k.e * sin k.omega))).dot
      (k.position m) = k.e * rho k m * cos k.theta := by
    have hf1 : cos k.theta = cos (k.omega + k.theta) * cos k.omega + sin (k.omega + k.theta) * sin k.omega := by
      rw [← cos_sub]; congr 1; ring
    rw [hpos, hf1]
    simp only [V3.smul, V3.add, V3.dot, node, quarter]
    generalize sin (k.omega + k.theta) = su
    generalize cos (k.omega + k.theta) = cu
    linear_combination k.e * rho k m * (cu * cos k.omega + su * sin k.omega * cos k.i ^ 2) * hO +
      k.e * rho k m * su * sin k.omega * hi
  have hnn : √(V3.dot ⟨-(-(k.h * sin k.i * cos k.Omega)), k.h * sin k.i * sin k.Omega, 0⟩
      ⟨-(-(k.h * sin k.i * cos k.Omega)), k.h * sin k.i * sin k.Omega, 0⟩) = k.h * sin k.i := by
    rw [show V3.dot ⟨-(-(k.h * sin k.i * cos k.Omega)), k.h * sin k.i * sin k.Omega, 0⟩
      ⟨-(-(k.h * sin k.i * cos k.Omega)), k.h * sin k.i * sin k.Omega, 0⟩ = (k.h * sin k.i) ^ 2 by
        simp only [V3.dot]
        linear_combination (k.h * sin k.i) ^ 2 * hO, Real.sqrt_sq (by positivity)]
  have hne : V3.dot ⟨-(-(k.h * sin k.i * cos k.Omega)), k.h * sin k.i * sin k.Omega, 0⟩
      (((node k.Omega).smul (k.e * cos k.omega)).add ((quarter k.Omega k.i).smul (k.e * sin k.omega))) =
      k.h * sin k.i * (k.e * cos k.omega) := by
    simp only [V3.smul, V3.add, V3.dot, node, quarter]
    linear_combination k.h * sin k.i * k.e * cos k.omega * hO
  have hsign : rho k m * (m / k.h) * (k.e * sin k.theta) < 0 ↔ k.theta < 0 := by
    have hp : 0 < rho k m * (m / k.h) * k.e := by positivity
    rw [show rho k m * (m / k.h) * (k.e * sin k.theta) = rho k m * (m / k.h) * k.e * sin k.theta by ring]
    constructor
    · intro h
      by_contra hc
      have := sin_nonneg_of_nonneg_of_le_pi (not_lt.mp hc) hk.f1.le
      nlinarith [mul_nonneg hp.le this]
    · intro h
      exact mul_neg_of_pos_of_neg hp (sin_neg_of_neg_of_neg_pi_lt h hk.f0)
  have hta : tan ((open Classical in if rho k m * (m / k.h) * (k.e * sin k.theta) < 0 then 2 * π - |k.theta| else |k.theta|) / 2) =
      sin (k.theta / 2) / cos (k.theta / 2) := by
    rw [← tan_eq_sin_div_cos]
    by_cases h : k.theta < 0
    · rw [if_pos (hsign.mpr h), abs_of_neg h, show (2 * π - -k.theta) / 2 = k.theta / 2 + π by ring, tan_add_pi]
    · rw [if_neg (fun hc => h (hsign.mp hc)), abs_of_nonneg (not_lt.mp h)]
  have hq : ∀ y, 2 * atan2 y (√((1 + k.e) / (1 - k.e))) = 2 * arctan (√((1 - k.e) / (1 + k.e)) * y) := by
    intro y
    have h2 : 0 < (1 + k.e) / (1 - k.e) := div_pos (by linarith) (by linarith [hk.e1])
    rw [atan2_right (Real.sqrt_pos.mpr h2), ← inv_div (1 + k.e) (1 - k.e), Real.sqrt_inv]
    congr 2
    rw [div_eq_inv_mul]
  have ha : 1 / (2 / rho k m - (k.velocity m).dot (k.velocity m) / m) = axis k m := by
    rw [F.vv]
    unfold rho axis
    rw [one_div, inv_eq_iff_eq_inv, inv_div]
    field_simp
    ring
  have e1 : k.e * rho k m * cos k.theta / k.e / rho k m = cos k.theta := by field_simp
  have e2 : -(-(k.h * sin k.i * cos k.Omega)) / (k.h * sin k.i) = cos k.Omega := by field_simp
  have e3 : k.h * sin k.i * (k.e * cos k.omega) / (k.h * sin k.i) / k.e = cos k.omega := by field_simp
  unfold schwarz
  simp only [F.r, hev, hee, hex, Real.sqrt_sq he.le, F.hx, F.hy, F.hz, hnn, hne, F.rv, cross_sq F, Real.sqrt_sq hh.le,
    inc_arccos hk, ha, e1, e2, e3, arccos_cos_abs hk.f0 hk.f1.le, arccos_cos_abs hk.O0 hk.O1, arccos_cos_abs o0 o1, hta, hq]
  exact ⟨trivial, trivial, trivial, trivial, trivial, _, half_anomaly hk.e0 hk.e1 hk.f0 hk.f1, rfl⟩

/-- **C138** Node and argument of the perigee after Schwarz are wrong, and not only by whole turns, for every orbit where
they are in the second half of the circle. -/
theorem schwarz_half_counterexample (k : Classic) (m : ℝ) (hk : Valid k) (hm : 0 < m) (o0 : -π < k.omega) (o1 : k.omega < 0)
    (O1 : k.Omega < 0) :
    sin (schwarz m (k.position m) (k.velocity m)).Omega ≠ sin k.Omega ∧
      sin (schwarz m (k.position m) (k.velocity m)).omega ≠ sin k.omega := by
  obtain ⟨-, -, -, h1, h2, -⟩ := schwarz_partial k m hk hm o0 (by linarith [pi_pos])
  rw [h1, h2, abs_of_neg O1, abs_of_neg o1, sin_neg, sin_neg]
  have a := sin_neg_of_neg_of_neg_pi_lt O1 hk.O0
  have b := sin_neg_of_neg_of_neg_pi_lt o1 o0
  constructor <;> intro h <;> linarith

/-! ### The program -/

/-- **C138** The program converts the last record of the file once more and counts one line too many (for an empty file:
one line, with numbers that were never set). -/
theorem test_counterexample {S : Type} (file : List S) (junk : S) :
    testLoop file junk 0 = (file ++ [(file.getLast?).getD junk], file.length + 1) := by
  have key : ∀ (file : List S) (cur : S) (n : Nat),
      testLoop file cur n = (file ++ [(file.getLast?).getD cur], n + file.length + 1) := by
    intro file
    induction file with
    | nil => intro cur n; simp [testLoop]
    | cons s rest ih =>
      intro cur n
      simp only [testLoop, ih s (n + 1)]
      refine Prod.ext ?_ ?_
      · simp only [List.cons_append]
        rw [List.getLast?_cons, Option.getD_some]
      · simp only [List.length_cons]
        omega
  rw [key, Nat.zero_add]

/-! ### Examples -/

/-- A polar ellipse. -/
noncomputable def ex : Classic := ⟨1, π / 2, -(π / 2), 1 / 2, -(π / 4), π / 4⟩

theorem ex_valid : Valid ex := by
  have := pi_pos
  refine ⟨?_, ?_, ?_, ?_, ?_, ?_, ?_, ?_, ?_⟩ <;> simp only [ex] <;> linarith

example : PerigeeTime ex 1 5 (bernese 1 (ex.position 1) (ex.velocity 1) 5).last ∧
    ¬ PerigeeTime ex 1 5 (beutler 1 (ex.position 1) (ex.velocity 1) 5).last := by
  refine ⟨(bernese_recovers ex 1 5 ex_valid one_pos).2.2.2.2.2, beutler_time_counterexample ex 1 5 ex_valid one_pos ?_ ?_⟩
  · simp only [ex]
    exact (sin_pos_of_pos_of_lt_pi (by linarith [pi_pos]) (by linarith [pi_pos])).ne'
  · simp only [ex]
    have : 0 < cos (π / 4) := cos_pos_of_mem_Ioo ⟨by linarith [pi_pos], by linarith [pi_pos]⟩
    linarith

example : (schwarz 1 (ex.position 1) (ex.velocity 1)).Omega = π / 2 := by
  have := pi_pos
  rw [(schwarz_partial ex 1 ex_valid one_pos (by simp only [ex]; linarith) (by simp only [ex]; linarith)).2.2.2.1]
  simp only [ex, abs_neg]
  exact abs_of_pos (by linarith)

/-- An ellipse with the satellite near the apogee, over the node. -/
noncomputable def ex2 : Classic := ⟨1, π / 2, 0, 1 / 4, -(2 * π / 3), 2 * π / 3⟩

example : ¬ MeanAnomaly ex2 (tapley 1 (ex2.position 1) (ex2.velocity 1)).last := by
  have := pi_pos
  have hv : Valid ex2 := by
    refine ⟨?_, ?_, ?_, ?_, ?_, ?_, ?_, ?_, ?_⟩ <;> simp only [ex2] <;> linarith
  refine (tapley_quadrant_counterexample ex2 1 hv one_pos ?_ ?_).1
  · simp [ex2]
  · simp only [ex2]
    rw [show 2 * π / 3 = π - π / 3 by ring, cos_pi_sub, cos_pi_div_three]
    norm_num

example : testLoop [1, 2, 3] 0 0 = ([1, 2, 3, 3], 4) := rfl

end Verif.Var.Kepler
