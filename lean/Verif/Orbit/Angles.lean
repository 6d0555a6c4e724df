import Verif.Orbit.Props
import Verif.Astro.KeplerConverge

/-
C46, continued: the argument of perigee and the mean anomaly of an elliptic, non-circular orbit.
-/
namespace Verif.Orbit

open Real Verif.Astro

/-- The perifocal position in polar form: some true anomaly. -/
theorem true_anomaly_exists (a e E : ℝ) (h0 : 0 ≤ e) (h1 : e < 1) :
    ∃ nu, cos E - e = (1 - e * cos E) * cos nu ∧ √((1 - e) * (1 + e)) * sin E = (1 - e * cos E) * sin nu := by
  have hf := sqrt_fac_sq e h0 h1
  have ht := sin_sq_add_cos_sq E
  have hr := rad_pos e E h0 h1
  have hsq : (cos E - e) ^ 2 + (√((1 - e) * (1 + e)) * sin E) ^ 2 = (1 - e * cos E) ^ 2 := by
    linear_combination sin E ^ 2 * hf + (1 - e ^ 2) * ht
  have habs : ‖(⟨cos E - e, √((1 - e) * (1 + e)) * sin E⟩ : ℂ)‖ = 1 - e * cos E := by
    rw [Complex.norm_def, Complex.normSq_apply]
    simp only
    rw [show (cos E - e) * (cos E - e) + √((1 - e) * (1 + e)) * sin E * (√((1 - e) * (1 + e)) * sin E)
      = (1 - e * cos E) ^ 2 by rw [← hsq]; ring, Real.sqrt_sq hr.le]
  refine ⟨Complex.arg ⟨cos E - e, √((1 - e) * (1 + e)) * sin E⟩, ?_, ?_⟩
  · have := Complex.norm_mul_cos_arg (⟨cos E - e, √((1 - e) * (1 + e)) * sin E⟩ : ℂ)
    rw [habs] at this
    simpa using this.symm
  · have := Complex.norm_mul_sin_arg (⟨cos E - e, √((1 - e) * (1 + e)) * sin E⟩ : ℂ)
    rw [habs] at this
    simpa using this.symm

/-- **C46** For a non-circular orbit the vector overload also recovers the argument of perigee
exactly, and the mean anomaly belonging to the eccentric anomaly the solver returned. -/
theorem angles_recovered_partial (norm : ℝ → ℝ) (hn : IsNorm norm) (GM : ℝ) (ele : Elements) (dt : ℝ)
    (h : Elliptic GM ele) (he : 0 < ele.e) (hi0 : 0 < ele.i) (hi1 : ele.i < π)
    (ho0 : 0 ≤ ele.omega) (ho1 : ele.omega < 2 * π) :
    let y := elements2state ele dt GM
    let b := state2elements norm y.1 y.2.1 GM
    b.omega = ele.omega ∧
      ∃ k : ℤ, b.M = (anomaly GM ele dt).1 - ele.e * sin (anomaly GM ele dt).1 + k * (2 * π) := by
  obtain ⟨a, e, i, O, o, M⟩ := ele
  obtain ⟨hg, ha, h0, h1⟩ := h
  simp only at *
  have hinv := state_invariants GM ⟨a, e, i, O, o, M⟩ dt ⟨hg, ha, h0, h1⟩
  simp only [elements2state] at hinv ⊢
  generalize (anomaly GM ⟨a, e, i, O, o, M⟩ dt).1 = E at hinv ⊢
  have hr := rad_pos e E h0 h1
  have hdot : ((matT O o i).mulVec (perifocalR a e E)).dot ((matT O o i).mulVec (perifocalV GM a e E))
      = √(GM * a) * (e * sin E) := by
    rw [(matT_rotation _ _ _).orth.dot, perifocal_dot GM _ _ _ ha h0 h1]
  obtain ⟨nu, hc, hs⟩ := true_anomaly_exists a e E h0 h1
  -- components of the position across and along the line of nodes
  have hz : ((matT O o i).mulVec (perifocalR a e E)).z = a * (1 - e * cos E) * sin i * sin (o + nu) := by
    simp only [matT, M3.mulVec, V3.dot, perifocalR, sin_add]
    linear_combination a * sin o * sin i * hc + a * cos o * sin i * hs
  have hx : ((matT O o i).mulVec (perifocalR a e E)).x * cos O + ((matT O o i).mulVec (perifocalR a e E)).y * sin O
      = a * (1 - e * cos E) * cos (o + nu) := by
    simp only [matT, M3.mulVec, V3.dot, perifocalR, cos_add]
    have ht := sin_sq_add_cos_sq O
    linear_combination a * cos o * hc - a * sin o * hs
      + (cos o * (a * (cos E - e)) - sin o * (a * √((1 - e) * (1 + e)) * sin E)) * ht
  generalize (matT O o i).mulVec (perifocalR a e E) = r at *
  generalize (matT O o i).mulVec (perifocalV GM a e E) = v at *
  have hR : 0 < r.norm := by
    rw [hinv.radius]
    exact mul_pos ha hr
  have hsa : (1 : ℝ) / (2 / r.norm - v.dot v / GM) = a := by
    have hen := hinv.energy
    have h2 : v.dot v = 2 * GM / r.norm - GM / a := by
      have : v.dot v = 2 * (-GM / (2 * a) + GM / r.norm) := by linarith
      rw [this]
      field_simp
      ring
    rw [h2]
    have : 2 / r.norm - (2 * GM / r.norm - GM / a) / GM = 1 / a := by
      field_simp
      ring
    rw [this]
    field_simp
  have hcE : 1 - r.norm / a = e * cos E := by
    rw [hinv.radius]
    field_simp
    ring
  have hsE : r.dot v / √(GM * a) = e * sin E := by
    rw [hdot]
    have : √(GM * a) ≠ 0 := (Real.sqrt_pos.2 (mul_pos hg ha)).ne'
    field_simp
  have he2 : e * cos E * (e * cos E) + e * sin E * (e * sin E) = e ^ 2 := by
    linear_combination e ^ 2 * sin_sq_add_cos_sq E
  have hH : 0 < √(GM * a * (1 - e ^ 2)) := Real.sqrt_pos.2 (mul_pos (mul_pos hg ha) (by nlinarith))
  have hsi : 0 < sin i := sin_pos_of_pos_of_lt_pi hi0 hi1
  have hHn := (momentum_tilt GM a e E O i r v hinv).1
  have hm := hinv.momentum
  generalize √(GM * a * (1 - e ^ 2)) = H at hH hm hHn
  have hhx : (r.cross v).x = H * sin i * sin O := by rw [hm]; simp [V3.smul, pole]; ring
  have hhy : (r.cross v).y = -(H * sin i * cos O) := by rw [hm]; simp [V3.smul, pole]; ring
  have hu1 : r.z * (r.cross v).norm = (a * (1 - e * cos E) * sin i * H) * sin (o + nu) := by
    rw [hHn, hz]
    ring
  have hu2 : -r.x * (r.cross v).y + r.y * (r.cross v).x = (a * (1 - e * cos E) * sin i * H) * cos (o + nu) := by
    rw [hhx, hhy]
    linear_combination H * sin i * hx
  have hn1 : √(1 - e ^ 2) * (e * sin E) = (e * (1 - e * cos E)) * sin nu := by
    rw [show 1 - e ^ 2 = (1 - e) * (1 + e) by ring]
    linear_combination e * hs
  have hn2 : e * cos E - e ^ 2 = (e * (1 - e * cos E)) * cos nu := by
    linear_combination e * hc
  unfold state2elements
  simp only
  rw [hsa, hcE, hsE, he2, hu1, hu2, hn1, hn2]
  obtain ⟨k1, hk1⟩ := atan2_polar (a * (1 - e * cos E) * sin i * H) (o + nu)
    (mul_pos (mul_pos (mul_pos ha hr) hsi) hH)
  obtain ⟨k2, hk2⟩ := atan2_polar (e * (1 - e * cos E)) nu (mul_pos he hr)
  obtain ⟨k3, hk3⟩ := atan2_polar e E he
  rw [hk1, hk2, hk3]
  refine ⟨norm_unique hn _ o (k1 - k2) ho0 ho1 (by push_cast; ring), ?_⟩
  obtain ⟨k4, hk4⟩ := hn.cong (E + k3 * (2 * π) - e * sin E)
  exact ⟨k3 + k4, by rw [hk4]; push_cast; ring⟩

/-- **C46** Hence, when the Kepler solver succeeds, the mean anomaly at `dt` is recovered up to
whole revolutions and an error proportional to the solver's tolerance of a hundred machine epsilons. -/
theorem mean_anomaly_recovered_partial (norm : ℝ → ℝ) (hn : IsNorm norm) (GM : ℝ) (ele : Elements) (dt : ℝ)
    (h : Elliptic GM ele) (he : 0 < ele.e) (hi0 : 0 < ele.i) (hi1 : ele.i < π)
    (ho0 : 0 ≤ ele.omega) (ho1 : ele.omega < 2 * π) (hok : (elements2state ele dt GM).2.2 = 0) :
    let y := elements2state ele dt GM
    let b := state2elements norm y.1 y.2.1 GM
    ∃ k : ℤ, |b.M - (ele.M + √(GM / (ele.a * ele.a * ele.a)) * dt + k * (2 * π))|
      ≤ (1 + ele.e) * (2 * (100 / 2 ^ 52) / (1 - ele.e)) := by
  rw [show (100 / 2 ^ 52 : ℝ) = keplerTol from rfl]
  obtain ⟨-, k, hk⟩ := angles_recovered_partial norm hn GM ele dt h he hi0 hi1 ho0 ho1
  simp only at hk ⊢
  rw [hk]
  obtain ⟨Es, hEs, -⟩ := kepler_unique ele.e
    (arg02pi (ele.M + √(GM / (ele.a * ele.a * ele.a)) * dt)) h.e0 h.e1
  have hacc := kepler_accurate ele.e (ele.M + √(GM / (ele.a * ele.a * ele.a)) * dt) keplerTol Es h.e0 h.e1 hok hEs
  obtain ⟨⟨k', hk'⟩, -⟩ := arg02pi_spec (ele.M + √(GM / (ele.a * ele.a * ele.a)) * dt)
  unfold anomaly at *
  generalize (kepler ele.e (ele.M + √(GM / (ele.a * ele.a * ele.a)) * dt) keplerTol).1 = E at *
  have hsin := abs_sin_sub_le E Es
  have hEs' : Es - ele.e * sin Es = _ := hEs
  rw [hk'] at hEs'
  refine ⟨k + k', ?_⟩
  have e1 : E - ele.e * sin E + k * (2 * π) - (ele.M + √(GM / (ele.a * ele.a * ele.a)) * dt + ((k + k' : ℤ) : ℝ) * (2 * π))
      = (E - Es) - ele.e * (sin E - sin Es) := by
    push_cast
    linear_combination hEs'
  rw [e1]
  calc |(E - Es) - ele.e * (sin E - sin Es)| ≤ |E - Es| + |ele.e * (sin E - sin Es)| := abs_sub _ _
    _ ≤ |E - Es| + ele.e * |E - Es| := by
      rw [abs_mul, abs_of_nonneg h.e0]
      have := mul_le_mul_of_nonneg_left hsin h.e0
      linarith
    _ = (1 + ele.e) * |E - Es| := by ring
    _ ≤ _ := mul_le_mul_of_nonneg_left hacc (by linarith [h.e0])

/-- **C46** For eccentricities up to 0.85 the solver always succeeds, so the conversion does and the mean anomaly is
recovered without further condition. -/
theorem mean_anomaly_moderate_partial (norm : ℝ → ℝ) (hn : IsNorm norm) (GM : ℝ) (ele : Elements) (dt : ℝ)
    (h : Elliptic GM ele) (he : 0 < ele.e) (hm : ele.e ≤ 17 / 20) (hi0 : 0 < ele.i) (hi1 : ele.i < π)
    (ho0 : 0 ≤ ele.omega) (ho1 : ele.omega < 2 * π) :
    let y := elements2state ele dt GM
    let b := state2elements norm y.1 y.2.1 GM
    y.2.2 = 0 ∧ ∃ k : ℤ, |b.M - (ele.M + √(GM / (ele.a * ele.a * ele.a)) * dt + k * (2 * π))|
      ≤ (1 + ele.e) * (2 * (100 / 2 ^ 52) / (1 - ele.e)) := by
  have hok : (elements2state ele dt GM).2.2 = 0 :=
    kepler_converges_partial _ _ _ h.e0 hm (by unfold keplerTol; norm_num)
  exact ⟨hok, mean_anomaly_recovered_partial norm hn GM ele dt h he hi0 hi1 ho0 ho1 hok⟩

/-! ### A concrete instance -/

/-- The normalisation exists: `norm_angle` by floor. -/
theorem isNorm_floor : IsNorm fun x => x - ⌊x / (2 * π)⌋ * (2 * π) := by
  have hp : 0 < 2 * π := by positivity
  refine ⟨fun x => ⟨-⌊x / (2 * π)⌋, by push_cast; ring⟩, fun x => ?_, fun x => ?_⟩
  · have h1 := Int.floor_le (x / (2 * π))
    rw [le_div_iff₀ hp] at h1
    linarith
  · have h2 := Int.lt_floor_add_one (x / (2 * π))
    rw [div_lt_iff₀ hp] at h2
    linarith

example : Elliptic 398600 ⟨7000, 1 / 100, 1, 2, 3, 4⟩ ∧ (0 : ℝ) < 1 ∧ (1 : ℝ) < π ∧ (3 : ℝ) < 2 * π :=
  ⟨⟨by norm_num, by norm_num, by norm_num, by norm_num⟩, by norm_num, by linarith [two_le_pi],
    by linarith [two_le_pi]⟩

end Verif.Orbit
