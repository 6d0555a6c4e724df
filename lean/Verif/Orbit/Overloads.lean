import Verif.Orbit.Props

/-
C47 (the conversions agree) and C48 (the perifocal matrix).
-/
namespace Verif.Orbit

open Real Verif.Astro

/-! ### C47 -/

/-- **C47 (partial)** The vector overload and `propagate_state` return the same state. -/
theorem overloads_agree_partial (GM : ℝ) (ele : Elements) (dt : ℝ) :
    propagateState GM ele dt = ((elements2state ele dt GM).1, (elements2state ele dt GM).2.1) := by
  unfold propagateState elements2state
  simp only
  rw [← matT_eq]

/-- **C47** The Eigen overload is the vector overload with node and argument of perigee exchanged. -/
theorem eigen_exchanges (GM : ℝ) (ele : Elements) (dt : ℝ) :
    elements2stateE GM dt ele = elements2state { ele with Omega := ele.omega, omega := ele.Omega } dt GM := by
  unfold elements2stateE elements2state anomaly
  simp only
  rw [matR_transpose]

/-- **C47 (partial)** So the Eigen overload agrees when node and argument of perigee do. -/
theorem eigen_agrees_partial (GM : ℝ) (ele : Elements) (dt : ℝ) (h : ele.Omega = ele.omega) :
    elements2stateE GM dt ele = elements2state ele dt GM := by
  rw [eigen_exchanges]
  congr 1
  obtain ⟨a, e, i, O, o, M⟩ := ele
  simp only at h
  subst h
  rfl

/-- A circular orbit over the poles, the satellite in the node. -/
noncomputable def polar : Elements := ⟨1, 0, π / 2, π / 2, 0, 0⟩

theorem arg02pi_zero : arg02pi 0 = 0 := by simp [arg02pi, fmod]

theorem tol_nonneg : 0 ≤ keplerTol := by
  unfold keplerTol
  positivity

theorem polar_anomaly : (anomaly 1 polar 0).1 = 0 := by
  unfold anomaly polar
  simp only
  rw [circular _ _ tol_nonneg]
  simp [arg02pi_zero]

theorem polar_position : perifocalR polar.a polar.e (anomaly 1 polar 0).1 = ⟨1, 0, 0⟩ := by
  rw [polar_anomaly]
  simp [perifocalR, polar]

/-- **C47** The Eigen overload places a satellite at the ascending node of a polar orbit over the
pole. -/
theorem eigen_disagrees_counterexample : Elliptic 1 polar ∧
    (elements2state polar 0 1).1 = ⟨0, 1, 0⟩ ∧ (elements2stateE 1 0 polar).1 = ⟨0, 0, 1⟩ := by
  refine ⟨⟨by norm_num, by norm_num [polar], by norm_num [polar], by norm_num [polar]⟩, ?_, ?_⟩
  · unfold elements2state
    simp only
    rw [polar_position]
    ext <;> simp [matT, polar, M3.mulVec, V3.dot]
  · unfold elements2stateE
    simp only
    rw [polar_position, matR_transpose]
    ext <;> simp [matT, polar, M3.mulVec, V3.dot]

/-- **C47** By way of the perifocal functions the same satellite is not even at the right distance. -/
theorem perifocal_disagrees_counterexample :
    (perifocal2equatorial polar (elements2perifocal 1 polar 0)).1 = ⟨0, 1, 1⟩ := by
  unfold perifocal2equatorial elements2perifocal
  simp only
  rw [polar_position]
  ext <;> simp [p2eMatrix, polar, M3.mulVec, V3.dot]

/-! ### C48 -/

/-- **C48** Exactly when the perifocal matrix is orthogonal: in the plane of the equator, when the
node and the argument of perigee are the same angle, or when they are opposite on a polar orbit. -/
theorem p2e_orthogonal_iff (Omega omega i : ℝ) : M3.Orthogonal (p2eMatrix Omega omega i) ↔
    sin i = 0 ∨ (sin Omega = sin omega ∧ cos Omega = cos omega) ∨
      (cos i = 0 ∧ sin Omega = -sin omega ∧ cos Omega = -cos omega) := by
  have hO := sin_sq_add_cos_sq Omega
  have ho := sin_sq_add_cos_sq omega
  have hi := sin_sq_add_cos_sq i
  constructor
  · intro h
    have h02 : (M3.mul (p2eMatrix Omega omega i).transpose (p2eMatrix Omega omega i)).r0.z = 0 := by rw [h]; rfl
    have h12 : (M3.mul (p2eMatrix Omega omega i).transpose (p2eMatrix Omega omega i)).r1.z = 0 := by rw [h]; rfl
    have h00 : (M3.mul (p2eMatrix Omega omega i).transpose (p2eMatrix Omega omega i)).r0.x = 1 := by rw [h]; rfl
    have h01 : (M3.mul (p2eMatrix Omega omega i).transpose (p2eMatrix Omega omega i)).r0.y = 0 := by rw [h]; rfl
    simp only [M3.mul, M3.mulVec, M3.transpose, V3.dot, p2eMatrix] at h02 h12 h00 h01
    generalize sin Omega = sO at *
    generalize cos Omega = cO at *
    generalize sin omega = so at *
    generalize cos omega = co at *
    generalize sin i = si at *
    generalize cos i = ci at *
    by_cases hsi : si = 0
    · exact Or.inl hsi
    · right
      by_cases hci : ci = 0
      · subst hci
        have hsi2 : si ^ 2 = 1 := by linarith
        have a1 : sO ^ 2 = so ^ 2 := by linear_combination h00 - ho - sO ^ 2 * hsi2 - co ^ 2 * hO
        have a2 : sO * cO = so * co := by linear_combination h01 - sO * cO * hsi2 + so * co * hO
        have a3 : cO ^ 2 = co ^ 2 := by linarith
        have hfac : (sO - so) * (sO + so) = 0 := by linear_combination a1
        rcases mul_eq_zero.1 hfac with h1 | h1
        · have e1 : sO = so := by linarith
          subst e1
          by_cases hs0 : sO = 0
          · have hfac2 : (cO - co) * (cO + co) = 0 := by linear_combination a3
            rcases mul_eq_zero.1 hfac2 with h2 | h2
            · exact Or.inl ⟨rfl, by linarith⟩
            · exact Or.inr ⟨rfl, by rw [hs0]; ring, by linarith⟩
          · exact Or.inl ⟨rfl, mul_left_cancel₀ hs0 a2⟩
        · have e1 : sO = -so := by linarith
          by_cases hs0 : so = 0
          · have hfac2 : (cO - co) * (cO + co) = 0 := by linear_combination a3
            rcases mul_eq_zero.1 hfac2 with h2 | h2
            · exact Or.inl ⟨by rw [e1, hs0]; ring, by linarith⟩
            · exact Or.inr ⟨rfl, e1, by linarith⟩
          · refine Or.inr ⟨rfl, e1, ?_⟩
            rw [e1] at a2
            apply mul_left_cancel₀ hs0
            linear_combination -a2
      · left
        have hne : si * ci ≠ 0 := mul_ne_zero hsi hci
        constructor
        · apply mul_left_cancel₀ hne
          linear_combination h02 + so * ci * si * hO
        · apply mul_left_cancel₀ hne
          linear_combination h12 + co * ci * si * hO
  · intro h
    unfold M3.Orthogonal
    rcases h with h | h | h
    · have hci : cos i ^ 2 = 1 := by rw [h] at hi; linarith
      ext <;> simp only [M3.mul, M3.mulVec, M3.transpose, V3.dot, p2eMatrix, M3.one, h] <;>
        generalize sin Omega = sO at * <;> generalize cos Omega = cO at * <;>
        generalize sin omega = so at * <;> generalize cos omega = co at * <;>
        generalize cos i = ci at *
      · linear_combination co ^ 2 * hO + so ^ 2 * ci ^ 2 * hO + so ^ 2 * hci + ho
      · linear_combination -co * so * hO + so * co * ci ^ 2 * hO + so * co * hci
      · ring
      · linear_combination -co * so * hO + so * co * ci ^ 2 * hO + so * co * hci
      · linear_combination so ^ 2 * hO + co ^ 2 * ci ^ 2 * hO + co ^ 2 * hci + ho
      · ring
      · ring
      · ring
      · linear_combination hci
    · have : p2eMatrix Omega omega i = matT Omega omega i := by
        unfold p2eMatrix matT
        simp only [h.1, h.2]
      rw [this]
      exact (matT_rotation _ _ _).orth
    · obtain ⟨h1, h2, h3⟩ := h
      have hsi : sin i ^ 2 = 1 := by rw [h1] at hi; linarith
      ext <;> simp only [M3.mul, M3.mulVec, M3.transpose, V3.dot, p2eMatrix, M3.one, h1, h2, h3] <;>
        generalize sin omega = so at * <;> generalize cos omega = co at * <;>
        generalize sin i = si at *
      · linear_combination co ^ 2 * ho + so ^ 2 * hsi + ho
      · linear_combination -co * so * ho + so * co * hsi
      · ring
      · linear_combination -co * so * ho + so * co * hsi
      · linear_combination so ^ 2 * ho + co ^ 2 * hsi + ho
      · ring
      · ring
      · ring
      · linear_combination si ^ 2 * ho + hsi

/-- **C48 (partial: only for these angles)** The inverse conversion undoes the conversion. -/
theorem perifocal_round_trip_partial (ele : Elements) (y : V3 × V3)
    (h : sin ele.i = 0 ∨ (sin ele.Omega = sin ele.omega ∧ cos ele.Omega = cos ele.omega)) :
    equatorial2perifocal ele (perifocal2equatorial ele y) = y := by
  have ho : M3.Orthogonal (p2eMatrix ele.Omega ele.omega ele.i) := by
    rw [p2e_orthogonal_iff]
    rcases h with h | h
    · exact Or.inl h
    · exact Or.inr (Or.inl h)
  unfold equatorial2perifocal perifocal2equatorial
  simp only
  rw [← M3.mul_mulVec, ← M3.mul_mulVec, show M3.mul _ _ = M3.one from ho, M3.one_mulVec, M3.one_mulVec]

/-- **C48** The matrix is not a rotation, and the inverse conversion does not undo the conversion. -/
theorem perifocal_counterexample : ∃ ele : Elements, ¬ M3.Orthogonal (p2eMatrix ele.Omega ele.omega ele.i) ∧
    ∃ y, equatorial2perifocal ele (perifocal2equatorial ele y) ≠ y := by
  refine ⟨polar, ?_, (⟨1, 0, 0⟩, ⟨0, 0, 0⟩), ?_⟩
  · rw [p2e_orthogonal_iff]
    simp [polar]
  · intro h
    have h1 : (equatorial2perifocal polar (perifocal2equatorial polar (⟨1, 0, 0⟩, ⟨0, 0, 0⟩))).1.x = 1 := by rw [h]
    simp [equatorial2perifocal, perifocal2equatorial, p2eMatrix, polar, M3.mulVec, M3.transpose, V3.dot] at h1

/-- **C48** The matrix of the vector overload (`elements2state`) is a rotation for all angles. -/
theorem intended_matrix_rotation (Omega omega i : ℝ) : M3.Rotation (matT Omega omega i) :=
  matT_rotation Omega omega i

example : ∃ ele : Elements, (sin ele.Omega = sin ele.omega ∧ cos ele.Omega = cos ele.omega) ∧ ele.i = 1 :=
  ⟨⟨7000, 0, 1, 2, 2, 0⟩, ⟨rfl, rfl⟩, rfl⟩

end Verif.Orbit
