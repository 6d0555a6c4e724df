import Verif.Forces.Props
import Mathlib.LinearAlgebra.Matrix.NonsingularInverse
import Mathlib.Tactic.FinCases

/-
C55 (clock correction), C56 (shadow), C57 (frame round trip), C58 (gravity partials), C59 (density
gradient).
-/
namespace Verif.Forces

open Real Verif.Astro

/-! ### C55 -/

/-- **C55** Without J2 the two corrections agree. -/
theorem clock_agree (c : ℝ) (lat : V3 → ℝ) (r v : V3) (GM Re : ℝ) :
    clockJ2 c lat r v GM 0 Re = clock c r v GM := by
  unfold clockJ2 clock
  simp

/-- **C55** In general they differ by the J2 term of the potential, linear in J2. -/
theorem clock_difference (c : ℝ) (lat : V3 → ℝ) (r v : V3) (GM J2 Re : ℝ) :
    clockJ2 c lat r v GM J2 Re
      = clock c r v GM + J2 * (GM / r.norm * (Re / r.norm) ^ 2 * (1 - 3 * sin (lat r) ^ 2) / 2 / c) := by
  unfold clockJ2 clock
  simp only
  ring

/-- **C55** The correction depends on velocity only through the speed and on position only through
the distance (and latitude). -/
theorem clock_isotropic (c : ℝ) (r v : V3) (GM : ℝ) (U : M3) (h : M3.Orthogonal U) :
    clock c (U.mulVec r) (U.mulVec v) GM = clock c r v GM := by
  unfold clock V3.norm
  rw [h.dot, h.dot]

/-! ### C56 -/

/-- Specification: on the night side (the plane through the geocentre included) and within `Re` of
some point of the line through geocentre and Sun. -/
def InCylinder (Re : ℝ) (rsat rsun : V3) : Prop :=
  rsat.dot rsun ≤ 0 ∧ ∃ t : ℝ, (rsat.sub (rsun.smul t)).norm ≤ Re

theorem sub_smul_dot (a u : V3) (t : ℝ) :
    (a.sub (u.smul t)).dot (a.sub (u.smul t)) = a.dot a - 2 * t * a.dot u + t ^ 2 * u.dot u := by
  simp only [V3.dot, V3.sub, V3.smul]
  ring

/-- The foot of the perpendicular is the nearest point of the axis. -/
theorem dist_axis (rsat u : V3) (hu : u.dot u = 1) (t : ℝ) :
    (rsat.sub (u.smul t)).dot (rsat.sub (u.smul t))
      = (rsat.sub (u.smul (rsat.dot u))).dot (rsat.sub (u.smul (rsat.dot u))) + (t - rsat.dot u) ^ 2 := by
  rw [sub_smul_dot, sub_smul_dot, hu]
  ring

theorem smul_smul (v : V3) (a b : ℝ) : (v.smul a).smul b = v.smul (b * a) := by
  ext <;> simp only [V3.smul] <;> ring

theorem unit_dot (v : V3) (h : 0 < v.norm) : (v.smul (1 / v.norm)).dot (v.smul (1 / v.norm)) = 1 := by
  have h1 : (v.smul (1 / v.norm)).dot (v.smul (1 / v.norm)) = v.dot v / (v.norm * v.norm) := by
    simp only [V3.dot, V3.smul]
    ring
  rw [h1, ← V3.norm_sq]
  field_simp

theorem dot_smul (a b : V3) (k : ℝ) : a.dot (b.smul k) = k * a.dot b := by
  simp only [V3.dot, V3.smul]
  ring

/-- The test made with the unit vector of the Sun is membership in the cylinder. -/
theorem cylinder_iff (Re : ℝ) (rsat rsun : V3) (h0 : rsun ≠ ⟨0, 0, 0⟩) :
    ¬ (rsat.dot (rsun.smul (1 / rsun.norm)) > 0 ∨
        (rsat.sub ((rsun.smul (1 / rsun.norm)).smul (rsat.dot (rsun.smul (1 / rsun.norm))))).norm > Re)
      ↔ InCylinder Re rsat rsun := by
  have hn := V3.norm_pos _ h0
  have hu := unit_dot rsun hn
  have hs : rsat.dot (rsun.smul (1 / rsun.norm)) ≤ 0 ↔ rsat.dot rsun ≤ 0 := by
    rw [dot_smul, one_div, inv_mul_le_iff₀ hn, mul_zero]
  rw [not_or, not_lt, not_lt, hs]
  unfold InCylinder
  refine and_congr Iff.rfl ⟨fun h => ?_, fun ⟨t, ht⟩ => ?_⟩
  · refine ⟨rsat.dot (rsun.smul (1 / rsun.norm)) * (1 / rsun.norm), ?_⟩
    rw [smul_smul] at h
    exact h
  · refine le_trans ?_ ht
    have h1 : rsun.smul t = (rsun.smul (1 / rsun.norm)).smul (t * rsun.norm) := by
      rw [smul_smul]
      congr 1
      field_simp
    rw [h1]
    apply Real.sqrt_le_sqrt
    rw [dist_axis rsat _ hu (t * rsun.norm)]
    have := sq_nonneg (t * rsun.norm - rsat.dot (rsun.smul (1 / rsun.norm)))
    linarith

theorem normalized_eq (v : V3) (h0 : v ≠ ⟨0, 0, 0⟩) : normalized v = v.smul (1 / v.norm) := by
  have hn := V3.norm_pos _ h0
  unfold normalized
  rw [if_pos]
  rw [gt_iff_lt, ← V3.norm_sq]
  exact mul_pos hn hn

/-- **C56** The cylindrical test is 0 (dark) exactly within the cylinder behind the Earth and 1
(light) everywhere else. -/
theorem shadow_spec (Re : ℝ) (rsat rsun : V3) (h0 : rsun ≠ ⟨0, 0, 0⟩) :
    (InCylinder Re rsat rsun → shadowV Re rsat rsun = 0) ∧
    (¬ InCylinder Re rsat rsun → shadowV Re rsat rsun = 1) := by
  rw [← cylinder_iff Re rsat rsun h0]
  unfold shadowV
  simp only
  exact ⟨fun h => if_neg h, fun h => if_pos (not_not.1 h)⟩

/-- **C56** Light on the sunlit side and beyond one Earth radius from the axis. -/
theorem shadow_light (Re : ℝ) (rsat rsun : V3) (h0 : rsun ≠ ⟨0, 0, 0⟩)
    (h : 0 < rsat.dot rsun ∨ ∀ t : ℝ, Re < (rsat.sub (rsun.smul t)).norm) : shadowV Re rsat rsun = 1 := by
  refine (shadow_spec Re rsat rsun h0).2 ?_
  rintro ⟨h1, t, ht⟩
  rcases h with h | h
  · linarith
  · linarith [h t]

/-- **C56** Both overloads agree. -/
theorem shadow_overloads_agree (Re : ℝ) (rsat rsun : V3) (h0 : rsun ≠ ⟨0, 0, 0⟩) :
    shadowE Re rsat rsun = shadowV Re rsat rsun := by
  unfold shadowE shadowV
  rw [normalized_eq rsun h0]

theorem inCylinder_scale (Re k : ℝ) (hk : 0 < k) (rsat rsun : V3) :
    InCylinder Re rsat (rsun.smul k) ↔ InCylinder Re rsat rsun := by
  unfold InCylinder
  rw [dot_smul]
  refine and_congr ?_ ⟨fun ⟨t, ht⟩ => ⟨t * k, ?_⟩, fun ⟨t, ht⟩ => ⟨t / k, ?_⟩⟩
  · constructor
    · intro h
      by_contra hc
      have := mul_pos hk (not_le.1 hc)
      linarith
    · intro h
      exact mul_nonpos_of_nonneg_of_nonpos hk.le h
  · rw [smul_smul] at ht
    exact ht
  · rw [smul_smul, show t / k * k = t by field_simp]
    exact ht

/-- **C56** Only the direction of the Sun matters. -/
theorem shadow_direction_only (Re k : ℝ) (hk : 0 < k) (rsat rsun : V3) (h0 : rsun ≠ ⟨0, 0, 0⟩) :
    shadowV Re rsat (rsun.smul k) = shadowV Re rsat rsun := by
  have h1 : rsun.smul k ≠ ⟨0, 0, 0⟩ := by
    intro h
    apply h0
    have hx := congrArg V3.x h
    have hy := congrArg V3.y h
    have hz := congrArg V3.z h
    simp only [V3.smul] at hx hy hz
    ext
    · exact (mul_eq_zero.1 hx).resolve_left hk.ne'
    · exact (mul_eq_zero.1 hy).resolve_left hk.ne'
    · exact (mul_eq_zero.1 hz).resolve_left hk.ne'
  by_cases h : InCylinder Re rsat rsun
  · rw [(shadow_spec Re rsat rsun h0).1 h, (shadow_spec Re rsat _ h1).1 ((inCylinder_scale Re k hk rsat rsun).2 h)]
  · rw [(shadow_spec Re rsat rsun h0).2 h,
      (shadow_spec Re rsat _ h1).2 (fun hh => h ((inCylinder_scale Re k hk rsat rsun).1 hh))]

/-- **C56** The Bernese test is the open cylinder in coordinates stretched along the axis of the
Earth by one plus the flattening. -/
theorem bernese_spec (f Re : ℝ) (rsat rsun : V3) (h0 : (⟨rsun.x, rsun.y, rsun.z * (1 + f)⟩ : V3) ≠ ⟨0, 0, 0⟩) :
    berneseShadow f Re rsat rsun = 0 ↔
      rsat.x * rsun.x + rsat.y * rsun.y + rsat.z * rsun.z * (1 + f) ^ 2 < 0 ∧
      ∃ t : ℝ, √((rsat.x - rsun.x * t) ^ 2 + (rsat.y - rsun.y * t) ^ 2 + ((rsat.z - rsun.z * t) * (1 + f)) ^ 2) < Re := by
  have e1 : rsat.x * rsun.x + rsat.y * rsun.y + rsat.z * rsun.z * (1 + f) ^ 2 =
      (stretch f rsat).dot (stretch f rsun) := by
    simp only [stretch, V3.dot]
    ring
  have e2 : ∀ t : ℝ, √((rsat.x - rsun.x * t) ^ 2 + (rsat.y - rsun.y * t) ^ 2 + ((rsat.z - rsun.z * t) * (1 + f)) ^ 2) =
      ((stretch f rsat).sub ((stretch f rsun).smul t)).norm := by
    intro t
    simp only [stretch, V3.norm, V3.sub, V3.smul, V3.dot]
    congr 1
    ring
  simp only [e1, e2]
  replace h0 : stretch f rsun ≠ ⟨0, 0, 0⟩ := h0
  unfold berneseShadow
  simp only
  generalize stretch f rsat = a at *
  generalize stretch f rsun = s at *
  have hn := V3.norm_pos _ h0
  have hu := unit_dot s hn
  have hk : a.dot s / s.norm = a.dot (s.smul (1 / s.norm)) := by
    rw [dot_smul]
    ring
  have hd : a.dot a - a.dot s / s.norm * (a.dot s / s.norm)
      = (a.sub ((s.smul (1 / s.norm)).smul (a.dot (s.smul (1 / s.norm))))).dot
        (a.sub ((s.smul (1 / s.norm)).smul (a.dot (s.smul (1 / s.norm))))) := by
    rw [sub_smul_dot, hu, hk]
    ring
  rw [hd]
  have hneg : a.dot s / s.norm < 0 ↔ a.dot s < 0 := by
    rw [div_lt_iff₀ hn, zero_mul]
  have hdist : √((a.sub ((s.smul (1 / s.norm)).smul (a.dot (s.smul (1 / s.norm))))).dot
        (a.sub ((s.smul (1 / s.norm)).smul (a.dot (s.smul (1 / s.norm)))))) - Re < 0 ↔
      ∃ t : ℝ, (a.sub (s.smul t)).norm < Re := by
    constructor
    · intro h
      refine ⟨a.dot (s.smul (1 / s.norm)) * (1 / s.norm), ?_⟩
      rw [← smul_smul]
      unfold V3.norm at h ⊢
      linarith
    · rintro ⟨t, ht⟩
      have h1 : s.smul t = (s.smul (1 / s.norm)).smul (t * s.norm) := by
        rw [smul_smul]
        congr 1
        field_simp
      have h2 : √((a.sub ((s.smul (1 / s.norm)).smul (a.dot (s.smul (1 / s.norm))))).dot
          (a.sub ((s.smul (1 / s.norm)).smul (a.dot (s.smul (1 / s.norm)))))) ≤ (a.sub (s.smul t)).norm := by
        unfold V3.norm
        apply Real.sqrt_le_sqrt
        rw [h1, dist_axis a _ hu (t * s.norm)]
        have := sq_nonneg (t * s.norm - a.dot (s.smul (1 / s.norm)))
        unfold V3.norm at this ⊢
        linarith
      linarith
  rw [← hneg, ← hdist]
  split
  · rename_i h
    exact ⟨fun _ => h, fun _ => rfl⟩
  · rename_i h
    exact ⟨fun h1 => by norm_num at h1, fun h1 => absurd h1 h⟩

/-! ### C57 -/

theorem c2t_orthogonal (rc2i rpom : M3) (era : ℝ) (hc : M3.Orthogonal rc2i) (hp : M3.Orthogonal rpom) :
    M3.Orthogonal (c2t rc2i era rpom) := hp.mul ((M3.rotZ_rotation _).orth.mul hc)

/-- **C57** Positions: there and back is the identity. -/
theorem position_round_trip (r : V3) (rc2i rpom : M3) (era : ℝ) (hc : M3.Orthogonal rc2i) (hp : M3.Orthogonal rpom) :
    rter2cel (rcel2ter r rc2i era rpom) rc2i era rpom = r := by
  unfold rter2cel rcel2ter
  rw [← M3.mul_mulVec, show M3.mul _ _ = M3.one from c2t_orthogonal rc2i rpom era hc hp, M3.one_mulVec]

/-- **C57** Lengths are preserved. -/
theorem length_preserved (r : V3) (rc2i rpom : M3) (era : ℝ) (hc : M3.Orthogonal rc2i) (hp : M3.Orthogonal rpom) :
    (rcel2ter r rc2i era rpom).norm = r.norm := by
  unfold rcel2ter V3.norm
  rw [(c2t_orthogonal rc2i rpom era hc hp).dot]

theorem rate_antisymm (m : M3) :
    (M3.mul m.transpose (M3.mul rateMat.transpose m)) = (M3.mul m.transpose (M3.mul rateMat m)).smul (-1) := by
  ext <;> simp [M3.mul, M3.mulVec, M3.transpose, rateMat, V3.dot, M3.smul, V3.smul] <;> ring

theorem smul_mul (k : ℝ) (a b : M3) : M3.mul (a.smul k) b = (M3.mul a b).smul k := by
  ext <;> simp [M3.mul, M3.mulVec, M3.transpose, V3.dot, M3.smul, V3.smul] <;> ring

theorem mul_smul (k : ℝ) (a b : M3) : M3.mul a (b.smul k) = (M3.mul a b).smul k := by
  ext <;> simp [M3.mul, M3.mulVec, M3.transpose, V3.dot, M3.smul, V3.smul] <;> ring

theorem transpose_smul (k : ℝ) (a : M3) : (a.smul k).transpose = a.transpose.smul k := rfl

theorem smul_mulVec (k : ℝ) (a : M3) (v : V3) : (a.smul k).mulVec v = (a.mulVec v).smul k := by
  ext <;> simp [M3.mulVec, V3.dot, M3.smul, V3.smul] <;> ring

theorem c2tRate_id (w : ℝ) (rc2i rpom : M3) (era : ℝ) :
    c2tRate w id rc2i era rpom = (M3.mul rpom (M3.mul rateMat (M3.mul (M3.rotZ (-era)) rc2i))).smul w := by
  unfold c2tRate
  simp only [id]
  rw [smul_mul, smul_mul, mul_smul, M3.mul_assoc rateMat]

/-- **C57 (partial: the temporary read as it was computed)** States: celestial to terrestrial and
back is the identity. -/
theorem state_round_trip_partial (w : ℝ) (y : V3 × V3) (rc2i rpom : M3) (era : ℝ) (hc : M3.Orthogonal rc2i)
    (hp : M3.Orthogonal rpom) :
    yter2cel w id (ycel2ter w id y rc2i era rpom) rc2i era rpom = y := by
  unfold yter2cel ycel2ter
  simp only
  refine Prod.ext (position_round_trip y.1 rc2i rpom era hc hp) ?_
  simp only
  have hv := position_round_trip y.2 rc2i rpom era hc hp
  have hlin : ∀ a b, rter2cel (a.add b) rc2i era rpom = (rter2cel a rc2i era rpom).add (rter2cel b rc2i era rpom) :=
    fun a b => M3.mulVec_add _ a b
  rw [hlin, hv]
  -- the two rate terms cancel
  have hp' : M3.mul rpom.transpose rpom = M3.one := hp
  have h1 : rter2cel ((c2tRate w id rc2i era rpom).mulVec y.1) rc2i era rpom
      = ((M3.mul (M3.mul (M3.rotZ (-era)) rc2i).transpose
          (M3.mul rateMat (M3.mul (M3.rotZ (-era)) rc2i))).mulVec y.1).smul w := by
    rw [c2tRate_id]
    unfold rter2cel c2t
    rw [smul_mulVec, M3.mulVec_smul, ← M3.mul_mulVec, M3.transpose_mul, M3.mul_assoc, ← M3.mul_assoc rpom.transpose, hp',
      M3.one_mul]
  have h2 : (c2tRate w id rc2i era rpom).transpose.mulVec (rcel2ter y.1 rc2i era rpom)
      = ((M3.mul (M3.mul (M3.rotZ (-era)) rc2i).transpose
          (M3.mul rateMat (M3.mul (M3.rotZ (-era)) rc2i))).mulVec y.1).smul (-w) := by
    rw [c2tRate_id]
    unfold rcel2ter c2t
    rw [transpose_smul, smul_mulVec, ← M3.mul_mulVec, M3.transpose_mul, M3.mul_assoc, ← M3.mul_assoc rpom.transpose, hp',
      M3.one_mul, M3.transpose_mul, M3.mul_assoc, rate_antisymm, smul_mulVec, smul_smul]
    congr 1
    ring
  rw [h1, h2]
  ext <;> simp only [V3.add, V3.smul] <;> ring

/-- The matrix as a Mathlib matrix. -/
def toMat (m : M3) : Matrix (Fin 3) (Fin 3) ℝ :=
  !![m.r0.x, m.r0.y, m.r0.z; m.r1.x, m.r1.y, m.r1.z; m.r2.x, m.r2.y, m.r2.z]

theorem toMat_mul (a b : M3) : toMat (M3.mul a b) = toMat a * toMat b := by
  ext i j
  fin_cases i <;> fin_cases j <;>
    simp [toMat, M3.mul, M3.mulVec, M3.transpose, V3.dot, Matrix.mul_apply, Fin.sum_univ_three] <;> ring

theorem toMat_one : toMat M3.one = 1 := by
  ext i j
  fin_cases i <;> fin_cases j <;> simp [toMat, M3.one]

theorem toMat_inj {a b : M3} (h : toMat a = toMat b) : a = b := by
  have e := fun i j => congrFun (congrFun h i) j
  ext
  · simpa [toMat] using e 0 0
  · simpa [toMat] using e 0 1
  · simpa [toMat] using e 0 2
  · simpa [toMat] using e 1 0
  · simpa [toMat] using e 1 1
  · simpa [toMat] using e 1 2
  · simpa [toMat] using e 2 0
  · simpa [toMat] using e 2 1
  · simpa [toMat] using e 2 2

theorem orthogonal_right (m : M3) (h : M3.Orthogonal m) : M3.mul m m.transpose = M3.one := by
  apply toMat_inj
  rw [toMat_mul, toMat_one]
  have h1 : toMat m.transpose * toMat m = 1 := by rw [← toMat_mul, ← toMat_one, show M3.mul _ _ = M3.one from h]
  exact mul_eq_one_comm.1 h1

theorem orthogonal_transpose (m : M3) (h : M3.Orthogonal m) : M3.Orthogonal m.transpose := orthogonal_right m h

/-- **C57** Positions: terrestrial to celestial and back. -/
theorem position_round_trip' (r : V3) (rc2i rpom : M3) (era : ℝ) (hc : M3.Orthogonal rc2i) (hp : M3.Orthogonal rpom) :
    rcel2ter (rter2cel r rc2i era rpom) rc2i era rpom = r := by
  unfold rter2cel rcel2ter
  rw [← M3.mul_mulVec, orthogonal_right _ (c2t_orthogonal rc2i rpom era hc hp), M3.one_mulVec]

/-- **C57** Lengths are preserved, terrestrial to celestial. -/
theorem length_preserved' (r : V3) (rc2i rpom : M3) (era : ℝ) (hc : M3.Orthogonal rc2i) (hp : M3.Orthogonal rpom) :
    (rter2cel r rc2i era rpom).norm = r.norm := by
  unfold rter2cel V3.norm
  rw [(orthogonal_transpose _ (c2t_orthogonal rc2i rpom era hc hp)).dot]

/-- **C57 (partial: the temporary read as it was computed)** States: terrestrial to celestial and
back is the identity. -/
theorem state_round_trip'_partial (w : ℝ) (y : V3 × V3) (rc2i rpom : M3) (era : ℝ) (hc : M3.Orthogonal rc2i)
    (hp : M3.Orthogonal rpom) :
    ycel2ter w id (yter2cel w id y rc2i era rpom) rc2i era rpom = y := by
  -- y is the image of its own preimage, to which the other round trip applies
  have hsurj : ∃ z, ycel2ter w id z rc2i era rpom = y := by
    refine ⟨(rter2cel y.1 rc2i era rpom,
      rter2cel (y.2.sub ((c2tRate w id rc2i era rpom).mulVec (rter2cel y.1 rc2i era rpom))) rc2i era rpom), ?_⟩
    unfold ycel2ter
    simp only
    refine Prod.ext (position_round_trip' y.1 rc2i rpom era hc hp) ?_
    simp only
    rw [position_round_trip' _ rc2i rpom era hc hp]
    ext <;> simp [V3.add, V3.sub]
  obtain ⟨z, hz⟩ := hsurj
  rw [← hz, state_round_trip_partial w z rc2i rpom era hc hp]

/-- **C57** The velocity is right: the terrestrial velocity is the time derivative of the
terrestrial position of a point moving in the celestial frame, the Earth turning at the rate `w`. -/
theorem velocity_is_derivative_partial (w : ℝ) (rc2i rpom : M3) (era : ℝ → ℝ) (t : ℝ) (hera : HasDerivAt era w t)
    (r : ℝ → V3) (v : V3) (hr : HasVel r v t) :
    HasVel (fun s => rcel2ter (r s) rc2i (era s) rpom)
      (ycel2ter w id (r t, v) rc2i (era t) rpom).2 t := by
  have hn : HasVel (fun s => rc2i.mulVec (r s)) (rc2i.mulVec v) t := hr.mulVec rc2i
  have hs : HasDerivAt (fun s => sin (-era s)) (cos (-era t) * -w) t := (hera.neg).sin
  have hc : HasDerivAt (fun s => cos (-era s)) (-sin (-era t) * -w) t := (hera.neg).cos
  have hrot : HasVel (fun s => (M3.rotZ (-era s)).mulVec (rc2i.mulVec (r s)))
      (((M3.rotZ (-era t)).mulVec (rc2i.mulVec v)).add
        ((M3.mul (rateMat.smul w) (M3.rotZ (-era t))).mulVec (rc2i.mulVec (r t)))) t := by
    refine ⟨?_, ?_, ?_⟩
    · refine ((hc.mul hn.x).sub (hs.mul hn.y)).congr_of_eventuallyEq
        (Filter.Eventually.of_forall fun s => ?_) |>.congr_deriv ?_
      · simp [M3.mulVec, M3.rotZ, V3.dot]
      · simp [M3.mulVec, M3.rotZ, V3.dot, M3.mul, M3.transpose, rateMat, M3.smul, V3.smul, V3.add]
        ring
    · refine ((hs.mul hn.x).add (hc.mul hn.y)).congr_of_eventuallyEq
        (Filter.Eventually.of_forall fun s => ?_) |>.congr_deriv ?_
      · simp [M3.mulVec, M3.rotZ, V3.dot]
      · simp [M3.mulVec, M3.rotZ, V3.dot, M3.mul, M3.transpose, rateMat, M3.smul, V3.smul, V3.add]
        ring
    · refine hn.z.congr_of_eventuallyEq (Filter.Eventually.of_forall fun s => ?_) |>.congr_deriv ?_
      · simp [M3.mulVec, M3.rotZ, V3.dot]
      · simp [M3.mulVec, M3.rotZ, V3.dot, M3.mul, M3.transpose, rateMat, M3.smul, V3.smul, V3.add]
  have hfin := hrot.mulVec rpom
  have hfun : (fun s => rpom.mulVec ((M3.rotZ (-era s)).mulVec (rc2i.mulVec (r s))))
      = fun s => rcel2ter (r s) rc2i (era s) rpom := by
    funext s
    simp only [rcel2ter, c2t, M3.mul_mulVec]
  rw [hfun] at hfin
  refine hfin.congr ?_
  simp only [ycel2ter, rcel2ter, c2t, c2tRate, id, M3.mul_mulVec, M3.mulVec_add]

/-- **C57** With something else in the place of the temporary the velocity does not come back. -/
theorem dangling_counterexample : ∃ (tmp : M3 → M3) (y : V3 × V3),
    yter2cel 1 id (ycel2ter 1 tmp y M3.one 0 M3.one) M3.one 0 M3.one ≠ y := by
  refine ⟨fun _ => M3.one, (⟨1, 0, 0⟩, ⟨0, 0, 0⟩), ?_⟩
  intro h
  have hx := congrArg (fun q : V3 × V3 => q.2.x) h
  simp [yter2cel, ycel2ter, rcel2ter, rter2cel, c2t, c2tRate, M3.mul, M3.mulVec, M3.transpose, M3.one, M3.rotZ, rateMat,
    V3.dot, V3.add, M3.smul, V3.smul] at hx

/-- **C57** The length-of-day correction: a day longer by `xlod` seconds is a rotation slower in
proportion. -/
theorem omega_lod (w0 xlod : ℝ) : omegaEarth w0 xlod * 86400 = w0 * (86400 - xlod) := by
  unfold omegaEarth
  ring

/-! ### C58 -/

/-- The true derivative of the inertial acceleration: `U^T G U`. -/
theorem inertial_jacobian (g : V3 → V3) (G : V3 → M3) (U : M3) (r : V3) (hG : IsJacobian g (G (U.mulVec r)) (U.mulVec r)) :
    IsJacobian (fun x => (gravityInertial g G U x).1)
      (M3.mul (M3.mul U.transpose (G (U.mulVec r))) U) r := by
  intro p p' t hpt hp
  have h1 := hG (fun s => U.mulVec (p s)) (U.mulVec p') t (by simp only [hpt]) (hp.mulVec U)
  have h2 := h1.mulVec U.transpose
  refine HasVel.congr h2 ?_
  rw [M3.mul_mulVec, M3.mul_mulVec]

/-- **C58 (partial: symmetric rotations)** The partials are the derivative when the rotation is its
own inverse, for instance when the frames coincide. -/
theorem gravity_partials_partial (g : V3 → V3) (G : V3 → M3) (U : M3) (r : V3)
    (hG : IsJacobian g (G (U.mulVec r)) (U.mulVec r)) (hU : U.transpose = U) :
    IsJacobian (fun x => (gravityInertial g G U x).1) (gravityInertial g G U r).2 r := by
  have h := inertial_jacobian g G U r hG
  have e : (gravityInertial g G U r).2 = M3.mul (M3.mul U.transpose (G (U.mulVec r))) U := by
    unfold gravityInertial
    simp only
    rw [hU]
  rw [e]
  exact h

/-- **C58** In general they are not: an eighth of a turn and a field along the first Earth-fixed
axis. -/
theorem gravity_partials_counterexample : ∃ (g : V3 → V3) (G : V3 → M3) (r : V3),
    (∀ x, IsJacobian g (G x) x) ∧
    ¬ IsJacobian (fun x => (gravityInertial g G (c2t M3.one (π / 4) M3.one) x).1)
      (gravityInertial g G (c2t M3.one (π / 4) M3.one) r).2 r := by
  have hlin : ∀ x, IsJacobian (fun v : V3 => (⟨v.x, 0, 0⟩ : V3)) ⟨⟨1, 0, 0⟩, ⟨0, 0, 0⟩, ⟨0, 0, 0⟩⟩ x := by
    intro x p p' t _ hp
    refine ⟨hp.x.congr_deriv (by simp [M3.mulVec, V3.dot]), ?_, ?_⟩
    · exact (hasDerivAt_const t (0 : ℝ)).congr_deriv (by simp [M3.mulVec, V3.dot])
    · exact (hasDerivAt_const t (0 : ℝ)).congr_deriv (by simp [M3.mulVec, V3.dot])
  refine ⟨fun v => ⟨v.x, 0, 0⟩, fun _ => ⟨⟨1, 0, 0⟩, ⟨0, 0, 0⟩, ⟨0, 0, 0⟩⟩, ⟨0, 0, 0⟩, hlin, fun h => ?_⟩
  have hj := inertial_jacobian (fun v : V3 => (⟨v.x, 0, 0⟩ : V3)) (fun _ => ⟨⟨1, 0, 0⟩, ⟨0, 0, 0⟩, ⟨0, 0, 0⟩⟩)
    (c2t M3.one (π / 4) M3.one) ⟨0, 0, 0⟩ (hlin _)
  let p : ℝ → V3 := fun s => ⟨0, s, 0⟩
  have hp : HasVel p ⟨0, 1, 0⟩ 0 := ⟨hasDerivAt_const _ _, hasDerivAt_id 0, hasDerivAt_const _ _⟩
  have a1 := (h p ⟨0, 1, 0⟩ 0 rfl hp).x
  have a2 := (hj p ⟨0, 1, 0⟩ 0 rfl hp).x
  have := a1.unique a2
  simp [gravityInertial, c2t, M3.one, M3.rotZ, M3.mul, M3.mulVec, M3.transpose, V3.dot] at this
  have h2 : (√2 : ℝ) * √2 = 2 := Real.mul_self_sqrt (by norm_num)
  nlinarith

/-! ### C59 -/

/-- **C59 (partial: first and second component)** Central differences over two metres. -/
theorem density_gradient_partial (dens : V3 → ℝ) (r : V3) :
    (densityGradient dens r).x = (dens (r.add ⟨1, 0, 0⟩) - dens (r.add ⟨-1, 0, 0⟩)) / 2 ∧
    (densityGradient dens r).y = (dens (r.add ⟨0, 1, 0⟩) - dens (r.add ⟨0, -1, 0⟩)) / 2 := by
  unfold densityGradient
  simp only
  constructor <;> ring

/-- **C59** The third component is zero whatever the density. -/
theorem density_gradient_z (dens : V3 → ℝ) (r : V3) : (densityGradient dens r).z = 0 := by
  unfold densityGradient
  simp only
  ring

/-- **C59** So it is not the central difference: a density growing along the third axis. -/
theorem density_gradient_counterexample : ∃ (dens : V3 → ℝ) (r : V3),
    (densityGradient dens r).z ≠ (dens (r.add ⟨0, 0, 1⟩) - dens (r.add ⟨0, 0, -1⟩)) / 2 := by
  refine ⟨fun v => v.z, ⟨0, 0, 0⟩, ?_⟩
  rw [density_gradient_z]
  norm_num [V3.add]

/-! ### Concrete instances -/

example : M3.Orthogonal (M3.rotX 1) ∧ M3.Orthogonal (M3.rotZ 2) :=
  ⟨(M3.rotX_rotation 1).orth, (M3.rotZ_rotation 2).orth⟩

/-- A satellite behind the Earth, one in front of it and one beside it. -/
example : InCylinder 6378 ⟨-7000, 0, 0⟩ ⟨1, 0, 0⟩ ∧ ¬ InCylinder 6378 ⟨7000, 0, 0⟩ ⟨1, 0, 0⟩ := by
  refine ⟨⟨by norm_num [V3.dot], -7000, ?_⟩, fun h => ?_⟩
  · norm_num [V3.norm, V3.sub, V3.smul, V3.dot]
  · have := h.1
    norm_num [V3.dot] at this

end Verif.Forces
