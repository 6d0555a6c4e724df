import Verif.Variational.Model
import Verif.Forces.Frames

/-!
C80: the derivative computed by the variational equations; C81: the UTC date handed to the
atmosphere model; C82: the projected area; C83: the accelerations by Sun and Moon.
-/
namespace Verif.Variational

open Real Verif.Astro Verif.Forces Finset

/-! ### C80 -/

/-- **C80** Layout of the derivative: the velocity and the acceleration; then for each of the seven
columns of partials the velocity part of the column, and the partials of the acceleration applied to
the column, with the partials for the drag coefficient added in the last. -/
theorem layout (E : Env) (C : ℝ) (y : Nat → ℝ) :
    vec (derivative E C y) 0 = vec y 3 ∧
    vec (derivative E C y) 3 = accel E (vec y 0) (vec y 3) C ∧
    ∀ j, j < 7 →
      vec (derivative E C y) (6 + 6 * j) = vec y (9 + 6 * j) ∧
      vec (derivative E C y) (9 + 6 * j) =
        (((dadr E (vec y 0) (vec y 3) C).mulVec (vec y (6 + 6 * j))).add
          ((dadv E (vec y 0) (vec y 3) C).mulVec (vec y (9 + 6 * j)))).add
          (if j = 6 then dadC E (vec y 0) (vec y 3) else ⟨0, 0, 0⟩) := by
  have hd : ∀ j i, i < 6 → derivative E C y (6 * j + i) = yPhip E C y i j := by
    intro j i hi
    unfold derivative
    rw [show (6 * j + i) % 6 = i by omega, show (6 * j + i) / 6 = j by omega]
  refine ⟨?_, ?_, fun j hj => ⟨?_, ?_⟩⟩
  · ext
    · exact hd 0 0 (by omega)
    · exact hd 0 1 (by omega)
    · exact hd 0 2 (by omega)
  · ext
    · exact hd 0 3 (by omega)
    · exact hd 0 4 (by omega)
    · exact hd 0 5 (by omega)
  · generalize hA : dadr E (vec y 0) (vec y 3) C = A
    generalize hB : dadv E (vec y 0) (vec y 3) C = B
    have key : ∀ i, i < 3 → derivative E C y (6 * (j + 1) + i) = y (9 + 6 * j + i) := by
      intro i hi
      rw [hd (j + 1) i (by omega)]
      unfold yPhip
      simp only [Nat.add_one_ne_zero, if_false, hA, hB, Nat.add_sub_cancel]
      have h3 : ¬ (3 ≤ i ∧ j = 6) := by omega
      rw [dfdS, if_neg h3, add_zero, sum_eq_single (i + 3)]
      · simp only [dfdy, hi, if_true, phi]
        rw [if_neg (by omega), one_mul]
        congr 1
        omega
      · intro l _ hl
        simp only [dfdy, hi, if_true, if_neg hl]
        split <;> simp
      · intro h
        exact absurd (mem_range.2 (by omega)) h
    ext
    · exact (congrArg (derivative E C y) (by omega)).trans (key 0 (by omega))
    · exact (congrArg (derivative E C y) (by omega)).trans (key 1 (by omega))
    · exact (congrArg (derivative E C y) (by omega)).trans (key 2 (by omega))
  · generalize hA : dadr E (vec y 0) (vec y 3) C = A
    generalize hB : dadv E (vec y 0) (vec y 3) C = B
    generalize hc : dadC E (vec y 0) (vec y 3) = c
    have key : ∀ i, i < 3 → derivative E C y (6 * (j + 1) + (i + 3)) =
        ((row A i).dot (vec y (6 + 6 * j)) + (row B i).dot (vec y (9 + 6 * j))) +
          comp (if j = 6 then c else ⟨0, 0, 0⟩) i := by
      intro i hi
      rw [hd (j + 1) (i + 3) (by omega)]
      unfold yPhip
      simp only [Nat.add_one_ne_zero, if_false, hA, hB, hc, Nat.add_sub_cancel]
      have e1 : dfdS c (i + 3) j = comp (if j = 6 then c else ⟨0, 0, 0⟩) i := by
        unfold dfdS
        by_cases h : j = 6
        · rw [if_pos ⟨by omega, h⟩, if_pos h, Nat.add_sub_cancel]
        · rw [if_neg (fun hh => h hh.2), if_neg h]
          match i with
          | 0 => rfl
          | 1 => rfl
          | _ + 2 => rfl
      rw [e1]
      congr 1
      simp only [sum_range_succ, range_zero, sum_empty, dfdy, phi, Nat.add_sub_cancel,
        show ¬ i + 3 < 3 by omega, if_false, V3.dot, vec]
      simp only [show (0 : Nat) < 3 by omega, show (1 : Nat) < 3 by omega, show (2 : Nat) < 3 by omega,
        show ¬ (3 : Nat) < 3 by omega, show ¬ (4 : Nat) < 3 by omega, show ¬ (5 : Nat) < 3 by omega, if_true, if_false,
        comp, Nat.sub_self, show 4 - 3 = 1 from rfl, show 5 - 3 = 2 from rfl]
      simp only [show 6 + (6 * j + 0) = 6 + 6 * j by omega, show 6 + (6 * j + 1) = 6 + 6 * j + 1 by omega,
        show 6 + (6 * j + 2) = 6 + 6 * j + 2 by omega, show 6 + (6 * j + 3) = 9 + 6 * j by omega,
        show 6 + (6 * j + 4) = 9 + 6 * j + 1 by omega, show 6 + (6 * j + 5) = 9 + 6 * j + 2 by omega]
      ring
    ext
    · refine (congrArg (derivative E C y) (by omega)).trans (key 0 (by omega))
    · refine (congrArg (derivative E C y) (by omega)).trans (key 1 (by omega))
    · refine (congrArg (derivative E C y) (by omega)).trans (key 2 (by omega))

/-- The drag acceleration when position, velocity and coefficient vary. -/
theorem drag_total (w Area Mass : ℝ) (dens : V3 → ℝ) (ddens : V3) (r v : V3) (C : ℝ)
    (hdens : ∀ (p : ℝ → V3) (p' : V3) (t : ℝ), p t = r → HasVel p p' t →
      HasDerivAt (fun s => dens (p s)) (ddens.dot p') t)
    (h0 : relVel w r v ≠ ⟨0, 0, 0⟩)
    (p q : ℝ → V3) (c : ℝ → ℝ) (p' q' : V3) (c' t : ℝ) (hpt : p t = r) (hqt : q t = v) (hct : c t = C)
    (hp : HasVel p p' t) (hq : HasVel q q' t) (hc : HasDerivAt c c' t) :
    HasVel (fun s => drag w (p s) (q s) Area (c s) Mass (dens (p s)))
      ((((dragDR w r v Area C Mass (dens r) ddens).mulVec p').add ((dragDV w r v Area C Mass (dens r)).mulVec q')).add
        ((dragDC w r v Area Mass (dens r)).smul c')) t := by
  have hcross : HasVel (fun s => (earthRate w).cross (p s)) ((xOmega w).mulVec p') t := by
    refine ⟨?_, ?_, ?_⟩
    · refine ((hp.y.const_mul (-w))).congr_of_eventuallyEq (Filter.Eventually.of_forall fun s => ?_) |>.congr_deriv ?_
      · simp [V3.cross, earthRate]
      · simp [M3.mulVec, xOmega, V3.dot]
    · refine ((hp.x.const_mul w)).congr_of_eventuallyEq (Filter.Eventually.of_forall fun s => ?_) |>.congr_deriv ?_
      · simp [V3.cross, earthRate]
      · simp [M3.mulVec, xOmega, V3.dot]
    · refine (hasDerivAt_const t (0 : ℝ)).congr_of_eventuallyEq (Filter.Eventually.of_forall fun s => ?_) |>.congr_deriv ?_
      · simp [V3.cross, earthRate]
      · simp [M3.mulVec, xOmega, V3.dot]
  have hrel : HasVel (fun s => relVel w (p s) (q s)) (q'.sub ((xOmega w).mulVec p')) t := hq.sub hcross
  have hreln := hrel.norm (by simp only [hpt, hqt]; exact h0)
  have hd := hdens p p' t hpt hp
  have hk := ((hd.mul hreln).mul hc).const_mul (-(1 / 2) * (Area / Mass))
  simp only [drag_law]
  have hmain := hrel.smul hk
  simp only [hpt, hqt] at hmain
  have hfun : (fun s => (relVel w (p s) (q s)).smul
        (-(1 / 2) * (Area / Mass) * (((fun s => dens (p s)) * fun s => (relVel w (p s) (q s)).norm) * c) s))
      = fun s => (relVel w (p s) (q s)).smul
        (-(1 / 2) * c s * (Area / Mass) * dens (p s) * (relVel w (p s) (q s)).norm) := by
    funext s
    congr 1
    simp only [Pi.mul_apply]
    ring
  rw [← hfun]
  refine hmain.congr ?_
  generalize hR : relVel w r v = R
  simp only [Pi.mul_apply, hpt, hqt, hct, hR, dragDR, dragDV, dragDC]
  have : R.norm ≠ 0 := (V3.norm_pos R (hR ▸ h0)).ne'
  ext <;> simp only [V3.add, V3.sub, V3.smul, M3.mulVec, M3.add, M3.smul, M3.one, M3.outer, M3.mul, M3.transpose, V3.dot,
    xOmega] <;> ring

/-- The acceleration without the Sun, and with a fixed projected area. -/
noncomputable def restAccel (E : Env) (Area : ℝ) (r v : V3) (C : ℝ) : V3 :=
  ((gravityInertial E.g E.G (c2t E.rc2i E.era E.rpom) r).1.add (pointMass (E.GMMon * 10 ^ 9) r (E.rmon.smul 1000))).add
    (drag E.w r v Area C E.mass (E.dens r))

/-- **C80** The columns are propagated with the derivative of the acceleration: if position, velocity
and coefficient vary along the column, the acceleration varies as the derivative of the column says.

Partial: the Sun is left out of the partials (`sun_partials_counterexample`) and the projected area
is taken as constant (`area_partials_counterexample`); the partials of gravity, the Moon and the
density are taken to be right, which fails by C58, C51 and C59. -/
theorem columns_partial (E : Env) (C : ℝ) (y : Nat → ℝ) (j : Nat) (hj : j < 7)
    (hG : IsJacobian (fun x => (gravityInertial E.g E.G (c2t E.rc2i E.era E.rpom) x).1)
      (gravityInertial E.g E.G (c2t E.rc2i E.era E.rpom) (vec y 0)).2 (vec y 0))
    (hM : IsJacobian (fun x => pointMass (E.GMMon * 10 ^ 9) x (E.rmon.smul 1000))
      (pointMassPartials (E.GMMon * 10 ^ 9) (vec y 0) (E.rmon.smul 1000)).2 (vec y 0))
    (hdens : ∀ (p : ℝ → V3) (p' : V3) (t : ℝ), p t = vec y 0 → HasVel p p' t →
      HasDerivAt (fun s => E.dens (p s)) ((densityGradient E.dens (vec y 0)).dot p') t)
    (h0 : relVel E.w (vec y 0) (vec y 3) ≠ ⟨0, 0, 0⟩)
    (p q : ℝ → V3) (c : ℝ → ℝ) (t : ℝ) (hpt : p t = vec y 0) (hqt : q t = vec y 3) (hct : c t = C)
    (hp : HasVel p (vec y (6 + 6 * j)) t) (hq : HasVel q (vec y (9 + 6 * j)) t)
    (hc : HasDerivAt c (if j = 6 then 1 else 0) t) :
    HasVel (fun s => restAccel E (projArea E.w E.q E.plates (vec y 0) (vec y 3)) (p s) (q s) (c s))
      (vec (derivative E C y) (9 + 6 * j)) t := by
  rw [((layout E C y).2.2 j hj).2]
  have h1 := hG p _ t hpt hp
  have h2 := hM p _ t hpt hp
  have h3 := drag_total E.w (projArea E.w E.q E.plates (vec y 0) (vec y 3)) E.mass E.dens
    (densityGradient E.dens (vec y 0)) (vec y 0) (vec y 3) C hdens h0 p q c _ _ _ t hpt hqt hct hp hq hc
  refine ((h1.add h2).add h3).congr ?_
  simp only [dadr, dadv, dadC, sunMoon]
  generalize (gravityInertial E.g E.G (c2t E.rc2i E.era E.rpom) (vec y 0)).2 = A1
  generalize (pointMassPartials (E.GMMon * 10 ^ 9) (vec y 0) (E.rmon.smul 1000)).2 = A2
  generalize dragDR _ _ _ _ _ _ _ _ = A3
  generalize dragDV _ _ _ _ _ _ _ = A4
  generalize dragDC _ _ _ _ _ _ = A5
  split
  · ext <;> simp only [V3.add, V3.smul, M3.mulVec, M3.add, V3.dot] <;> ring
  · ext <;> simp only [V3.add, V3.smul, M3.mulVec, M3.add, V3.dot] <;> ring

/-- Only the Sun: two kilometres away, with `GM = 10^6 km³/s²`. -/
noncomputable def sunOnly : Env :=
  ⟨fun _ => ⟨0, 0, 0⟩, fun _ => ⟨⟨0, 0, 0⟩, ⟨0, 0, 0⟩, ⟨0, 0, 0⟩⟩, M3.one, 0, M3.one, 10 ^ 6, 0, ⟨2, 0, 0⟩, ⟨1, 0, 0⟩, 0,
    ⟨1, ⟨0, 0, 0⟩⟩, [], 1, fun _ => 0⟩

/-- At the origin, at rest; the first column of the partials is a displacement along the first axis. -/
noncomputable def displaced : Nat → ℝ := fun n => if n = 6 then 1 else 0

/-- **C80, where it fails.**  The partials of the acceleration by the Sun are not in the matrix: for a
displacement towards the Sun the acceleration grows, the derivative of the column is zero. -/
theorem sun_partials_counterexample :
    HasVel (fun s => (⟨s, 0, 0⟩ : V3)) (vec displaced 6) 0 ∧
    vec (derivative sunOnly 0 displaced) 9 = ⟨0, 0, 0⟩ ∧
    ¬ HasVel (fun s => accel sunOnly ⟨s, 0, 0⟩ ⟨0, 0, 0⟩ 0) (vec (derivative sunOnly 0 displaced) 9) 0 := by
  have e0 : vec displaced 0 = ⟨0, 0, 0⟩ := by simp [vec, displaced]
  have e3 : vec displaced 3 = ⟨0, 0, 0⟩ := by simp [vec, displaced]
  have e6 : vec displaced 6 = ⟨1, 0, 0⟩ := by simp [vec, displaced]
  have e9 : vec displaced 9 = ⟨0, 0, 0⟩ := by simp [vec, displaced]
  have hp : HasVel (fun s => (⟨s, 0, 0⟩ : V3)) ⟨1, 0, 0⟩ 0 :=
    ⟨hasDerivAt_id 0, hasDerivAt_const 0 0, hasDerivAt_const 0 0⟩
  have hz : vec (derivative sunOnly 0 displaced) 9 = ⟨0, 0, 0⟩ := by
    rw [((layout sunOnly 0 displaced).2.2 0 (by omega)).2, e0, e3, e6, e9]
    have hA : dadr sunOnly ⟨0, 0, 0⟩ ⟨0, 0, 0⟩ 0 = ⟨⟨0, 0, 0⟩, ⟨0, 0, 0⟩, ⟨0, 0, 0⟩⟩ := by
      ext <;> simp [dadr, sunOnly, gravityInertial, sunMoon, pointMassPartials, dragDR, dragDV, densityGradient, M3.mul,
        M3.transpose, M3.mulVec, M3.add, M3.smul, M3.outer, V3.add, V3.smul, V3.dot]
    rw [hA]
    ext <;> simp [M3.mulVec, V3.dot, V3.add, dadv, dragDV, sunOnly, M3.smul, V3.smul]
  refine ⟨e6 ▸ hp, hz, fun h => ?_⟩
  rw [hz] at h
  have hne : (V3.sub ⟨0, 0, 0⟩ ⟨2, 0, 0⟩) ≠ (⟨0, 0, 0⟩ : V3) := by
    intro hh
    have := congrArg V3.x hh
    norm_num [V3.sub] at this
  have hq : HasVel (fun s => (V3.smul (1 / 1000) ⟨s, 0, 0⟩)) ⟨1 / 1000, 0, 0⟩ 0 := by
    refine ⟨((hasDerivAt_id (0 : ℝ)).const_mul (1 / 1000)).congr_deriv (by simp), ?_, ?_⟩
    · exact (hasDerivAt_const (0 : ℝ) (1 / 1000 * 0)).congr_deriv rfl
    · exact (hasDerivAt_const (0 : ℝ) (1 / 1000 * 0)).congr_deriv rfl
  have hj := point_mass_jacobian (10 ^ 6) ⟨0, 0, 0⟩ ⟨2, 0, 0⟩ hne _ _ 0 (by simp [V3.smul]) hq
  have hx := hj.x.const_mul (1 / 1000)
  have hfun : (fun s : ℝ => (accel sunOnly ⟨s, 0, 0⟩ ⟨0, 0, 0⟩ 0).x) =
      fun s => 1 / 1000 * (pointMass (10 ^ 6) (V3.smul (1 / 1000) ⟨s, 0, 0⟩) ⟨2, 0, 0⟩).x := by
    funext s
    simp only [accel, sunOnly, gravityInertial, sunMoon, drag, V3.add]
    simp [M3.mulVec, V3.dot, V3.smul, pointMassPartials]
  have h1 := h.x
  rw [hfun] at h1
  have huniq := h1.unique hx
  have hn : (V3.sub ⟨0, 0, 0⟩ ⟨2, 0, 0⟩).norm = 2 := by
    have : V3.sub ⟨0, 0, 0⟩ ⟨2, 0, 0⟩ = (⟨-2, 0, 0⟩ : V3) := by ext <;> simp [V3.sub]
    rw [this, norm_unit]
    norm_num
  simp only [tidalJacobian, hn] at huniq
  norm_num [M3.mulVec, M3.smul, M3.add, M3.one, M3.outer, V3.add, V3.sub, V3.smul, V3.dot] at huniq

/-- Only drag, of density 1, on one plate of surface 2 inclined to the velocity. -/
noncomputable def dragOnly : Env :=
  ⟨fun _ => ⟨0, 0, 0⟩, fun _ => ⟨⟨0, 0, 0⟩, ⟨0, 0, 0⟩, ⟨0, 0, 0⟩⟩, M3.one, 0, M3.one, 0, 0, ⟨1, 0, 0⟩, ⟨1, 0, 0⟩, 0,
    ⟨1, ⟨0, 0, 0⟩⟩, [⟨2, ⟨3 / 5, 4 / 5, 0⟩⟩], 1, fun _ => 1⟩

/-- Velocity 1 along the first axis; the first column is a change of velocity along the second. -/
noncomputable def turned : Nat → ℝ := fun n => if n = 3 ∨ n = 10 then 1 else 0

/-- **C80, where it fails.**  The projected area depends on the direction of the velocity, which is not
in the partials: turning the velocity towards the normal of the plate increases the deceleration
along the first axis; the derivative of the column has no such component. -/
theorem area_partials_counterexample :
    HasVel (fun s => (⟨1, s, 0⟩ : V3)) (vec turned 9) 0 ∧
    (vec (derivative dragOnly 1 turned) 9).x = 0 ∧
    ¬ HasVel (fun s => accel dragOnly ⟨0, 0, 0⟩ ⟨1, s, 0⟩ 1) (vec (derivative dragOnly 1 turned) 9) 0 := by
  have e0 : vec turned 0 = ⟨0, 0, 0⟩ := by simp [vec, turned]
  have e3 : vec turned 3 = ⟨1, 0, 0⟩ := by simp [vec, turned]
  have e6 : vec turned 6 = ⟨0, 0, 0⟩ := by simp [vec, turned]
  have e9 : vec turned 9 = ⟨0, 1, 0⟩ := by simp [vec, turned]
  have hp : HasVel (fun s => (⟨1, s, 0⟩ : V3)) ⟨0, 1, 0⟩ 0 :=
    ⟨hasDerivAt_const 0 1, hasDerivAt_id 0, hasDerivAt_const 0 0⟩
  have hz : (vec (derivative dragOnly 1 turned) 9).x = 0 := by
    rw [((layout dragOnly 1 turned).2.2 0 (by omega)).2, e0, e3, e6, e9]
    simp [M3.mulVec, V3.dot, V3.add, dadv, dragDV, dragOnly, M3.smul, V3.smul, M3.add, M3.one, M3.outer, relVel, V3.sub,
      V3.cross, earthRate]
  refine ⟨e9 ▸ hp, hz, fun h => ?_⟩
  have hx := h.x
  rw [hz] at hx
  have hacc : ∀ s : ℝ, -(1 / 2) < s → (accel dragOnly ⟨0, 0, 0⟩ ⟨1, s, 0⟩ 1).x = -(3 / 5 + 4 / 5 * s) := by
    intro s hs
    have hv : relVel 0 ⟨0, 0, 0⟩ ⟨1, s, 0⟩ = ⟨1, s, 0⟩ := by
      ext <;> simp [relVel, V3.sub, V3.cross, earthRate]
    have hpos : (0 : ℝ) < V3.dot ⟨1, s, 0⟩ ⟨1, s, 0⟩ := by
      simp only [V3.dot]
      nlinarith [sq_nonneg s]
    have hn : 0 < V3.norm ⟨1, s, 0⟩ := Real.sqrt_pos.2 hpos
    have hrot : ∀ x : V3, (Quat.normalized (Quat.conj ⟨1, ⟨0, 0, 0⟩⟩)).apply x = x := by
      intro x
      ext <;> simp [Quat.normalized, Quat.conj, Quat.norm, Quat.apply, V3.smul, V3.dot, V3.add, V3.cross]
    have harea : projArea 0 ⟨1, ⟨0, 0, 0⟩⟩ [⟨2, ⟨3 / 5, 4 / 5, 0⟩⟩] ⟨0, 0, 0⟩ ⟨1, s, 0⟩ =
        2 * ((3 / 5 + 4 / 5 * s) / V3.norm ⟨1, s, 0⟩) := by
      unfold projArea
      simp only [areaLoop, hrot, hv]
      have hd : V3.dot ⟨3 / 5, 4 / 5, 0⟩ (normalized ⟨1, s, 0⟩) = (3 / 5 + 4 / 5 * s) / V3.norm ⟨1, s, 0⟩ := by
        unfold normalized
        rw [if_pos hpos]
        simp only [V3.smul, V3.dot]
        ring
      rw [hd, if_pos (div_pos (by linarith) hn), zero_add]
    have hdrag : (accel dragOnly ⟨0, 0, 0⟩ ⟨1, s, 0⟩ 1).x =
        (drag 0 ⟨0, 0, 0⟩ ⟨1, s, 0⟩ (projArea 0 ⟨1, ⟨0, 0, 0⟩⟩ [⟨2, ⟨3 / 5, 4 / 5, 0⟩⟩] ⟨0, 0, 0⟩ ⟨1, s, 0⟩) 1 1 1).x := by
      simp only [accel, dragOnly, gravityInertial, sunMoon, V3.add]
      simp [M3.mulVec, V3.dot, V3.smul, pointMassPartials, pointMass, V3.add]
    rw [hdrag, drag_law, harea, hv]
    simp only [V3.smul]
    field_simp
  have h2 : HasDerivAt (fun s : ℝ => -(3 / 5 + 4 / 5 * s)) (-(4 / 5)) 0 := by
    have := (((hasDerivAt_id (0 : ℝ)).const_mul (4 / 5)).const_add (3 / 5)).neg
    exact this.congr_deriv (by simp)
  have h3 : HasDerivAt (fun s : ℝ => (accel dragOnly ⟨0, 0, 0⟩ ⟨1, s, 0⟩ 1).x) (-(4 / 5)) 0 := by
    refine h2.congr_of_eventuallyEq ?_
    filter_upwards [lt_mem_nhds (show (-(1 / 2) : ℝ) < 0 by norm_num)] with s hs using hacc s hs
  have := hx.unique h3
  norm_num at this

/-! ### C81 -/

/-- **C81** Day and seconds together are the instant: the TAI date less the leap seconds. -/
theorem utc_instant (cmjd : ℝ) (leap eid : ℤ) :
    ((utcDate cmjd leap eid).1 : ℝ) + (utcDate cmjd leap eid).2 / 86400 = cmjd - leap / (86400 + eid) := by
  have h := Int.floor_add_fract cmjd
  unfold utcDate
  simp only
  split
  · push_cast
    linarith
  · split
    · push_cast
      linarith
    · simp only
      linarith

/-- **C81** (partial) The seconds are within the day exactly when the TAI date is less than the leap
seconds past midnight, so that UTC is still on the previous day. -/
theorem utc_seconds_partial (cmjd : ℝ) (leap eid : ℤ) (hl : 0 < (leap : ℝ) / (86400 + eid)) (hl1 : (leap : ℝ) / (86400 + eid) ≤ 1) :
    (0 ≤ (utcDate cmjd leap eid).2 ∧ (utcDate cmjd leap eid).2 < 86400) ↔
      cmjd - ⌊cmjd⌋ < (leap : ℝ) / (86400 + eid) := by
  have h0 := Int.fract_nonneg cmjd
  have h1 := Int.fract_lt_one cmjd
  have hf : cmjd - ⌊cmjd⌋ = Int.fract cmjd := rfl
  have e : (utcDate cmjd leap eid).2 = (Int.fract cmjd - leap / (86400 + eid) + 1) * 86400 := by
    unfold utcDate
    simp only
    rw [if_neg (by linarith), if_pos (by linarith)]
  rw [e, hf]
  constructor
  · rintro ⟨_, h⟩
    linarith
  · intro h
    constructor <;> nlinarith

/-- **C81, where it fails.**  At noon the day handed over is the day before, with 129 563 seconds: the
second test of the code compares with 1 where 0 is meant. -/
theorem utc_seconds_counterexample : utcDate 59000.5 37 0 = (58999, 129563) := by
  have hfl : ⌊(59000.5 : ℝ)⌋ = 59000 := by
    rw [Int.floor_eq_iff]
    norm_num
  have hfr : Int.fract (59000.5 : ℝ) = 1 / 2 := by
    unfold Int.fract
    rw [hfl]
    norm_num
  unfold utcDate
  simp only [hfl, hfr]
  rw [if_neg (by norm_num), if_pos (by norm_num)]
  norm_num

/-! ### C82 -/

theorem areaLoop_eq (q : Quat) (vr : V3) : ∀ (ps : List Plate) (a : ℝ),
    areaLoop q vr ps a = a + (ps.map fun p => p.surf * max 0 ((q.conj.normalized.apply p.normal).dot vr)).sum
  | [], a => by simp [areaLoop]
  | p :: ps, a => by
    simp only [areaLoop, List.map_cons, List.sum_cons]
    rw [areaLoop_eq q vr ps]
    split
    · rename_i h
      rw [max_eq_right h.le]
      ring
    · rename_i h
      rw [max_eq_left (not_lt.1 h)]
      ring

/-- A unit quaternion turns without changing products. -/
theorem apply_dot (q : Quat) (h : q.w * q.w + q.v.dot q.v = 1) (a b : V3) :
    (q.apply a).dot (q.apply b) = a.dot b := by
  have h' : q.w * q.w = 1 - (q.v.x * q.v.x + q.v.y * q.v.y + q.v.z * q.v.z) := by
    simp only [V3.dot] at h
    linarith
  simp only [Quat.apply, V3.add, V3.smul, V3.cross, V3.dot]
  obtain ⟨w, ⟨x, y, z⟩⟩ := q
  obtain ⟨a1, a2, a3⟩ := a
  obtain ⟨b1, b2, b3⟩ := b
  simp only at h' ⊢
  have hw : w ^ 2 = 1 - (x * x + y * y + z * z) := by rw [pow_two]; exact h'
  grind

theorem normalized_unit (q : Quat) (h : 0 < q.w * q.w + q.v.dot q.v) :
    q.normalized.w * q.normalized.w + q.normalized.v.dot q.normalized.v = 1 := by
  have hn : q.norm * q.norm = q.w * q.w + q.v.dot q.v := Real.mul_self_sqrt h.le
  have hp : 0 < q.norm := Real.sqrt_pos.2 h
  unfold Quat.normalized
  rw [if_pos h]
  simp only [V3.smul, V3.dot] at hn ⊢
  field_simp
  linarith

/-- **C82** The projected area is not negative and not larger than the sum of the surfaces, for every
attitude, plates with unit normals, and velocity. -/
theorem area_bounds (w : ℝ) (q : Quat) (plates : List Plate) (r v : V3) (hq : 0 < q.w * q.w + q.v.dot q.v)
    (hs : ∀ p ∈ plates, 0 ≤ p.surf ∧ p.normal.dot p.normal = 1) :
    0 ≤ projArea w q plates r v ∧ projArea w q plates r v ≤ (plates.map Plate.surf).sum := by
  unfold projArea
  rw [areaLoop_eq, zero_add]
  have hqc : 0 < q.conj.w * q.conj.w + q.conj.v.dot q.conj.v := by
    simp only [Quat.conj, V3.smul, V3.dot] at hq ⊢
    linarith
  have hu := normalized_unit q.conj hqc
  have hvr : (normalized (relVel w r v)).dot (normalized (relVel w r v)) ≤ 1 := by
    generalize relVel w r v = u
    unfold normalized
    split
    · rename_i h
      have hn : 0 < u.norm := Real.sqrt_pos.2 h
      have h2 := V3.norm_sq u
      have : (u.smul (1 / u.norm)).dot (u.smul (1 / u.norm)) = (1 / u.norm) * (1 / u.norm) * u.dot u := by
        simp only [V3.dot, V3.smul]
        ring
      rw [this, ← h2]
      have : (1 / u.norm) * (1 / u.norm) * (u.norm * u.norm) = 1 := by field_simp
      exact this.le
    · rename_i h
      linarith
  generalize normalized (relVel w r v) = vr at hvr
  have hc : ∀ p ∈ plates, (q.conj.normalized.apply p.normal).dot vr ≤ 1 := by
    intro p hp
    have h1 := apply_dot _ hu p.normal p.normal
    rw [(hs p hp).2] at h1
    generalize q.conj.normalized.apply p.normal = m at h1
    simp only [V3.dot] at h1 hvr ⊢
    nlinarith [sq_nonneg (m.x - vr.x), sq_nonneg (m.y - vr.y), sq_nonneg (m.z - vr.z)]
  constructor
  · refine List.sum_nonneg ?_
    intro x hx
    obtain ⟨p, hp, rfl⟩ := List.mem_map.1 hx
    exact mul_nonneg (hs p hp).1 (le_max_left _ _)
  · refine List.sum_le_sum ?_
    intro p hp
    have := mul_le_mul_of_nonneg_left (max_le zero_le_one (hc p hp)) (hs p hp).1
    rwa [mul_one] at this

/-- **C82** The attitude matters only as a rotation: a quaternion and its multiples, of either sign, give
the same area. -/
theorem area_scale (w k : ℝ) (hk : k ≠ 0) (q : Quat) (plates : List Plate) (r v : V3) :
    projArea w ⟨k * q.w, q.v.smul k⟩ plates r v = projArea w q plates r v := by
  unfold projArea
  rw [areaLoop_eq, areaLoop_eq]
  have : ∀ x : V3, (Quat.conj ⟨k * q.w, q.v.smul k⟩).normalized.apply x = q.conj.normalized.apply x := by
    intro x
    have hk2 : 0 < k * k := mul_self_pos.2 hk
    have hsq : (Quat.conj ⟨k * q.w, q.v.smul k⟩).w * (Quat.conj ⟨k * q.w, q.v.smul k⟩).w +
        (Quat.conj ⟨k * q.w, q.v.smul k⟩).v.dot (Quat.conj ⟨k * q.w, q.v.smul k⟩).v =
        k * k * (q.conj.w * q.conj.w + q.conj.v.dot q.conj.v) := by
      simp only [Quat.conj, V3.smul, V3.dot]
      ring
    by_cases h : 0 < q.conj.w * q.conj.w + q.conj.v.dot q.conj.v
    · have h' : 0 < (Quat.conj ⟨k * q.w, q.v.smul k⟩).w * (Quat.conj ⟨k * q.w, q.v.smul k⟩).w +
          (Quat.conj ⟨k * q.w, q.v.smul k⟩).v.dot (Quat.conj ⟨k * q.w, q.v.smul k⟩).v := by
        rw [hsq]
        exact mul_pos hk2 h
      have hn : (Quat.conj ⟨k * q.w, q.v.smul k⟩).norm = |k| * q.conj.norm := by
        unfold Quat.norm
        rw [hsq, ← pow_two, Real.sqrt_mul (sq_nonneg k), Real.sqrt_sq_eq_abs]
      have hp : q.conj.norm ≠ 0 := (Real.sqrt_pos.2 h).ne'
      have hak : |k| ≠ 0 := abs_ne_zero.2 hk
      have ha2 : |k| * |k| = k * k := abs_mul_abs_self k
      unfold Quat.normalized
      rw [if_pos h, if_pos h', hn]
      generalize q.conj.norm = N at hp
      simp only [Quat.apply, Quat.conj, V3.add, V3.smul, V3.cross]
      ext <;> simp only <;> field_simp <;> grind
    · have hz : q.w * q.w + (q.v.x * q.v.x + q.v.y * q.v.y + q.v.z * q.v.z) ≤ 0 := by
        simp only [Quat.conj, V3.smul, V3.dot] at h
        linarith
      have h1 := mul_self_nonneg q.w
      have h2 := mul_self_nonneg q.v.x
      have h3 := mul_self_nonneg q.v.y
      have h4 := mul_self_nonneg q.v.z
      have hx : q.v.x = 0 := mul_self_eq_zero.1 (by linarith)
      have hy : q.v.y = 0 := mul_self_eq_zero.1 (by linarith)
      have hz' : q.v.z = 0 := mul_self_eq_zero.1 (by linarith)
      have hw : q.w = 0 := mul_self_eq_zero.1 (by linarith)
      have hq : q = ⟨0, ⟨0, 0, 0⟩⟩ := by
        obtain ⟨a, ⟨b, c, d⟩⟩ := q
        simp only at hx hy hz' hw
        rw [hx, hy, hz', hw]
      rw [hq]
      simp [V3.smul]
  simp only [this]

/-- **C82** Jason-3: the area is that of three pairs of opposite faces, for the direction `(x, y, z)` of
the velocity in the satellite frame; it is at least that of the smallest pair and at most that
of the sum. -/
theorem jason3_area (w : ℝ) (q : Quat) (r v : V3) (hq : 0 < q.w * q.w + q.v.dot q.v)
    (hv : relVel w r v ≠ ⟨0, 0, 0⟩) :
    ∃ d : V3, d.dot d = 1 ∧ projArea w q jason3 r v = 10.583 * |d.x| + 2.04 * |d.y| + 3.105 * |d.z| ∧
      2.04 ≤ projArea w q jason3 r v ∧ projArea w q jason3 r v ≤ 15.728 := by
  have hqc : 0 < q.conj.w * q.conj.w + q.conj.v.dot q.conj.v := by
    simp only [Quat.conj, V3.smul, V3.dot] at hq ⊢
    linarith
  have hu := normalized_unit q.conj hqc
  have hn := V3.norm_pos _ hv
  have hpos : (relVel w r v).dot (relVel w r v) > 0 := by
    rw [← V3.norm_sq]
    exact mul_pos hn hn
  generalize hU : q.conj.normalized = u at hu
  let vr := normalized (relVel w r v)
  have hvr : vr.dot vr = 1 := by
    show (normalized (relVel w r v)).dot (normalized (relVel w r v)) = 1
    unfold normalized
    rw [if_pos hpos]
    have h2 := V3.norm_sq (relVel w r v)
    generalize relVel w r v = a at hn h2
    have : (a.smul (1 / a.norm)).dot (a.smul (1 / a.norm)) = (1 / a.norm) * (1 / a.norm) * a.dot a := by
      simp only [V3.dot, V3.smul]
      ring
    rw [this, ← h2]
    field_simp
  let d : V3 := ⟨(u.apply ⟨1, 0, 0⟩).dot vr, (u.apply ⟨0, 1, 0⟩).dot vr, (u.apply ⟨0, 0, 1⟩).dot vr⟩
  have hneg : ∀ a : V3, (u.apply ⟨-a.x, -a.y, -a.z⟩).dot vr = -(u.apply a).dot vr := by
    intro a
    simp only [Quat.apply, V3.add, V3.smul, V3.cross, V3.dot]
    ring
  have hd1 : d.dot d = 1 := by
    -- `d` is the velocity turned back
    have hconj : u.conj.w * u.conj.w + u.conj.v.dot u.conj.v = 1 := by
      simp only [Quat.conj, V3.smul, V3.dot] at hu ⊢
      linarith
    have hd : d = u.conj.apply vr := by
      ext <;> simp only [d, Quat.apply, Quat.conj, V3.add, V3.smul, V3.cross, V3.dot] <;> ring
    rw [hd, apply_dot _ hconj, hvr]
  have hm : ∀ a : ℝ, max 0 a + max 0 (-a) = |a| := by
    intro a
    rcases le_total 0 a with h | h
    · rw [max_eq_right h, max_eq_left (by linarith), abs_of_nonneg h, add_zero]
    · rw [max_eq_left h, max_eq_right (by linarith), abs_of_nonpos h, zero_add]
  have harea : projArea w q jason3 r v = 10.583 * |d.x| + 2.04 * |d.y| + 3.105 * |d.z| := by
    unfold projArea
    rw [areaLoop_eq, hU]
    simp only [jason3, List.map_cons, List.map_nil, List.sum_cons, List.sum_nil]
    have n1 := hneg ⟨1, 0, 0⟩
    have n2 := hneg ⟨0, 1, 0⟩
    have n3 := hneg ⟨0, 0, 1⟩
    simp only [neg_zero] at n1 n2 n3
    rw [n1, n2, n3]
    show _ = 10.583 * |d.x| + 2.04 * |d.y| + 3.105 * |d.z|
    rw [← hm d.x, ← hm d.y, ← hm d.z]
    simp only [d, vr]
    ring
  refine ⟨d, hd1, harea, ?_, ?_⟩
  · rw [harea]
    have h1 := abs_nonneg d.x
    have h2 := abs_nonneg d.y
    have h3 := abs_nonneg d.z
    have hs : |d.x| * |d.x| + |d.y| * |d.y| + |d.z| * |d.z| = 1 := by
      rw [abs_mul_abs_self, abs_mul_abs_self, abs_mul_abs_self]
      exact hd1
    have hsum : 1 ≤ |d.x| + |d.y| + |d.z| := by
      nlinarith [mul_nonneg h1 h2, mul_nonneg h1 h3, mul_nonneg h2 h3]
    norm_num
    linarith
  · rw [harea]
    have hs : |d.x| * |d.x| + |d.y| * |d.y| + |d.z| * |d.z| = 1 := by
      rw [abs_mul_abs_self, abs_mul_abs_self, abs_mul_abs_self]
      exact hd1
    have h1 : |d.x| ≤ 1 := by nlinarith [mul_self_nonneg |d.y|, mul_self_nonneg |d.z|, abs_nonneg d.x]
    have h2 : |d.y| ≤ 1 := by nlinarith [mul_self_nonneg |d.x|, mul_self_nonneg |d.z|, abs_nonneg d.y]
    have h3 : |d.z| ≤ 1 := by nlinarith [mul_self_nonneg |d.x|, mul_self_nonneg |d.y|, abs_nonneg d.z]
    norm_num
    linarith

/-! ### C83 -/

theorem pointMass_units (k GM : ℝ) (hk : 0 < k) (r b : V3) :
    (pointMass GM (r.smul (1 / k)) b).smul k = pointMass (GM * k ^ 3) r (b.smul k) := by
  have hd : (r.smul (1 / k)).sub b = (r.sub (b.smul k)).smul (1 / k) := by
    ext <;> simp only [V3.sub, V3.smul] <;> field_simp
  have h1 : ((r.sub (b.smul k)).smul (1 / k)).norm = 1 / k * (r.sub (b.smul k)).norm := by
    rw [norm_smul, abs_of_pos (by positivity)]
  have h2 : ((r.sub (b.smul k)).smul (1 / k)).dot ((r.sub (b.smul k)).smul (1 / k)) =
      1 / k * (1 / k) * (r.sub (b.smul k)).dot (r.sub (b.smul k)) := by
    simp only [V3.dot, V3.smul]
    ring
  have h3 : (b.smul k).norm = k * b.norm := by rw [norm_smul, abs_of_pos hk]
  have h4 : (b.smul k).dot (b.smul k) = k * k * b.dot b := by
    simp only [V3.dot, V3.smul]
    ring
  unfold pointMass
  simp only [hd, h1, h2, h3, h4]
  generalize r.sub (b.smul k) = D
  rcases eq_or_ne D.norm 0 with hD | hD
  · have hD2 : D.dot D = 0 := by rw [← V3.norm_sq, hD, mul_zero]
    rcases eq_or_ne b.norm 0 with hb | hb
    · simp only [hD, hD2, hb]
      ext <;> simp [V3.add, V3.smul]
    · have hb2 : b.dot b ≠ 0 := by rw [← V3.norm_sq]; exact mul_ne_zero hb hb
      simp only [hD, hD2]
      ext <;> simp only [V3.add, V3.smul] <;> field_simp <;> ring
  · have hD2 : D.dot D ≠ 0 := by rw [← V3.norm_sq]; exact mul_ne_zero hD hD
    rcases eq_or_ne b.norm 0 with hb | hb
    · have hb2 : b.dot b = 0 := by rw [← V3.norm_sq, hb, mul_zero]
      simp only [hb, hb2]
      ext <;> simp only [V3.add, V3.smul] <;> field_simp <;> ring
    · have hb2 : b.dot b ≠ 0 := by rw [← V3.norm_sq]; exact mul_ne_zero hb hb
      ext <;> simp only [V3.add, V3.smul] <;> field_simp <;> ring

/-- **C83** (partial) The acceleration by the Moon is that of the point-mass law in metres, the position
of the Sun is returned in metres, and positions are taken for the TT date. -/
theorem moon_acceleration_partial (GMSun GMMon : ℝ) (rsun rmon rsat : V3) (mjdTai : ℝ) :
    (sunMoon GMSun GMMon rsun rmon rsat).2.1 = pointMass (GMMon * 1000 ^ 3) rsat (rmon.smul 1000) ∧
    (sunMoon GMSun GMMon rsun rmon rsat).2.2.1 = rsun.smul 1000 ∧
    sunMoonJd mjdTai = mjdTai + 32.184 / 86400 + 2400000.5 := by
  refine ⟨?_, rfl, ?_⟩
  · have : (10 : ℝ) ^ 9 = 1000 ^ 3 := by norm_num
    rw [← this]
    rfl
  · unfold sunMoonJd
    have h := Int.floor_add_fract mjdTai
    simp only
    rw [← add_assoc, h]
    norm_num

/-- **C83** The acceleration by the Sun is a millionth of that of the point-mass law: kilometres are
divided by 1000 instead of multiplied. -/
theorem sun_acceleration_millionth (GMSun GMMon : ℝ) (rsun rmon rsat : V3) :
    (sunMoon GMSun GMMon rsun rmon rsat).1 =
      (pointMass (GMSun * 1000 ^ 3) rsat (rsun.smul 1000)).smul (1 / 1000000) := by
  rw [← pointMass_units 1000 GMSun (by norm_num)]
  unfold sunMoon
  simp only
  generalize pointMass GMSun (rsat.smul (1 / 1000)) rsun = a
  ext <;> simp only [V3.smul] <;> ring

/-- **C83, where it fails.**  A satellite one kilometre from the geocentre, the Sun at three
kilometres in the same direction. -/
theorem sun_acceleration_counterexample :
    (sunMoon 36 0 ⟨3, 0, 0⟩ ⟨1, 0, 0⟩ ⟨1000, 0, 0⟩).1.x = 5 / 1000 ∧
    (pointMass (36 * 1000 ^ 3) ⟨1000, 0, 0⟩ ⟨3000, 0, 0⟩).x = 5000 := by
  have hn : ∀ a : ℝ, V3.norm ⟨a, 0, 0⟩ = |a| := norm_unit
  constructor
  · rw [sun_acceleration_millionth]
    have e1 : V3.sub ⟨1000, 0, 0⟩ ⟨3000, 0, 0⟩ = (⟨-2000, 0, 0⟩ : V3) := by
      ext <;> norm_num [V3.sub]
    have e2 : V3.smul 1000 ⟨3, 0, 0⟩ = (⟨3000, 0, 0⟩ : V3) := by
      ext <;> norm_num [V3.smul]
    unfold pointMass
    simp only [e2, e1, hn]
    norm_num [V3.smul, V3.add, V3.dot]
  · have e1 : V3.sub ⟨1000, 0, 0⟩ ⟨3000, 0, 0⟩ = (⟨-2000, 0, 0⟩ : V3) := by
      ext <;> norm_num [V3.sub]
    unfold pointMass
    simp only [e1, hn]
    norm_num [V3.smul, V3.add, V3.dot]

/-! ### Concrete instances -/

/-- The hypotheses of `columns_partial`: no gravity, no Moon, constant density. -/
example : (∀ (p : ℝ → V3) (p' : V3) (t : ℝ), p t = vec turned 0 → HasVel p p' t →
      HasDerivAt (fun s => dragOnly.dens (p s)) ((densityGradient dragOnly.dens (vec turned 0)).dot p') t) ∧
    relVel dragOnly.w (vec turned 0) (vec turned 3) ≠ ⟨0, 0, 0⟩ := by
  refine ⟨fun p p' t _ _ => ?_, fun h => ?_⟩
  · exact (hasDerivAt_const t (1 : ℝ)).congr_deriv (by simp [densityGradient, dragOnly, V3.dot])
  · have := congrArg V3.x h
    simp [relVel, vec, turned, dragOnly, V3.sub, V3.cross, earthRate] at this

/-- Thirty seconds past midnight TAI, with 37 leap seconds: the day before, seven seconds to go. -/
example : (0 : ℝ) < ((37 : ℤ) : ℝ) / (86400 + ((0 : ℤ) : ℝ)) ∧ ((37 : ℤ) : ℝ) / (86400 + ((0 : ℤ) : ℝ)) ≤ 1 := by norm_num

/-- The Jason-3 plates meet the hypotheses of `area_bounds`. -/
example : ∀ p ∈ jason3, 0 ≤ p.surf ∧ p.normal.dot p.normal = 1 := by
  intro p hp
  simp only [jason3, List.mem_cons, List.not_mem_nil, or_false] at hp
  rcases hp with rfl | rfl | rfl | rfl | rfl | rfl | rfl | rfl <;> norm_num [V3.dot]

end Verif.Variational
