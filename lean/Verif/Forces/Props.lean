import Verif.Forces.Model
import Verif.Forces.Deriv
import Mathlib.Tactic.FieldSimp
import Mathlib.Tactic.Positivity

/-
C49 (drag), C50 (radiation pressure), C51 (third body).
-/
namespace Verif.Forces

open Real Verif.Astro

/-! ### C49 -/

theorem normalized_sq (v : V3) (k : ℝ) : (normalized v).smul (k * v.dot v) = v.smul (k * v.norm) := by
  unfold normalized
  split
  · rename_i h
    have hn : 0 < v.norm := Real.sqrt_pos.2 h
    rw [← V3.norm_sq]
    ext <;> simp only [V3.smul] <;> field_simp
  · rename_i h
    have h0 : v.dot v = 0 := le_antisymm (not_lt.1 h) (V3.dot_self_nonneg v)
    have h1 : v.norm = 0 := by unfold V3.norm; rw [h0, Real.sqrt_zero]
    rw [h0, h1]

/-- **C49** The law: half of `CD A/m rho |vrel|` times the relative velocity, backwards. -/
theorem drag_law (w : ℝ) (r v : V3) (Area CD Mass dens : ℝ) :
    drag w r v Area CD Mass dens
      = (relVel w r v).smul (-(1 / 2) * CD * (Area / Mass) * dens * (relVel w r v).norm) := by
  unfold drag
  simp only
  exact normalized_sq _ _

/-- **C49** Drag is opposite to the velocity relative to the rotating atmosphere. -/
theorem drag_antiparallel (w : ℝ) (r v : V3) (Area CD Mass dens : ℝ) (hA : 0 < Area) (hC : 0 < CD) (hM : 0 < Mass)
    (hd : 0 < dens) (h0 : v.sub ((⟨0, 0, w⟩ : V3).cross r) ≠ ⟨0, 0, 0⟩) :
    ∃ k > 0, drag w r v Area CD Mass dens = (v.sub ((⟨0, 0, w⟩ : V3).cross r)).smul (-k) := by
  have hn := V3.norm_pos _ h0
  refine ⟨1 / 2 * CD * (Area / Mass) * dens * (v.sub ((⟨0, 0, w⟩ : V3).cross r)).norm, by positivity, ?_⟩
  rw [drag_law]
  unfold relVel earthRate
  congr 1
  ring

theorem quad_jacobian (c : ℝ) (x0 : V3) (h0 : x0 ≠ ⟨0, 0, 0⟩) :
    IsJacobian (fun u => u.smul (c * u.norm))
      (((M3.one.smul x0.norm).add ((M3.outer x0 x0).smul (1 / x0.norm))).smul c) x0 := by
  intro p p' t hpt hp
  have hn := hp.norm (by rw [hpt]; exact h0)
  refine (hp.smul (hn.const_mul c)).congr ?_
  rw [hpt]
  ext <;> simp only [V3.add, V3.smul, M3.mulVec, M3.add, M3.smul, M3.one, M3.outer, V3.dot] <;> ring

/-- **C49** The velocity partials are the derivative of the acceleration. -/
theorem drag_velocity_partials (w : ℝ) (r v : V3) (Area CD Mass dens : ℝ) (h0 : relVel w r v ≠ ⟨0, 0, 0⟩) :
    IsJacobian (fun u => drag w r u Area CD Mass dens) (dragDV w r v Area CD Mass dens) v := by
  intro p p' t hpt hp
  have hrel : HasVel (fun s => relVel w r (p s)) p' t := by
    refine (hp.sub (hasVel_const ((earthRate w).cross r) t)).congr ?_
    ext <;> simp [V3.sub]
  have := quad_jacobian (-(1 / 2) * CD * (Area / Mass) * dens) (relVel w r v) h0 _ p' t
    (by simp only [hpt]) hrel
  simp only [drag_law]
  exact this

/-- **C49** The coefficient partials are the derivative of the acceleration. -/
theorem drag_coefficient_partials (w : ℝ) (r v : V3) (Area Mass dens : ℝ) (t : ℝ) :
    HasVel (fun s => drag w r v Area s Mass dens) (dragDC w r v Area Mass dens) t := by
  simp only [drag_law, dragDC]
  have hk : HasDerivAt (fun s : ℝ => -(1 / 2) * s * (Area / Mass) * dens * (relVel w r v).norm)
      (-(1 / 2) * (Area / Mass) * dens * (relVel w r v).norm) t := by
    have := ((hasDerivAt_id t).const_mul (-(1 / 2) * (Area / Mass) * dens * (relVel w r v).norm))
    refine (this.congr_of_eventuallyEq ?_).congr_deriv (by simp)
    refine Filter.Eventually.of_forall fun s => ?_
    simp only [id]
    ring
  refine ((hasVel_const (relVel w r v) t).smul hk).congr ?_
  ext <;> simp [V3.add, V3.smul]

/-- **C49** The position partials are the derivative of the acceleration, the density varying
with position. -/
theorem drag_position_partials (w : ℝ) (r v : V3) (Area CD Mass : ℝ) (dens : V3 → ℝ) (ddens : V3)
    (hdens : ∀ (p : ℝ → V3) (p' : V3) (t : ℝ), p t = r → HasVel p p' t →
      HasDerivAt (fun s => dens (p s)) (ddens.dot p') t)
    (h0 : relVel w r v ≠ ⟨0, 0, 0⟩) :
    IsJacobian (fun x => drag w x v Area CD Mass (dens x)) (dragDR w r v Area CD Mass (dens r) ddens) r := by
  intro p p' t hpt hp
  have hcross : HasVel (fun s => (earthRate w).cross (p s)) ((xOmega w).mulVec p') t := by
    refine ⟨?_, ?_, ?_⟩
    · refine ((hp.y.const_mul (-w))).congr_of_eventuallyEq (Filter.Eventually.of_forall fun s => ?_) |>.congr_deriv ?_
      · simp [V3.cross, earthRate]
      · simp [M3.mulVec, xOmega, V3.dot]
    · refine ((hp.x.const_mul w)).congr_of_eventuallyEq (Filter.Eventually.of_forall fun s => ?_) |>.congr_deriv ?_
      · simp [V3.cross, earthRate]
      · simp [M3.mulVec, xOmega, V3.dot]
    · refine (hasDerivAt_const t (0 : ℝ)).congr_of_eventuallyEq (Filter.Eventually.of_forall fun s => ?_) |>.congr_deriv ?_
      · simp [V3.cross, earthRate]
      · simp [M3.mulVec, xOmega, V3.dot]
  have hrel : HasVel (fun s => relVel w (p s) v) (((xOmega w).mulVec p').smul (-1)) t := by
    refine ((hasVel_const v t).sub hcross).congr ?_
    ext <;> simp [V3.sub, V3.smul]
  have hreln := hrel.norm (by simp only [hpt]; exact h0)
  have hd := hdens p p' t hpt hp
  have hk := (hd.mul hreln).const_mul (-(1 / 2) * CD * (Area / Mass))
  simp only [drag_law]
  have hmain := hrel.smul hk
  simp only [hpt] at hmain
  have hfun : (fun s => (relVel w (p s) v).smul
        (-(1 / 2) * CD * (Area / Mass) * ((fun s => dens (p s)) * fun s => (relVel w (p s) v).norm) s))
      = fun s => (relVel w (p s) v).smul
        (-(1 / 2) * CD * (Area / Mass) * dens (p s) * (relVel w (p s) v).norm) := by
    funext s
    congr 1
    simp only [Pi.mul_apply]
    ring
  rw [← hfun]
  refine hmain.congr ?_
  generalize hR : relVel w r v = R
  simp only [Pi.mul_apply, hpt, hR, dragDR, dragDV]
  have : R.norm ≠ 0 := (V3.norm_pos R (hR ▸ h0)).ne'
  ext <;> simp only [V3.add, V3.smul, M3.mulVec, M3.add, M3.smul, M3.one, M3.outer, M3.mul, M3.transpose, V3.dot,
    xOmega] <;> ring

/-- **C49 (partial: a frame whose third axis is that of the inertial frame)** With a rotation that
leaves the axis of rotation of the Earth alone, and the relative velocity read as it was computed,
the true-of-date overload agrees with the other two. -/
theorem drag_overloads_agree_partial (w : ℝ) (r v : V3) (rbpn : M3) (Area CD Mass dens : ℝ)
    (hrot : M3.Rotation rbpn) (hz : rbpn.mulVec (earthRate w) = earthRate w) :
    dragTod w id r v rbpn Area CD Mass dens = drag w r v Area CD Mass dens := by
  rw [drag_law]
  unfold dragTod
  simp only [id]
  have h1 : (rbpn.mulVec v).sub ((earthRate w).cross (rbpn.mulVec r)) = rbpn.mulVec (relVel w r v) := by
    have h2 : (earthRate w).cross (rbpn.mulVec r) = rbpn.mulVec ((earthRate w).cross r) := by
      rw [← hrot.cross, hz]
    rw [h2]
    ext <;> simp [relVel, V3.sub, M3.mulVec, V3.dot] <;> ring
  rw [h1]
  have h3 : (rbpn.mulVec (relVel w r v)).norm = (relVel w r v).norm := by
    unfold V3.norm
    rw [hrot.orth.dot]
  rw [h3, M3.mulVec_smul, ← M3.mul_mulVec, show M3.mul rbpn.transpose rbpn = M3.one from hrot.orth, M3.one_mulVec]

/-- **C49** In general the overloads differ: the axis of rotation is the third axis of the true
equator in one and of the inertial frame in the others. -/
theorem drag_overloads_counterexample : ∃ (rbpn : M3) (r v : V3), M3.Rotation rbpn ∧
    dragTod 1 id r v rbpn 1 2 1 1 ≠ drag 1 r v 1 2 1 1 := by
  refine ⟨M3.rotX (π / 2), ⟨0, 1, 0⟩, ⟨0, 0, 0⟩, M3.rotX_rotation _, ?_⟩
  rw [drag_law]
  intro h
  have hx := congrArg V3.x h
  simp [dragTod, relVel, earthRate, V3.cross, V3.sub, V3.smul, M3.mulVec, M3.rotX, M3.transpose, V3.dot, V3.norm] at hx

/-- **C49** The true-of-date overload reads a temporary that no longer exists: what it returns
depends on what is found there. -/
theorem drag_dangling_counterexample : ∃ (tmp : V3 → V3) (r v : V3),
    dragTod 1 tmp r v M3.one 1 2 1 1 ≠ dragTod 1 id r v M3.one 1 2 1 1 := by
  refine ⟨fun _ => ⟨1, 0, 0⟩, ⟨0, 0, 0⟩, ⟨1, 0, 0⟩, ?_⟩
  intro h
  have hx := congrArg V3.x h
  simp [dragTod, earthRate, V3.cross, V3.sub, V3.smul, M3.mulVec, M3.one, M3.transpose, V3.dot, V3.norm] at hx

/-! ### C50 -/

/-- **C50** Away from the Sun, for a positive coefficient. -/
theorem srp_direction (AU : ℝ) (rsat rsun : V3) (Area mass C : ℝ) (hAU : 0 < AU) (hA : 0 < Area) (hm : 0 < mass)
    (hC : 0 < C) (h0 : rsat.sub rsun ≠ ⟨0, 0, 0⟩) :
    ∃ k > 0, srp AU rsat rsun Area mass C = (rsat.sub rsun).smul k := by
  have hn := V3.norm_pos _ h0
  have hP : 0 < P0 := by unfold P0; positivity
  refine ⟨C * (Area / mass) * P0 * (AU * AU)
    * (1 / ((rsat.sub rsun).norm * (rsat.sub rsun).norm * (rsat.sub rsun).norm)), by positivity, ?_⟩
  unfold srp
  ext <;> simp only [V3.smul] <;> ring

theorem norm_smul (k : ℝ) (v : V3) : (v.smul k).norm = |k| * v.norm := by
  unfold V3.norm
  have : (v.smul k).dot (v.smul k) = k ^ 2 * v.dot v := by
    simp only [V3.dot, V3.smul]
    ring
  rw [this, Real.sqrt_mul (sq_nonneg k), Real.sqrt_sq_eq_abs]

/-- **C50** Inverse-square law: at distance `D` the magnitude is `C (A/m) p (AU/D)^2`, with the pressure of sunlight at one
astronomical unit, `p = 4.56316e-6` N/m^2. -/
theorem srp_inverse_square (AU : ℝ) (rsat rsun : V3) (Area mass C : ℝ) (hA : 0 < Area)
    (hm : 0 < mass) (hC : 0 < C) (h0 : rsat.sub rsun ≠ ⟨0, 0, 0⟩) :
    (srp AU rsat rsun Area mass C).norm =
      C * (Area / mass) * 4.56316e-6 * (AU / (rsat.sub rsun).norm) ^ 2 := by
  rw [show (4.56316e-6 : ℝ) = P0 by unfold P0; norm_num]
  have hn := V3.norm_pos _ h0
  have hP : 0 < P0 := by unfold P0; positivity
  unfold srp
  simp only
  rw [norm_smul, norm_smul, abs_of_nonneg (mul_nonneg (by positivity : (0:ℝ) ≤ C * (Area / mass) * P0) (mul_self_nonneg AU)),
    abs_of_pos (by positivity)]
  field_simp

/-- **C50** Both overloads return the same acceleration. -/
theorem srp_overloads_agree (AU : ℝ) (rsat rsun : V3) (Area mass C : ℝ) :
    (srpPartials AU rsat rsun Area mass C).1 = srp AU rsat rsun Area mass C := rfl

/-- The inverse-square field and its derivative. -/
theorem inverse_cube_jacobian (c : ℝ) (s x0 : V3) (h0 : x0.sub s ≠ ⟨0, 0, 0⟩) :
    IsJacobian (fun x => ((x.sub s).smul c).smul (1 / ((x.sub s).norm * (x.sub s).norm * (x.sub s).norm)))
      (((M3.one.smul (1 / ((x0.sub s).norm * (x0.sub s).norm * (x0.sub s).norm))).add
        ((M3.outer (x0.sub s) (x0.sub s)).smul
          (-3 / ((x0.sub s).norm * (x0.sub s).norm * (x0.sub s).norm * (x0.sub s).norm * (x0.sub s).norm)))).smul c)
      x0 := by
  intro p p' t hpt hp
  have hd : HasVel (fun u => (p u).sub s) p' t := by
    refine (hp.sub (hasVel_const s t)).congr ?_
    ext <;> simp [V3.sub]
  have h0' : (p t).sub s ≠ ⟨0, 0, 0⟩ := by rw [hpt]; exact h0
  have hn := hd.norm h0'
  have hpos : 0 < (x0.sub s).norm := V3.norm_pos _ h0
  have hc : HasDerivAt (fun _ : ℝ => c) 0 t := hasDerivAt_const _ _
  have h3 := (hn.mul hn).mul hn
  have hne : ((((fun u => ((p u).sub s).norm) * fun u => ((p u).sub s).norm) * fun u => ((p u).sub s).norm) : ℝ → ℝ) t
      ≠ 0 := by
    simp only [Pi.mul_apply, hpt]
    positivity
  have hinv := h3.inv hne
  have hmain := (hd.smul hc).smul hinv
  have hfun : (fun u => (((p u).sub s).smul c).smul
        ((((fun u => ((p u).sub s).norm) * fun u => ((p u).sub s).norm) * fun u => ((p u).sub s).norm)⁻¹ u))
      = fun u => (((p u).sub s).smul c).smul
        (1 / (((p u).sub s).norm * ((p u).sub s).norm * ((p u).sub s).norm)) := by
    funext u
    congr 1
    simp only [Pi.inv_apply, Pi.mul_apply, one_div]
  rw [← hfun]
  refine hmain.congr ?_
  simp only [Pi.mul_apply, Pi.inv_apply, hpt]
  generalize x0.sub s = d at *
  generalize d.norm = n at *
  ext <;> simp only [V3.add, V3.smul, M3.mulVec, M3.add, M3.smul, M3.one, M3.outer, V3.dot] <;> field_simp <;> ring

/-- **C50** The position partials are the derivative of the acceleration. -/
theorem srp_position_partials (AU : ℝ) (rsat rsun : V3) (Area mass C : ℝ) (h0 : rsat.sub rsun ≠ ⟨0, 0, 0⟩) :
    IsJacobian (fun x => srp AU x rsun Area mass C) (srpPartials AU rsat rsun Area mass C).2.1 rsat := by
  have := inverse_cube_jacobian (C * (Area / mass) * P0 * (AU * AU)) rsun rsat h0
  have hJ : (srpPartials AU rsat rsun Area mass C).2.1
      = (((M3.one.smul (1 / ((rsat.sub rsun).norm * (rsat.sub rsun).norm * (rsat.sub rsun).norm))).add
        ((M3.outer (rsat.sub rsun) (rsat.sub rsun)).smul
          (-3 / ((rsat.sub rsun).norm * (rsat.sub rsun).norm * (rsat.sub rsun).norm * (rsat.sub rsun).norm
            * (rsat.sub rsun).norm)))).smul (C * (Area / mass) * P0 * (AU * AU))) := by
    unfold srpPartials
    simp only
    congr 1
    ring
  rw [hJ]
  exact this

/-- **C50 (partial: coefficients other than zero)** The coefficient partials are the derivative. -/
theorem srp_coefficient_partials_partial (AU : ℝ) (rsat rsun : V3) (Area mass C : ℝ) (hC : C ≠ 0) :
    ∃ a, (srpPartials AU rsat rsun Area mass C).2.2 = some a ∧
      HasVel (fun s => srp AU rsat rsun Area mass s) a C := by
  refine ⟨(srp AU rsat rsun Area mass C).smul (1 / C), ?_, ?_⟩
  · simp [srpPartials, hC, srp]
  · unfold srp
    simp only
    have hk : HasDerivAt (fun s : ℝ => s * (Area / mass) * P0 * (AU * AU)) ((Area / mass) * P0 * (AU * AU)) C := by
      have := ((hasDerivAt_id C).mul_const (Area / mass)).mul_const P0 |>.mul_const (AU * AU)
      simpa using this
    have hD : HasDerivAt (fun _ : ℝ => 1 / ((rsat.sub rsun).norm * (rsat.sub rsun).norm * (rsat.sub rsun).norm)) 0 C :=
      hasDerivAt_const _ _
    refine (((hasVel_const (rsat.sub rsun) C).smul hk).smul hD).congr ?_
    ext <;> simp only [V3.add, V3.smul] <;> field_simp <;> ring

/-- **C50** With a zero coefficient the quotient is 0/0, though the derivative exists. -/
theorem srp_zero_coefficient_counterexample (AU : ℝ) (rsat rsun : V3) (Area mass : ℝ) :
    (srpPartials AU rsat rsun Area mass 0).2.2 = none := by simp [srpPartials]

/-! ### C51 -/

/-- **C51** The tidal acceleration vanishes at the geocentre. -/
theorem point_mass_geocentre (GM : ℝ) (robj : V3) : pointMass GM ⟨0, 0, 0⟩ robj = ⟨0, 0, 0⟩ := by
  have h1 : (V3.sub ⟨0, 0, 0⟩ robj).dot (V3.sub ⟨0, 0, 0⟩ robj) = robj.dot robj := by
    simp [V3.sub, V3.dot]
  have h2 : (V3.sub ⟨0, 0, 0⟩ robj).norm = robj.norm := by
    unfold V3.norm
    rw [h1]
  unfold pointMass
  simp only
  rw [h1, h2]
  ext <;> simp [V3.sub, V3.add, V3.smul]

/-- **C51** Both overloads return the same acceleration. -/
theorem point_mass_overloads_agree (GM : ℝ) (rsat robj : V3) :
    (pointMassPartials GM rsat robj).1 = pointMass GM rsat robj := rfl

/-- The true derivative of the third-body acceleration. -/
noncomputable def tidalJacobian (GM : ℝ) (d : V3) : M3 :=
  ((M3.one.smul (1 / (d.norm * d.norm * d.norm))).add
    ((M3.outer d d).smul (-3 / (d.norm * d.norm * d.norm * d.norm * d.norm)))).smul (-GM)

theorem point_mass_jacobian (GM : ℝ) (rsat robj : V3) (h0 : rsat.sub robj ≠ ⟨0, 0, 0⟩) :
    IsJacobian (fun x => pointMass GM x robj) (tidalJacobian GM (rsat.sub robj)) rsat := by
  intro p p' t hpt hp
  have h1 := inverse_cube_jacobian (-GM) robj rsat h0 p p' t hpt hp
  have h2 := h1.add (hasVel_const ((robj.smul (1 / (robj.norm * robj.dot robj))).smul (-GM)) t)
  have hfun : (fun u => V3.add ((((p u).sub robj).smul (-GM)).smul
        (1 / (((p u).sub robj).norm * ((p u).sub robj).norm * ((p u).sub robj).norm)))
        ((robj.smul (1 / (robj.norm * robj.dot robj))).smul (-GM))) = fun u => pointMass GM (p u) robj := by
    funext u
    unfold pointMass
    simp only
    rw [← V3.norm_sq ((p u).sub robj), ← _root_.mul_assoc]
    ext <;> simp only [V3.add, V3.smul] <;> ring
  rw [hfun] at h2
  refine h2.congr ?_
  ext <;> simp [V3.add, tidalJacobian]

/-- **C51 (partial: across the line to the body)** The partials returned are right in the
directions perpendicular to the line from the body to the satellite. -/
theorem point_mass_partials_partial (GM : ℝ) (rsat robj : V3) (h0 : rsat.sub robj ≠ ⟨0, 0, 0⟩)
    (p : ℝ → V3) (p' : V3) (t : ℝ) (hpt : p t = rsat) (hp : HasVel p p' t) (hperp : (rsat.sub robj).dot p' = 0) :
    HasVel (fun s => pointMass GM (p s) robj) ((pointMassPartials GM rsat robj).2.mulVec p') t := by
  refine (point_mass_jacobian GM rsat robj h0 p p' t hpt hp).congr ?_
  unfold tidalJacobian pointMassPartials
  simp only
  rw [← V3.norm_sq (rsat.sub robj)]
  have ho : (M3.outer (rsat.sub robj) (rsat.sub robj)).mulVec p' = ⟨0, 0, 0⟩ := by
    ext <;> simp only [M3.outer, M3.mulVec, V3.dot, V3.smul] <;>
      simp only [V3.dot] at hperp
    · linear_combination (rsat.sub robj).x * hperp
    · linear_combination (rsat.sub robj).y * hperp
    · linear_combination (rsat.sub robj).z * hperp
  have hlin : ∀ (c a b : ℝ) (O : M3), (((M3.one.smul a).add (O.smul b)).smul c).mulVec p'
      = (p'.smul (a * c)).add ((O.mulVec p').smul (b * c)) := by
    intro c a b O
    ext <;> simp only [M3.mulVec, M3.smul, M3.add, M3.one, V3.dot, V3.smul, V3.add] <;> ring
  rw [hlin, hlin, ho]
  ext <;> simp only [V3.add, V3.smul] <;> ring

theorem norm_unit (a : ℝ) : V3.norm ⟨a, 0, 0⟩ = |a| := by
  unfold V3.norm V3.dot
  simp only
  rw [show a * a + 0 * 0 + 0 * 0 = a ^ 2 by ring, Real.sqrt_sq_eq_abs]

/-- **C51** Along the line to the body the partials are wrong: a satellite at rest one unit from a
body two units away feels a gradient of +2, the partials say -11/8. -/
theorem point_mass_partials_counterexample :
    ¬ IsJacobian (fun x => pointMass 1 x ⟨2, 0, 0⟩) (pointMassPartials 1 ⟨1, 0, 0⟩ ⟨2, 0, 0⟩).2 ⟨1, 0, 0⟩ := by
  intro h
  have h0 : V3.sub ⟨1, 0, 0⟩ ⟨2, 0, 0⟩ ≠ (⟨0, 0, 0⟩ : V3) := by
    intro hh
    have := congrArg V3.x hh
    norm_num [V3.sub] at this
  have hj := point_mass_jacobian 1 ⟨1, 0, 0⟩ ⟨2, 0, 0⟩ h0
  let p : ℝ → V3 := fun s => ⟨s, 0, 0⟩
  have hp : HasVel p ⟨1, 0, 0⟩ 1 := ⟨hasDerivAt_id 1, hasDerivAt_const _ _, hasDerivAt_const _ _⟩
  have a1 := (h p ⟨1, 0, 0⟩ 1 rfl hp).x
  have a2 := (hj p ⟨1, 0, 0⟩ 1 rfl hp).x
  have := a1.unique a2
  have hs : V3.sub ⟨1, 0, 0⟩ ⟨2, 0, 0⟩ = (⟨-1, 0, 0⟩ : V3) := by ext <;> norm_num [V3.sub]
  simp only [pointMassPartials, tidalJacobian, hs, norm_unit] at this
  norm_num [M3.mulVec, M3.smul, M3.add, M3.one, M3.outer, V3.dot, V3.smul, V3.add] at this

/-! ### Concrete instances -/

example : ∃ (r v : V3), relVel 1 r v ≠ ⟨0, 0, 0⟩ ∧ r.sub v ≠ ⟨0, 0, 0⟩ := by
  refine ⟨⟨1, 0, 0⟩, ⟨0, 3, 0⟩, fun h => ?_, fun h => ?_⟩
  · have := congrArg V3.y h
    norm_num [relVel, earthRate, V3.cross, V3.sub] at this
  · have := congrArg V3.x h
    norm_num [V3.sub] at this

end Verif.Forces
