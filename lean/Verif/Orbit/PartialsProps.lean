import Verif.Orbit.PartialsLemmas
import Mathlib.Data.Fin.VecNotation
import Mathlib.Algebra.BigOperators.Fin

/-
C76: `state_partials` returns the partial derivatives of the two-body state with respect to the
orbital elements.
-/
namespace Verif.Orbit

open Real Verif.Astro Filter Topology

/-! ### Specification -/

/-- The two-body state for given elements and eccentric anomaly. -/
noncomputable def stateOf (GM E : ℝ) (ele : Elements) : V3 × V3 :=
  ((gauss ele).mulVec (perifocalR ele.a ele.e E), (gauss ele).mulVec (perifocalV GM ele.a ele.e E))

/-- `d` holds the derivatives of the six elements along the curve `el`. -/
structure ElementsDeriv (el : ℝ → Elements) (d : Elements) (s : ℝ) : Prop where
  a : HasDerivAt (fun t => (el t).a) d.a s
  e : HasDerivAt (fun t => (el t).e) d.e s
  i : HasDerivAt (fun t => (el t).i) d.i s
  Omega : HasDerivAt (fun t => (el t).Omega) d.Omega s
  omega : HasDerivAt (fun t => (el t).omega) d.omega s
  M : HasDerivAt (fun t => (el t).M) d.M s

/-- Elements as a vector. -/
def Elements.vec (d : Elements) : Fin 6 → ℝ := ![d.a, d.e, d.i, d.Omega, d.omega, d.M]

/-- `E` is the eccentric anomaly at `dt` after the epoch of the elements. -/
def IsAnomaly (GM dt : ℝ) (ele : Elements) (E : ℝ) : Prop :=
  Solves ele.e (ele.M + √(GM / (ele.a * ele.a * ele.a)) * dt) E

/-! ### Lemmas -/

/-- Derivative of a vector along a curve. -/
structure VDeriv (f : ℝ → V3) (f' : V3) (s : ℝ) : Prop where
  x : HasDerivAt (fun t => (f t).x) f'.x s
  y : HasDerivAt (fun t => (f t).y) f'.y s
  z : HasDerivAt (fun t => (f t).z) f'.z s

theorem VDeriv.comb {p q : ℝ → ℝ} {P Q : ℝ → V3} {p' q' s : ℝ} {P' Q' : V3} (hp : HasDerivAt p p' s)
    (hq : HasDerivAt q q' s) (hP : VDeriv P P' s) (hQ : VDeriv Q Q' s) :
    VDeriv (fun t => Orbit.comb (p t) (P t) (q t) (Q t))
      ((Orbit.comb p' (P s) q' (Q s)).add (Orbit.comb (p s) P' (q s) Q')) s := by
  constructor
  · refine ((hp.mul hP.x).add (hq.mul hQ.x)).congr_deriv ?_
    simp only [Orbit.comb, V3.add, V3.smul]
    ring
  · refine ((hp.mul hP.y).add (hq.mul hQ.y)).congr_deriv ?_
    simp only [Orbit.comb, V3.add, V3.smul]
    ring
  · refine ((hp.mul hP.z).add (hq.mul hQ.z)).congr_deriv ?_
    simp only [Orbit.comb, V3.add, V3.smul]
    ring

/-- Entries of the Gaussian vectors. -/
theorem colP_gauss (ele : Elements) : colP (gauss ele) =
    ⟨cos ele.Omega * cos ele.omega - sin ele.Omega * cos ele.i * sin ele.omega,
     sin ele.Omega * cos ele.omega + cos ele.Omega * cos ele.i * sin ele.omega,
     sin ele.i * sin ele.omega⟩ := by
  ext <;> simp [colP, gauss, M3.mul, M3.mulVec, M3.transpose, M3.rotZ, M3.rotX, V3.dot] <;> ring

theorem colQ_gauss (ele : Elements) : colQ (gauss ele) =
    ⟨-(cos ele.Omega * sin ele.omega) - sin ele.Omega * cos ele.i * cos ele.omega,
     -(sin ele.Omega * sin ele.omega) + cos ele.Omega * cos ele.i * cos ele.omega,
     sin ele.i * cos ele.omega⟩ := by
  ext <;> simp [colQ, gauss, M3.mul, M3.mulVec, M3.transpose, M3.rotZ, M3.rotX, V3.dot] <;> ring

theorem colW_gauss (ele : Elements) : colW (gauss ele) =
    ⟨sin ele.Omega * sin ele.i, -(cos ele.Omega * sin ele.i), cos ele.i⟩ := by
  ext <;> simp [colW, gauss, M3.mul, M3.mulVec, M3.transpose, M3.rotZ, M3.rotX, V3.dot] <;> ring

/-- For inclinations strictly between 0 and π the vector is the unit vector to the node. -/
theorem nodeVec_gauss (ele : Elements) (hi : 0 < sin ele.i) :
    nodeVec (colW (gauss ele)) = ⟨cos ele.Omega, sin ele.Omega, 0⟩ := by
  have hn : (unitZ.cross (colW (gauss ele))).norm = sin ele.i := by
    rw [colW_gauss]
    simp only [unitZ, V3.cross, V3.norm, V3.dot]
    rw [show (0 * cos ele.i - 1 * -(cos ele.Omega * sin ele.i)) * (0 * cos ele.i - 1 * -(cos ele.Omega * sin ele.i)) +
        (1 * (sin ele.Omega * sin ele.i) - 0 * cos ele.i) * (1 * (sin ele.Omega * sin ele.i) - 0 * cos ele.i) +
        (0 * -(cos ele.Omega * sin ele.i) - 0 * (sin ele.Omega * sin ele.i)) *
          (0 * -(cos ele.Omega * sin ele.i) - 0 * (sin ele.Omega * sin ele.i)) = sin ele.i * sin ele.i by
      linear_combination (sin ele.i) ^ 2 * sin_sq_add_cos_sq ele.Omega]
    exact sqrt_mul_self hi.le
  unfold nodeVec
  simp only [hn]
  rw [colW_gauss]
  ext <;> simp [unitZ, V3.cross, V3.smul] <;> field_simp

theorem colP_deriv {el : ℝ → Elements} {d : Elements} {s : ℝ} (h : ElementsDeriv el d s)
    (hi : 0 < sin (el s).i) :
    VDeriv (fun t => colP (gauss (el t)))
      (((((nodeVec (colW (gauss (el s)))).cross (colP (gauss (el s)))).smul d.i).add
        ((unitZ.cross (colP (gauss (el s)))).smul d.Omega)).add ((colQ (gauss (el s))).smul d.omega)) s := by
  rw [nodeVec_gauss _ hi]
  simp only [colP_gauss, colQ_gauss]
  constructor
  · refine ((h.Omega.cos.mul h.omega.cos).sub ((h.Omega.sin.mul h.i.cos).mul h.omega.sin)).congr_deriv ?_
    simp only [V3.add, V3.smul, V3.cross, unitZ, Pi.mul_apply]
    ring
  · refine ((h.Omega.sin.mul h.omega.cos).add ((h.Omega.cos.mul h.i.cos).mul h.omega.sin)).congr_deriv ?_
    simp only [V3.add, V3.smul, V3.cross, unitZ, Pi.mul_apply]
    ring
  · refine (h.i.sin.mul h.omega.sin).congr_deriv ?_
    simp only [V3.add, V3.smul, V3.cross, unitZ]
    linear_combination (-(d.i * cos (el s).i * sin (el s).omega)) * sin_sq_add_cos_sq (el s).Omega

theorem colQ_deriv {el : ℝ → Elements} {d : Elements} {s : ℝ} (h : ElementsDeriv el d s)
    (hi : 0 < sin (el s).i) :
    VDeriv (fun t => colQ (gauss (el t)))
      (((((nodeVec (colW (gauss (el s)))).cross (colQ (gauss (el s)))).smul d.i).add
        ((unitZ.cross (colQ (gauss (el s)))).smul d.Omega)).add
          (((colP (gauss (el s))).smul (-1)).smul d.omega)) s := by
  rw [nodeVec_gauss _ hi]
  simp only [colP_gauss, colQ_gauss]
  constructor
  · refine ((h.Omega.cos.mul h.omega.sin).neg.sub ((h.Omega.sin.mul h.i.cos).mul h.omega.cos)).congr_deriv ?_
    simp only [V3.add, V3.smul, V3.cross, unitZ, Pi.mul_apply]
    ring
  · refine ((h.Omega.sin.mul h.omega.sin).neg.add ((h.Omega.cos.mul h.i.cos).mul h.omega.cos)).congr_deriv ?_
    simp only [V3.add, V3.smul, V3.cross, unitZ, Pi.mul_apply]
    ring
  · refine (h.i.sin.mul h.omega.cos).congr_deriv ?_
    simp only [V3.add, V3.smul, V3.cross, unitZ]
    linear_combination (-(d.i * cos (el s).i * cos (el s).omega)) * sin_sq_add_cos_sq (el s).Omega

theorem stateOf_comb (GM E : ℝ) (ele : Elements) : stateOf GM E ele =
    (comb (perifocalR ele.a ele.e E).x (colP (gauss ele)) (perifocalR ele.a ele.e E).y (colQ (gauss ele)),
     comb (perifocalV GM ele.a ele.e E).x (colP (gauss ele)) (perifocalV GM ele.a ele.e E).y (colQ (gauss ele))) := by
  unfold stateOf
  ext <;> simp [comb, colP, colQ, M3.mulVec, V3.dot, V3.add, V3.smul, perifocalR, perifocalV] <;> ring

/-- The four perifocal coordinates along the curve, with the derivatives the code uses. -/
theorem perifocal_deriv {GM dt s : ℝ} {el : ℝ → Elements} {d : Elements} {E : ℝ → ℝ} (hG : 0 < GM)
    (h : ElementsDeriv el d s) (ha : 0 < (el s).a) (h0 : 0 ≤ (el s).e) (h1 : (el s).e < 1)
    (hK : ∀ᶠ t in 𝓝 s, IsAnomaly GM dt (el t) (E t)) :
    let a := (el s).a
    let e := (el s).e
    let p := perifocalR a e (E s)
    let q := perifocalV GM a e (E s)
    let r := p.norm
    let fac := √((1 - e) * (1 + e))
    let n := √(GM / (a * a * a))
    let m' := d.M + -(3 / 2) * (n / a) * dt * d.a
    HasDerivAt (fun t => (perifocalR (el t).a (el t).e (E t)).x)
      (p.x / a * d.a + (-a - (p.y / fac) ^ 2 / r) * d.e + q.x / n * m') s ∧
    HasDerivAt (fun t => (perifocalR (el t).a (el t).e (E t)).y)
      (p.y / a * d.a + p.x * p.y / (r * fac * fac) * d.e + q.y / n * m') s ∧
    HasDerivAt (fun t => (perifocalV GM (el t).a (el t).e (E t)).x)
      (-q.x / (2 * a) * d.a + q.x * (2 * a * p.x + e * (p.y / fac) ^ 2) / (r * r) * d.e +
        -n * (a / r) ^ 3 * p.x * m') s ∧
    HasDerivAt (fun t => (perifocalV GM (el t).a (el t).e (E t)).y)
      (-q.y / (2 * a) * d.a + n / fac * (a / r) ^ 2 * (p.x * p.x / r - (p.y / fac) ^ 2 / a) * d.e +
        -n * (a / r) ^ 3 * p.y * m') s := by
  intro a e p q r fac n m'
  have hn := motion_deriv hG h.a ha
  have hm : HasDerivAt (fun t => (el t).M + √(GM / ((el t).a * (el t).a * (el t).a)) * dt) m' s := by
    refine (h.M.add (hn.mul_const dt)).congr_deriv ?_
    simp only [m', n, a]
    ring
  have hE := anomaly_deriv h.e hm h0 h1 hK
  have hw : 0 < 1 - e * cos (E s) := lt_of_lt_of_le (by simp only [e]; linarith) (one_sub_ecos e (E s) h0).1
  have hp : 0 < (1 - e) * (1 + e) := by simp only [e]; nlinarith
  have hf : fac ≠ 0 := (sqrt_pos.2 hp).ne'
  have hf2 : fac * fac = 1 - e ^ 2 := by
    simp only [fac]
    rw [mul_self_sqrt hp.le]
    ring
  have hk : √(GM * a) ≠ 0 := (sqrt_pos.2 (mul_pos hG ha)).ne'
  have hcs := sin_sq_add_cos_sq (E s)
  have hr : r = a * (1 - e * cos (E s)) := perifocalR_norm ha h0 h1
  have hnn : n = √(GM * a) / (a * a) := motion_eq hG ha
  have hR := perifocalR_deriv h.a h.e hE h0 h1
  have hV := perifocalV_deriv hG h.a h.e hE ha h0 h1 _ rfl
  refine ⟨hR.1.congr_deriv ?_, hR.2.congr_deriv ?_, hV.1.congr_deriv ?_, hV.2.congr_deriv ?_⟩
  · rw [hr, hnn]
    exact algebra_x (k := √(GM * a)) (f := fac) ha.ne' hw.ne' hf hk
  · rw [hr, hnn]
    exact algebra_y (k := √(GM * a)) (f := fac) ha.ne' hw.ne' hf hk rfl hf2
  · rw [hr, hnn]
    exact algebra_vx (k := √(GM * a)) (f := fac) ha.ne' hw.ne' hf hk rfl hcs
  · rw [hr, hnn]
    exact algebra_vy (k := √(GM * a)) (f := fac) ha.ne' hw.ne' hf hk rfl hcs hf2

/-! ### C76 -/

/-- **C76** The matrix is the total derivative: along every differentiable curve of elements, the
state moves with the matrix times the derivatives of the elements. -/
theorem state_partials_deriv {GM dt s : ℝ} {el : ℝ → Elements} {d : Elements} {E : ℝ → ℝ} (hG : 0 < GM)
    (h : ElementsDeriv el d s) (ha : 0 < (el s).a) (h0 : 0 ≤ (el s).e) (h1 : (el s).e < 1)
    (hi : 0 < sin (el s).i) (hK : ∀ᶠ t in 𝓝 s, IsAnomaly GM dt (el t) (E t)) (k : Fin 6) :
    HasDerivAt (fun t => comp (stateOf GM (E t) (el t)) k)
      ((ofCols (statePartialsAt GM (el s) dt
        (perifocalR (el s).a (el s).e (E s), perifocalV GM (el s).a (el s).e (E s)))).mulVec d.vec k) s := by
  obtain ⟨hx, hy, hvx, hvy⟩ := perifocal_deriv hG h ha h0 h1 hK
  have hP := colP_deriv h hi
  have hQ := colQ_deriv h hi
  have hpos := VDeriv.comb hx hy hP hQ
  have hvel := VDeriv.comb hvx hvy hP hQ
  simp only [stateOf_comb]
  fin_cases k
  · refine hpos.x.congr_deriv ?_
    simp [ofCols, comp, Matrix.mulVec, dotProduct, Fin.sum_univ_six, statePartialsAt, Elements.vec, comb, V3.add, V3.smul]
    ring
  · refine hpos.y.congr_deriv ?_
    simp [ofCols, comp, Matrix.mulVec, dotProduct, Fin.sum_univ_six, statePartialsAt, Elements.vec, comb, V3.add, V3.smul]
    ring
  · refine hpos.z.congr_deriv ?_
    simp [ofCols, comp, Matrix.mulVec, dotProduct, Fin.sum_univ_six, statePartialsAt, Elements.vec, comb, V3.add, V3.smul]
    ring
  · refine hvel.x.congr_deriv ?_
    simp [ofCols, comp, Matrix.mulVec, dotProduct, Fin.sum_univ_six, statePartialsAt, Elements.vec, comb, V3.add, V3.smul]
    ring
  · refine hvel.y.congr_deriv ?_
    simp [ofCols, comp, Matrix.mulVec, dotProduct, Fin.sum_univ_six, statePartialsAt, Elements.vec, comb, V3.add, V3.smul]
    ring
  · refine hvel.z.congr_deriv ?_
    simp [ofCols, comp, Matrix.mulVec, dotProduct, Fin.sum_univ_six, statePartialsAt, Elements.vec, comb, V3.add, V3.smul]
    ring

/-- **C76** For the function as it is called, if the solver's anomaly is exact up to revolutions. -/
theorem state_partials_code {GM dt s : ℝ} {el : ℝ → Elements} {d : Elements} {E : ℝ → ℝ} (hG : 0 < GM)
    (h : ElementsDeriv el d s) (ha : 0 < (el s).a) (h0 : 0 ≤ (el s).e) (h1 : (el s).e < 1)
    (hi : 0 < sin (el s).i) (hK : ∀ᶠ t in 𝓝 s, IsAnomaly GM dt (el t) (E t)) (j : ℤ)
    (hs : (anomaly GM (el s) dt).1 = E s + j * (2 * π)) (k : Fin 6) :
    HasDerivAt (fun t => comp (stateOf GM (E t) (el t)) k)
      ((ofCols (statePartials GM (el s) dt)).mulVec d.vec k) s := by
  have hp : elements2perifocal GM (el s) dt =
      (perifocalR (el s).a (el s).e (E s), perifocalV GM (el s).a (el s).e (E s)) := by
    unfold elements2perifocal
    rw [hs]
    simp [perifocalR, perifocalV]
  unfold statePartials
  rw [hp]
  exact state_partials_deriv hG h ha h0 h1 hi hK k

/-- The state whose derivative is meant is the one `propagate_state` computes. -/
theorem stateOf_propagate (GM dt : ℝ) (ele : Elements) :
    propagateState GM ele dt = stateOf GM (anomaly GM ele dt).1 ele := rfl

/-- **C76, outside the hypotheses**: for an equatorial orbit the vector to the node is divided by
zero, although the derivative with respect to the inclination exists. -/
theorem equatorial_counterexample :
    (unitZ.cross (colW (gauss ⟨1, 0, 0, 0, 0, 0⟩))).norm = 0 ∧
    ∃ y', HasDerivAt (fun t => (stateOf 1 0 ⟨1, 0, t, 0, π / 2, 0⟩).1.z) y' 0 ∧ y' ≠ 0 := by
  constructor
  · rw [colW_gauss]
    simp [unitZ, V3.cross, V3.norm, V3.dot]
  · refine ⟨1, ?_, one_ne_zero⟩
    have hf : (fun t : ℝ => (stateOf 1 0 ⟨1, 0, t, 0, π / 2, 0⟩).1.z) = fun t => sin t := by
      funext t
      rw [stateOf_comb, colP_gauss, colQ_gauss]
      simp [comb, V3.add, V3.smul, perifocalR]
    rw [hf]
    simpa using hasDerivAt_sin 0

/-- The hypotheses are met by an ellipse whose axis and anomaly vary; the solver is exact for it. -/
example : ∃ (el : ℝ → Elements) (d : Elements) (E : ℝ → ℝ) (j : ℤ), ElementsDeriv el d 0 ∧ 0 < (el 0).a ∧
    0 ≤ (el 0).e ∧ (el 0).e < 1 ∧ 0 < sin (el 0).i ∧ (∀ᶠ t in 𝓝 (0 : ℝ), IsAnomaly 1 0 (el t) (E t)) ∧
    (anomaly 1 (el 0) 0).1 = E 0 + j * (2 * π) := by
  refine ⟨fun t => ⟨1 + t, 0, π / 2, 0, 0, t⟩, ⟨1, 0, 0, 0, 0, 1⟩, fun t => t, 0, ?_, by norm_num, le_refl _,
    by norm_num, ?_, ?_, ?_⟩
  · exact ⟨(hasDerivAt_id _).const_add 1, hasDerivAt_const _ _, hasDerivAt_const _ _, hasDerivAt_const _ _,
      hasDerivAt_const _ _, hasDerivAt_id _⟩
  · simp
  · refine Eventually.of_forall fun t => ?_
    simp [IsAnomaly, Solves]
  · have : (0 : ℝ) ≤ keplerTol := by unfold keplerTol; positivity
    simp only [anomaly, mul_zero, add_zero]
    rw [circular 0 keplerTol this]
    simp [arg02pi, fmod]

end Verif.Orbit
