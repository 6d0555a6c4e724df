import Verif.Orbit.PartialsProps
import Mathlib.LinearAlgebra.Matrix.NonsingularInverse

/-
C77: the state transition matrix of `propagate_state`.
-/
namespace Verif.Orbit

open Real Verif.Astro Filter Topology

/-! ### The partials in the orbital frame -/

/-- The Gaussian matrix is a rotation. -/
theorem gauss_rotation (ele : Elements) : M3.Rotation (gauss ele) :=
  ((M3.rotZ_rotation _).mul (M3.rotX_rotation _)).mul (M3.rotZ_rotation _)

/-- The Lagrange bracket of two columns. -/
def lag (u w : V3 × V3) : ℝ := u.1.dot w.2 - u.2.dot w.1

/-- The columns of the partials at the epoch in the orbital frame (axes P, Q, W), for perifocal
coordinates `x y vx vy`, distance `r`, `f = √(1-e²)`, mean motion `n`. -/
noncomputable def loc (ele : Elements) (x y vx vy r f n : ℝ) : Fin 6 → V3 × V3 :=
  let a := ele.a
  let e := ele.e
  let so := sin ele.omega
  let co := cos ele.omega
  let si := sin ele.i
  let ci := cos ele.i
  ![(⟨x / a, y / a, 0⟩, ⟨-vx / (2 * a), -vy / (2 * a), 0⟩),
    (⟨-a - (y / f) ^ 2 / r, x * y / (r * f * f), 0⟩,
     ⟨vx * (2 * a * x + e * (y / f) ^ 2) / (r * r), n / f * (a / r) ^ 2 * (x * x / r - (y / f) ^ 2 / a), 0⟩),
    (⟨0, 0, x * so + y * co⟩, ⟨0, 0, vx * so + vy * co⟩),
    (⟨-y * ci, x * ci, si * (y * so - x * co)⟩, ⟨-vy * ci, vx * ci, si * (vy * so - vx * co)⟩),
    (⟨-y, x, 0⟩, ⟨-vy, vx, 0⟩),
    (⟨vx / n, vy / n, 0⟩, ⟨-n * (a / r) ^ 3 * x, -n * (a / r) ^ 3 * y, 0⟩)]

theorem mulVec_plane (ele : Elements) (p q : ℝ) :
    (gauss ele).mulVec ⟨p, q, 0⟩ = comb p (colP (gauss ele)) q (colQ (gauss ele)) := by
  ext <;> simp [comb, colP, colQ, M3.mulVec, V3.dot, V3.add, V3.smul] <;> ring

theorem node_cross (ele : Elements) (hi : 0 < sin ele.i) (p q : ℝ) :
    comb p ((nodeVec (colW (gauss ele))).cross (colP (gauss ele))) q
      ((nodeVec (colW (gauss ele))).cross (colQ (gauss ele))) =
    (gauss ele).mulVec ⟨0, 0, p * sin ele.omega + q * cos ele.omega⟩ := by
  rw [nodeVec_gauss _ hi, colP_gauss, colQ_gauss]
  have hO := sin_sq_add_cos_sq ele.Omega
  have hW : (gauss ele).mulVec ⟨0, 0, p * sin ele.omega + q * cos ele.omega⟩ =
      (colW (gauss ele)).smul (p * sin ele.omega + q * cos ele.omega) := by
    ext <;> simp [colW, M3.mulVec, V3.dot, V3.smul] <;> ring
  rw [hW, colW_gauss]
  ext <;> simp only [comb, V3.add, V3.smul, V3.cross]
  · ring
  · ring
  · linear_combination (cos ele.i * (p * sin ele.omega + q * cos ele.omega)) * hO

theorem z_cross (ele : Elements) (p q : ℝ) :
    comb p (unitZ.cross (colP (gauss ele))) q (unitZ.cross (colQ (gauss ele))) =
    (gauss ele).mulVec ⟨-q * cos ele.i, p * cos ele.i, sin ele.i * (q * sin ele.omega - p * cos ele.omega)⟩ := by
  have hW : ∀ u v w : ℝ, (gauss ele).mulVec ⟨u, v, w⟩ =
      (comb u (colP (gauss ele)) v (colQ (gauss ele))).add ((colW (gauss ele)).smul w) := by
    intro u v w
    ext <;> simp [colW, colP, colQ, comb, M3.mulVec, V3.dot, V3.smul, V3.add] <;> ring
  rw [hW, colP_gauss, colQ_gauss, colW_gauss]
  have hi := sin_sq_add_cos_sq ele.i
  ext <;> simp only [comb, V3.add, V3.smul, V3.cross, unitZ]
  · linear_combination (sin ele.Omega * (p * cos ele.omega - q * sin ele.omega)) * hi
  · linear_combination (-(cos ele.Omega * (p * cos ele.omega - q * sin ele.omega))) * hi
  · ring

theorem partials_loc (GM : ℝ) (ele : Elements) (s : V3 × V3) (hi : 0 < sin ele.i) (k : Fin 6) :
    statePartialsAt GM ele 0 s k =
      ((gauss ele).mulVec (loc ele s.1.x s.1.y s.2.x s.2.y s.1.norm (√((1 - ele.e) * (1 + ele.e)))
          (√(GM / (ele.a * ele.a * ele.a))) k).1,
       (gauss ele).mulVec (loc ele s.1.x s.1.y s.2.x s.2.y s.1.norm (√((1 - ele.e) * (1 + ele.e)))
          (√(GM / (ele.a * ele.a * ele.a))) k).2) := by
  have hz : ∀ u v : V3, u.add (v.smul (-(3 / 2) * (√(GM / (ele.a * ele.a * ele.a)) / ele.a) * 0)) = u := by
    intro u v
    ext <;> simp [V3.add, V3.smul]
  have hneg : ∀ p q : ℝ, ∀ P Q : V3, comb p Q q (P.smul (-1)) = comb (-q) P p Q := by
    intro p q P Q
    ext <;> simp [comb, V3.add, V3.smul] <;> ring
  have hsm : ∀ p q t : ℝ, ∀ P Q : V3, (comb p P q Q).smul t = comb (t * p) P (t * q) Q := by
    intro p q t P Q
    ext <;> simp [comb, V3.add, V3.smul] <;> ring
  fin_cases k
  · simp only [statePartialsAt, loc, Fin.zero_eta, Matrix.cons_val_zero, hz, mulVec_plane]
  · simp [statePartialsAt, loc, mulVec_plane]
  · simp [statePartialsAt, loc, node_cross ele hi]
  · simp only [statePartialsAt, loc]
    simp [z_cross ele]
  · simp only [statePartialsAt, loc]
    simp [hneg, mulVec_plane]
  · simp only [statePartialsAt, loc]
    simp [hsm, mulVec_plane, div_eq_inv_mul]

theorem lag_mulVec {m : M3} (h : M3.Orthogonal m) (u w : V3 × V3) :
    lag (m.mulVec u.1, m.mulVec u.2) (m.mulVec w.1, m.mulVec w.2) = lag u w := by
  unfold lag
  simp only [h.dot]

/-- The brackets of the columns. -/
structure LagTable (c : Fin 6 → V3 × V3) (n a e f si ci : ℝ) : Prop where
  h01 : lag (c 0) (c 1) = 0
  h02 : lag (c 0) (c 2) = 0
  h03 : lag (c 0) (c 3) = -(n * a * f * ci) / 2
  h04 : lag (c 0) (c 4) = -(n * a * f) / 2
  h05 : lag (c 0) (c 5) = -(n * a) / 2
  h12 : lag (c 1) (c 2) = 0
  h13 : lag (c 1) (c 3) = n * a * a * e * ci / f
  h14 : lag (c 1) (c 4) = n * a * a * e / f
  h15 : lag (c 1) (c 5) = 0
  h23 : lag (c 2) (c 3) = n * a * a * f * si
  h24 : lag (c 2) (c 4) = 0
  h25 : lag (c 2) (c 5) = 0
  h34 : lag (c 3) (c 4) = 0
  h35 : lag (c 3) (c 5) = 0
  h45 : lag (c 4) (c 5) = 0

/-- The brackets at the epoch. -/
theorem loc_table (ele : Elements) {c sn w f k : ℝ} (ha : ele.a ≠ 0) (hw : w ≠ 0) (hf : f ≠ 0) (hk : k ≠ 0)
    (hwd : w = 1 - ele.e * c) (hcs : sn ^ 2 + c ^ 2 = 1) (hf2 : f * f = 1 - ele.e ^ 2) :
    LagTable (loc ele (ele.a * (c - ele.e)) (ele.a * f * sn) (-(k / (ele.a * w)) * sn) (k / (ele.a * w) * f * c)
      (ele.a * w) f (k / (ele.a * ele.a))) (k / (ele.a * ele.a)) ele.a ele.e f (sin ele.i) (cos ele.i) := by
  have ho := sin_sq_add_cos_sq ele.omega
  obtain ⟨a, e, i, O, o, M⟩ := ele
  simp only at *
  constructor
  all_goals simp [loc, lag, V3.dot]
  · field_simp
    subst hwd
    grind
  · field_simp
    subst hwd
    grind
  · field_simp
    subst hwd
    grind
  · field_simp
    subst hwd
    grind
  · field_simp
    subst hwd
    grind
  · field_simp
    subst hwd
    grind
  · field_simp
    subst hwd
    grind
  · field_simp
    subst hwd
    grind
  · field_simp
    subst hwd
    grind
  · field_simp
    subst hwd
    grind
  · field_simp
    subst hwd
    grind

theorem lag_self (u : V3 × V3) : lag u u = 0 := by
  simp only [lag, V3.dot]
  ring

theorem lag_symm (u w : V3 × V3) : lag u w = -lag w u := by
  simp only [lag, V3.dot]
  ring

/-- A row of the code times a column is a combination of brackets. -/
theorem rows_mul_cols (p : Brackets) (c : Fin 6 → V3 × V3) (j k : Fin 6) :
    (ofRows (elementRows p c) * ofCols c) j k =
      ![-(p.aM * lag (c 5) (c k)),
        -(p.eo * lag (c 4) (c k)) - p.eM * lag (c 5) (c k),
        -(p.iO * lag (c 3) (c k)) - p.io * lag (c 4) (c k),
        p.iO * lag (c 2) (c k),
        p.eo * lag (c 1) (c k) + p.io * lag (c 2) (c k),
        p.aM * lag (c 0) (c k) + p.eM * lag (c 1) (c k)] j := by
  fin_cases j <;>
  · simp [Matrix.mul_apply, Fin.sum_univ_six, ofRows, ofCols, comp, elementRows, lag, V3.dot, comb, V3.add, V3.smul]
    ring

/-- The brackets of the code invert the table of Lagrange brackets. -/
theorem poisson_inverse {c : Fin 6 → V3 × V3} {n a e f i : ℝ} (h : LagTable c n a e f (sin i) (cos i))
    (hn : n ≠ 0) (ha : a ≠ 0) (he : e ≠ 0) (hf : f ≠ 0) (hf2 : f * f = 1 - e ^ 2) (hi : sin i ≠ 0)
    (hci : cos i ≠ 0) :
    ofRows (elementRows ⟨-2 / (n * a), -(1 - e) * (1 + e) / (n * a * a * e), f / (n * a * a * e),
      -1 / (n * a * a * f * tan i), 1 / (n * a * a * f * sin i)⟩ c) * ofCols c = 1 := by
  ext j k
  rw [rows_mul_cols]
  have h10 : lag (c 1) (c 0) = 0 := by rw [lag_symm, h.h01, neg_zero]
  have h20 : lag (c 2) (c 0) = 0 := by rw [lag_symm, h.h02, neg_zero]
  have h30 := lag_symm (c 3) (c 0)
  have h40 := lag_symm (c 4) (c 0)
  have h50 := lag_symm (c 5) (c 0)
  have h21 : lag (c 2) (c 1) = 0 := by rw [lag_symm, h.h12, neg_zero]
  have h31 := lag_symm (c 3) (c 1)
  have h41 := lag_symm (c 4) (c 1)
  have h51 := lag_symm (c 5) (c 1)
  have h32 := lag_symm (c 3) (c 2)
  have h42 := lag_symm (c 4) (c 2)
  have h52 := lag_symm (c 5) (c 2)
  have h43 := lag_symm (c 4) (c 3)
  have h53 := lag_symm (c 5) (c 3)
  have h54 := lag_symm (c 5) (c 4)
  rw [h.h03] at h30
  rw [h.h04] at h40
  rw [h.h05] at h50
  rw [h.h13] at h31
  rw [h.h14] at h41
  rw [h.h15] at h51
  rw [h.h23] at h32
  rw [h.h24] at h42
  rw [h.h25] at h52
  rw [h.h34] at h43
  rw [h.h35] at h53
  rw [h.h45] at h54
  have ht : tan i = sin i / cos i := tan_eq_sin_div_cos i
  fin_cases j <;> fin_cases k <;>
    simp [Matrix.one_apply, lag_self, h10, h20, h30, h40, h50, h21, h31, h41, h51, h32, h42, h52, h43, h53, h54,
      h.h01, h.h02, h.h03, h.h04, h.h05, h.h12, h.h13, h.h14, h.h15, h.h23, h.h24, h.h25, h.h34, h.h35, h.h45, ht]
  all_goals (field_simp; try grind)

/-! ### C77 -/

/-- Perifocal coordinates for an eccentric anomaly. -/
noncomputable def periOf (GM : ℝ) (ele : Elements) (E : ℝ) : V3 × V3 :=
  (perifocalR ele.a ele.e E, perifocalV GM ele.a ele.e E)

/-- Orbits for which the formulas have no zero denominators: elliptic, not circular, and neither
equatorial nor polar. -/
structure Regular (ele : Elements) : Prop where
  a : 0 < ele.a
  e0 : 0 < ele.e
  e1 : ele.e < 1
  si : 0 < sin ele.i
  ci : cos ele.i ≠ 0

/-- **C77** The partials of the elements with respect to the state, built from Poisson brackets,
invert the partials of the state with respect to the elements. -/
theorem element_rows_inverse {GM : ℝ} (hG : 0 < GM) {ele : Elements} (h : Regular ele) (E : ℝ) :
    ofRows (elementRows (brackets GM ele) (statePartialsAt GM ele 0 (periOf GM ele E))) *
      ofCols (statePartialsAt GM ele 0 (periOf GM ele E)) = 1 := by
  have hw : 0 < 1 - ele.e * cos E := lt_of_lt_of_le (by linarith [h.e1]) (one_sub_ecos ele.e E h.e0.le).1
  have hp : 0 < (1 - ele.e) * (1 + ele.e) := mul_pos (by linarith [h.e1]) (by linarith [h.e0])
  have hf : √((1 - ele.e) * (1 + ele.e)) ≠ 0 := (sqrt_pos.2 hp).ne'
  have hf2 : √((1 - ele.e) * (1 + ele.e)) * √((1 - ele.e) * (1 + ele.e)) = 1 - ele.e ^ 2 := by
    rw [mul_self_sqrt hp.le]
    ring
  have hk : √(GM * ele.a) ≠ 0 := (sqrt_pos.2 (mul_pos hG h.a)).ne'
  have hn := motion_eq hG h.a
  have hnz : √(GM / (ele.a * ele.a * ele.a)) ≠ 0 :=
    (sqrt_pos.2 (div_pos hG (mul_pos (mul_pos h.a h.a) h.a))).ne'
  have htab := loc_table ele (c := cos E) (sn := sin E) h.a.ne' hw.ne' hf hk rfl (sin_sq_add_cos_sq E) hf2
  rw [← hn] at htab
  -- the columns are rotated copies of the local ones
  have hloc : ∀ k, statePartialsAt GM ele 0 (periOf GM ele E) k = _ := partials_loc GM ele (periOf GM ele E) h.si
  have hl : ∀ j k, lag (statePartialsAt GM ele 0 (periOf GM ele E) j) (statePartialsAt GM ele 0 (periOf GM ele E) k) =
      lag (loc ele (ele.a * (cos E - ele.e)) (ele.a * √((1 - ele.e) * (1 + ele.e)) * sin E)
        (-(√(GM * ele.a) / (ele.a * (1 - ele.e * cos E))) * sin E)
        (√(GM * ele.a) / (ele.a * (1 - ele.e * cos E)) * √((1 - ele.e) * (1 + ele.e)) * cos E)
        (perifocalR ele.a ele.e E).norm (√((1 - ele.e) * (1 + ele.e))) (√(GM / (ele.a * ele.a * ele.a))) j)
       (loc ele (ele.a * (cos E - ele.e)) (ele.a * √((1 - ele.e) * (1 + ele.e)) * sin E)
        (-(√(GM * ele.a) / (ele.a * (1 - ele.e * cos E))) * sin E)
        (√(GM * ele.a) / (ele.a * (1 - ele.e * cos E)) * √((1 - ele.e) * (1 + ele.e)) * cos E)
        (perifocalR ele.a ele.e E).norm (√((1 - ele.e) * (1 + ele.e))) (√(GM / (ele.a * ele.a * ele.a))) k) := by
    intro j k
    rw [hloc j, hloc k, lag_mulVec (gauss_rotation ele).orth]
    rfl
  have htab' : LagTable (statePartialsAt GM ele 0 (periOf GM ele E)) (√(GM / (ele.a * ele.a * ele.a))) ele.a ele.e
      (√((1 - ele.e) * (1 + ele.e))) (sin ele.i) (cos ele.i) := by
    constructor <;> rw [hl, perifocalR_norm (z := E) h.a h.e0.le h.e1]
    exacts [htab.h01, htab.h02, htab.h03, htab.h04, htab.h05, htab.h12, htab.h13, htab.h14, htab.h15, htab.h23,
      htab.h24, htab.h25, htab.h34, htab.h35, htab.h45]
  exact poisson_inverse htab' hnz h.a.ne' h.e0.ne' hf hf2 h.si.ne' h.ci

/-- **C77** After no time the matrix is the identity, whatever the equation solver returned. -/
theorem transition_identity {GM : ℝ} (hG : 0 < GM) {ele : Elements} (h : Regular ele) :
    transitionAt GM ele 0 (elements2perifocal GM ele 0) (elements2perifocal GM ele 0) = 1 := by
  unfold transitionAt
  exact mul_eq_one_comm.1 (element_rows_inverse hG h (anomaly GM ele 0).1)

/-- **C77** The matrix is the derivative of the propagated state with respect to the initial state:
along every curve of orbits, the propagated state moves with the matrix times the motion of the
initial state. -/
theorem transition_deriv {GM dt s : ℝ} (hG : 0 < GM) {el : ℝ → Elements} {d : Elements} {E0 E : ℝ → ℝ}
    (h : ElementsDeriv el d s) (hr : Regular (el s)) (hK0 : ∀ᶠ t in 𝓝 s, IsAnomaly GM 0 (el t) (E0 t))
    (hK : ∀ᶠ t in 𝓝 s, IsAnomaly GM dt (el t) (E t)) (y0' : Fin 6 → ℝ)
    (hy0 : ∀ k, HasDerivAt (fun t => comp (stateOf GM (E0 t) (el t)) k) (y0' k) s) (k : Fin 6) :
    HasDerivAt (fun t => comp (stateOf GM (E t) (el t)) k)
      ((transitionAt GM (el s) dt (periOf GM (el s) (E0 s)) (periOf GM (el s) (E s))).mulVec y0' k) s := by
  have hy : y0' = (ofCols (statePartialsAt GM (el s) 0 (periOf GM (el s) (E0 s)))).mulVec d.vec := by
    funext j
    exact (hy0 j).unique (state_partials_deriv hG h hr.a hr.e0.le hr.e1 hr.si hK0 j)
  refine (state_partials_deriv hG h hr.a hr.e0.le hr.e1 hr.si hK k).congr_deriv ?_
  rw [hy, transitionAt, Matrix.mulVec_mulVec, Matrix.mul_assoc, element_rows_inverse hG hr, Matrix.mul_one]
  rfl

/-- **C77** For the matrix the code returns, if the solver's anomalies are exact up to revolutions. -/
theorem propagate_transition {GM dt s : ℝ} (hG : 0 < GM) (norm : ℝ → ℝ) {el : ℝ → Elements} {d : Elements}
    {E0 E : ℝ → ℝ} (h : ElementsDeriv el d s) (hr : Regular (el s))
    (hK0 : ∀ᶠ t in 𝓝 s, IsAnomaly GM 0 (el t) (E0 t)) (hK : ∀ᶠ t in 𝓝 s, IsAnomaly GM dt (el t) (E t))
    (j0 j : ℤ) (hs0 : (anomaly GM (el s) 0).1 = E0 s + j0 * (2 * π))
    (hs : (anomaly GM (el s) dt).1 = E s + j * (2 * π))
    (hel : state2elements norm (stateOf GM (E0 s) (el s)).1 (stateOf GM (E0 s) (el s)).2 GM = el s)
    (y0' : Fin 6 → ℝ) (hy0 : ∀ k, HasDerivAt (fun t => comp (stateOf GM (E0 t) (el t)) k) (y0' k) s) (k : Fin 6) :
    HasDerivAt (fun t => comp (stateOf GM (E t) (el t)) k)
      ((propagateTransition norm GM (stateOf GM (E0 s) (el s)).1 (stateOf GM (E0 s) (el s)).2 dt).2.mulVec y0' k) s := by
  have hp : ∀ (u : ℝ) (i : ℤ), periOf GM (el s) (u + i * (2 * π)) = periOf GM (el s) u := by
    intro u i
    simp [periOf, perifocalR, perifocalV]
  have h0 : elements2perifocal GM (el s) 0 = periOf GM (el s) (E0 s) := by
    rw [← hp (E0 s) j0, ← hs0]
    rfl
  have h1 : elements2perifocal GM (el s) dt = periOf GM (el s) (E s) := by
    rw [← hp (E s) j, ← hs]
    rfl
  simp only [propagateTransition, hel, h0, h1]
  exact transition_deriv hG h hr hK0 hK y0' hy0 k

/-- An orbit and a curve through it that meet the hypotheses: the node moves. -/
example : ∃ (el : ℝ → Elements) (d : Elements) (E : ℝ → ℝ), ElementsDeriv el d 0 ∧ Regular (el 0) ∧
    ∀ᶠ t in 𝓝 (0 : ℝ), IsAnomaly 1 0 (el t) (E t) := by
  refine ⟨fun t => ⟨1, 1 / 2, π / 4, t, 0, π / 2 - 1 / 2⟩, ⟨0, 0, 0, 1, 0, 0⟩, fun _ => π / 2, ?_, ?_, ?_⟩
  · exact ⟨hasDerivAt_const _ _, hasDerivAt_const _ _, hasDerivAt_const _ _, hasDerivAt_id _, hasDerivAt_const _ _,
      hasDerivAt_const _ _⟩
  · refine ⟨by norm_num, by norm_num, by norm_num, ?_, ?_⟩
    · simp only [sin_pi_div_four]
      positivity
    · simp only [cos_pi_div_four]
      positivity
  · refine Eventually.of_forall fun t => ?_
    simp [IsAnomaly, Solves]

end Verif.Orbit
