import Verif.Orbit.Model
import Mathlib.Tactic.FieldSimp
import Mathlib.Tactic.Positivity

/-
C45-C48.
-/
namespace Verif.Orbit

open Real Verif.Astro

/-! ### Specification -/

/-- Elliptic elements about a body of positive `GM`. -/
structure Elliptic (GM : ℝ) (ele : Elements) : Prop where
  gm : 0 < GM
  a : 0 < ele.a
  e0 : 0 ≤ ele.e
  e1 : ele.e < 1

/-- Direction of the orbital angular momentum for a node and an inclination. -/
noncomputable def pole (node i : ℝ) : V3 := ⟨sin node * sin i, -cos node * sin i, cos i⟩

/-- Position and velocity of an orbit of semimajor axis `a`, eccentricity `e`, eccentric
anomaly `E` and orbital pole `n`. -/
structure OnOrbit (GM a e E : ℝ) (n r v : V3) : Prop where
  radius : r.norm = a * (1 - e * cos E)
  energy : v.dot v / 2 - GM / r.norm = -GM / (2 * a)
  momentum : r.cross v = n.smul (√(GM * a * (1 - e ^ 2)))

/-- What `norm_angle` is for: the same angle in `[0, 2π)`. -/
structure IsNorm (norm : ℝ → ℝ) : Prop where
  cong : ∀ x, ∃ k : ℤ, norm x = x + k * (2 * π)
  nonneg : ∀ x, 0 ≤ norm x
  lt : ∀ x, norm x < 2 * π

/-! ### Lemmas -/

theorem matT_eq (Omega omega i : ℝ) :
    matT Omega omega i = M3.mul (M3.mul (M3.rotZ Omega) (M3.rotX i)) (M3.rotZ omega) := by
  ext <;> simp [matT, M3.mul, M3.rotZ, M3.rotX, M3.mulVec, M3.transpose, V3.dot] <;> ring

theorem matR_transpose (Omega omega i : ℝ) :
    (matR Omega omega i).transpose = matT omega Omega i := by
  unfold matR
  rw [M3.transpose_mul, M3.transpose_mul, M3.rotZ_transpose, M3.rotZ_transpose, M3.rotX_transpose, matT_eq,
    M3.mul_assoc]

theorem matT_rotation (Omega omega i : ℝ) : M3.Rotation (matT Omega omega i) := by
  rw [matT_eq]
  exact ((M3.rotZ_rotation _).mul (M3.rotX_rotation _)).mul (M3.rotZ_rotation _)

theorem matT_pole (Omega omega i : ℝ) (k : ℝ) :
    (matT Omega omega i).mulVec ⟨0, 0, k⟩ = (pole Omega i).smul k := by
  ext <;> simp [matT, M3.mulVec, V3.dot, pole, V3.smul] <;> ring

theorem rad_pos (e E : ℝ) (h0 : 0 ≤ e) (h1 : e < 1) : 0 < 1 - e * cos E := by
  have := (one_sub_ecos e E h0).1
  linarith

theorem sqrt_fac_sq (e : ℝ) (h0 : 0 ≤ e) (h1 : e < 1) : √((1 - e) * (1 + e)) ^ 2 = 1 - e ^ 2 := by
  rw [Real.sq_sqrt (by nlinarith)]
  ring

theorem perifocal_radius (a e E : ℝ) (h0 : 0 ≤ e) (h1 : e < 1) :
    (perifocalR a e E).dot (perifocalR a e E) = (a * (1 - e * cos E)) ^ 2 := by
  have hf := sqrt_fac_sq e h0 h1
  have ht := sin_sq_add_cos_sq E
  simp only [perifocalR, V3.dot]
  linear_combination a ^ 2 * sin E ^ 2 * hf + a ^ 2 * (1 - e ^ 2) * ht

theorem perifocal_speed (GM a e E : ℝ) (hg : 0 < GM) (ha : 0 < a) (h0 : 0 ≤ e) (h1 : e < 1) :
    (perifocalV GM a e E).dot (perifocalV GM a e E) = GM / a * (1 + e * cos E) / (1 - e * cos E) := by
  have hf := sqrt_fac_sq e h0 h1
  have ht := sin_sq_add_cos_sq E
  have hs : √(GM * a) ^ 2 = GM * a := Real.sq_sqrt (by positivity)
  have hr := rad_pos e E h0 h1
  have hne : a * (1 - e * cos E) ≠ 0 := (mul_pos ha hr).ne'
  simp only [perifocalV, V3.dot]
  have hv : (√(GM * a) / (a * (1 - e * cos E))) ^ 2 = GM / a / (1 - e * cos E) ^ 2 := by
    rw [div_pow, hs]
    field_simp
  generalize √(GM * a) / (a * (1 - e * cos E)) = V at hv ⊢
  have h2 : GM / a * (1 + e * cos E) / (1 - e * cos E)
      = GM / a / (1 - e * cos E) ^ 2 * (1 - e ^ 2 * cos E ^ 2) := by
    field_simp
    ring
  rw [h2, ← hv]
  linear_combination V ^ 2 * cos E ^ 2 * hf + V ^ 2 * ht

theorem perifocal_cross (GM a e E : ℝ) (hg : 0 < GM) (ha : 0 < a) (h0 : 0 ≤ e) (h1 : e < 1) :
    (perifocalR a e E).cross (perifocalV GM a e E) = ⟨0, 0, √(GM * a * (1 - e ^ 2))⟩ := by
  have ht := sin_sq_add_cos_sq E
  have hr := rad_pos e E h0 h1
  have hs : √(GM * a * (1 - e ^ 2)) = √(GM * a) * √((1 - e) * (1 + e)) := by
    rw [← Real.sqrt_mul (by positivity)]
    congr 1
    ring
  rw [hs]
  ext
  · simp [perifocalR, perifocalV, V3.cross]
  · simp [perifocalR, perifocalV, V3.cross]
  · simp only [perifocalR, perifocalV, V3.cross]
    have hne : a * (1 - e * cos E) ≠ 0 := (mul_pos ha hr).ne'
    have hv : √(GM * a) / (a * (1 - e * cos E)) * (a * (1 - e * cos E)) = √(GM * a) := div_mul_cancel₀ _ hne
    generalize √(GM * a) / (a * (1 - e * cos E)) = V at hv ⊢
    rw [← hv]
    linear_combination V * a * √((1 - e) * (1 + e)) * ht

theorem perifocal_dot (GM a e E : ℝ) (ha : 0 < a) (h0 : 0 ≤ e) (h1 : e < 1) :
    (perifocalR a e E).dot (perifocalV GM a e E) = √(GM * a) * (e * sin E) := by
  have hf := sqrt_fac_sq e h0 h1
  have hr := rad_pos e E h0 h1
  have hne : a * (1 - e * cos E) ≠ 0 := (mul_pos ha hr).ne'
  have hv : √(GM * a) / (a * (1 - e * cos E)) * (a * (1 - e * cos E)) = √(GM * a) := div_mul_cancel₀ _ hne
  simp only [perifocalR, perifocalV, V3.dot]
  generalize √(GM * a) / (a * (1 - e * cos E)) = V at hv ⊢
  rw [← hv]
  linear_combination V * a * sin E * cos E * hf

theorem onOrbit_of_rotation (GM a e E : ℝ) (hg : 0 < GM) (ha : 0 < a) (h0 : 0 ≤ e) (h1 : e < 1) (T : M3)
    (hT : M3.Rotation T) (n : V3) (hn : ∀ k, T.mulVec ⟨0, 0, k⟩ = n.smul k) :
    OnOrbit GM a e E n (T.mulVec (perifocalR a e E)) (T.mulVec (perifocalV GM a e E)) := by
  have hr := rad_pos e E h0 h1
  have hrad : (T.mulVec (perifocalR a e E)).norm = a * (1 - e * cos E) := by
    unfold V3.norm
    rw [hT.orth.dot, perifocal_radius a e E h0 h1, Real.sqrt_sq (mul_pos ha hr).le]
  refine ⟨hrad, ?_, ?_⟩
  · rw [hrad, hT.orth.dot, perifocal_speed GM a e E hg ha h0 h1]
    field_simp
    ring
  · rw [hT.cross, perifocal_cross GM a e E hg ha h0 h1, hn]

/-! ### C45 -/

/-- **C45** The vector overload: radius `a(1 - e cos E)`, energy `-GM/(2a)`, angular momentum
`sqrt(GM a (1-e^2))` along the pole of the node and inclination; `E` is what the Kepler solver
returned, for every time offset. -/
theorem state_invariants (GM : ℝ) (ele : Elements) (dt : ℝ) (h : Elliptic GM ele) :
    OnOrbit GM ele.a ele.e (anomaly GM ele dt).1 (pole ele.Omega ele.i)
      (elements2state ele dt GM).1 (elements2state ele dt GM).2.1 :=
  onOrbit_of_rotation _ _ _ _ h.gm h.a h.e0 h.e1 _ (matT_rotation _ _ _) _ (matT_pole _ _ _)

/-- **C45** The same for `propagate_state`. -/
theorem propagate_invariants (GM : ℝ) (ele : Elements) (dt : ℝ) (h : Elliptic GM ele) :
    OnOrbit GM ele.a ele.e (anomaly GM ele dt).1 (pole ele.Omega ele.i)
      (propagateState GM ele dt).1 (propagateState GM ele dt).2 := by
  unfold propagateState
  simp only
  rw [← matT_eq]
  exact onOrbit_of_rotation _ _ _ _ h.gm h.a h.e0 h.e1 _ (matT_rotation _ _ _) _ (matT_pole _ _ _)

/-- **C45** The Eigen overload: the same radius, energy and momentum with the right inclination,
but the node of the orbit is the argument of perigee of the elements. -/
theorem eigen_invariants (GM : ℝ) (ele : Elements) (dt : ℝ) (h : Elliptic GM ele) :
    OnOrbit GM ele.a ele.e (anomaly GM ele dt).1 (pole ele.omega ele.i)
      (elements2stateE GM dt ele).1 (elements2stateE GM dt ele).2.1 := by
  unfold elements2stateE
  simp only
  rw [matR_transpose]
  exact onOrbit_of_rotation _ _ _ _ h.gm h.a h.e0 h.e1 _ (matT_rotation _ _ _) _ (matT_pole _ _ _)

/-- **C45** What the pole says: magnitude of the momentum, and its tilt against the third axis. -/
theorem momentum_tilt (GM a e E node i : ℝ) (r v : V3) (h : OnOrbit GM a e E (pole node i) r v) :
    (r.cross v).norm = √(GM * a * (1 - e ^ 2)) ∧ (r.cross v).z = √(GM * a * (1 - e ^ 2)) * cos i := by
  rw [h.momentum]
  generalize hk : √(GM * a * (1 - e ^ 2)) = k
  have hk0 : 0 ≤ k := hk ▸ Real.sqrt_nonneg _
  refine ⟨?_, rfl⟩
  have : ((pole node i).smul k).dot ((pole node i).smul k) = k ^ 2 := by
    simp only [V3.dot, V3.smul, pole]
    linear_combination k ^ 2 * sin i ^ 2 * sin_sq_add_cos_sq node + k ^ 2 * sin_sq_add_cos_sq i
  unfold V3.norm
  rw [this, Real.sqrt_sq hk0]

/-! ### C46 -/

theorem atan2_polar (rho t : ℝ) (h : 0 < rho) : ∃ k : ℤ, atan2 (rho * sin t) (rho * cos t) = t + k * (2 * π) := by
  have h1 := Complex.arg_mul_cos_add_sin_mul_I_sub h t
  have h2 : (⟨rho * cos t, rho * sin t⟩ : ℂ) = (rho : ℂ) * (Complex.cos t + Complex.sin t * Complex.I) := by
    apply Complex.ext
    · simp [Complex.cos_ofReal_re, Complex.sin_ofReal_im, Complex.sin_ofReal_re, Complex.cos_ofReal_im]
    · simp [Complex.cos_ofReal_re, Complex.sin_ofReal_im, Complex.sin_ofReal_re, Complex.cos_ofReal_im]
  unfold atan2
  rw [h2]
  exact ⟨⌊(π - t) / (2 * π)⌋, by linarith⟩

theorem atan2_polar_eq (rho t : ℝ) (h : 0 < rho) (h1 : -π < t) (h2 : t ≤ π) :
    atan2 (rho * sin t) (rho * cos t) = t := by
  have h3 := Complex.arg_mul_cos_add_sin_mul_I h (show t ∈ Set.Ioc (-π) π from ⟨h1, h2⟩)
  have h4 : (⟨rho * cos t, rho * sin t⟩ : ℂ) = (rho : ℂ) * (Complex.cos t + Complex.sin t * Complex.I) := by
    apply Complex.ext
    · simp [Complex.cos_ofReal_re, Complex.sin_ofReal_im, Complex.sin_ofReal_re, Complex.cos_ofReal_im]
    · simp [Complex.cos_ofReal_re, Complex.sin_ofReal_im, Complex.sin_ofReal_re, Complex.cos_ofReal_im]
  unfold atan2
  rw [h4, h3]

theorem norm_unique {norm : ℝ → ℝ} (hn : IsNorm norm) (x t : ℝ) (k : ℤ) (h0 : 0 ≤ t) (h1 : t < 2 * π)
    (h : x = t + k * (2 * π)) : norm x = t := by
  obtain ⟨m, hm⟩ := hn.cong x
  have h2 := hn.nonneg x
  have h3 := hn.lt x
  have hp : 0 < 2 * π := by positivity
  have h4 : norm x = t + ((k + m : ℤ) : ℝ) * (2 * π) := by
    rw [hm, h]
    push_cast
    ring
  have h5 : ((k + m : ℤ) : ℝ) < 1 := by
    by_contra hc
    have : 2 * π ≤ ((k + m : ℤ) : ℝ) * (2 * π) := by nlinarith [not_lt.1 hc]
    linarith
  have h6 : (-1 : ℝ) < ((k + m : ℤ) : ℝ) := by
    by_contra hc
    have : ((k + m : ℤ) : ℝ) * (2 * π) ≤ -(2 * π) := by nlinarith [not_lt.1 hc]
    linarith
  have h7 : (k + m : ℤ) = 0 := by
    have a1 : (k + m : ℤ) < 1 := by exact_mod_cast h5
    have a2 : (-1 : ℤ) < (k + m : ℤ) := by exact_mod_cast h6
    omega
  rw [h4, h7]
  simp

/-- Shape and plane of the orbit, read off any state on it. -/
theorem shape_recovered (norm : ℝ → ℝ) (hn : IsNorm norm) (GM a e E node i : ℝ) (r v : V3)
    (hg : 0 < GM) (ha : 0 < a) (h0 : 0 ≤ e) (h1 : e < 1) (hi0 : 0 < i) (hi1 : i < π)
    (hO0 : 0 ≤ node) (hO1 : node < 2 * π)
    (hdot : r.dot v = √(GM * a) * (e * sin E)) (h : OnOrbit GM a e E (pole node i) r v) :
    (state2elements norm r v GM).a = a ∧ (state2elements norm r v GM).e = e ∧
    (state2elements norm r v GM).i = i ∧ (state2elements norm r v GM).Omega = node := by
  have hr := rad_pos e E h0 h1
  have hR : 0 < r.norm := by
    rw [h.radius]
    exact mul_pos ha hr
  have hsa : (1 : ℝ) / (2 / r.norm - v.dot v / GM) = a := by
    have he := h.energy
    have h2 : v.dot v = 2 * GM / r.norm - GM / a := by
      have : v.dot v = 2 * (-GM / (2 * a) + GM / r.norm) := by linarith
      rw [this]
      field_simp
      ring
    rw [h2]
    have : 2 / r.norm - (2 * GM / r.norm - GM / a) / GM = 1 / a := by
      field_simp
      ring
    rw [this]
    field_simp
  have hH : 0 < √(GM * a * (1 - e ^ 2)) := Real.sqrt_pos.2 (mul_pos (mul_pos hg ha) (by nlinarith))
  have hsi : 0 < sin i := sin_pos_of_pos_of_lt_pi hi0 hi1
  have hm := h.momentum
  generalize √(GM * a * (1 - e ^ 2)) = H at hH hm
  have hx : (r.cross v).x = H * sin i * sin node := by rw [hm]; simp [V3.smul, pole]; ring
  have hy : -(r.cross v).y = H * sin i * cos node := by rw [hm]; simp [V3.smul, pole]; ring
  have hz : (r.cross v).z = H * cos i := by rw [hm]; simp [V3.smul, pole]
  have hxy : √((r.cross v).x * (r.cross v).x + (r.cross v).y * (r.cross v).y) = H * sin i := by
    have : (r.cross v).x * (r.cross v).x + (r.cross v).y * (r.cross v).y = (H * sin i) ^ 2 := by
      rw [hx]
      have hy' : (r.cross v).y * (r.cross v).y = (H * sin i * cos node) ^ 2 := by rw [← hy]; ring
      rw [hy']
      linear_combination (H * sin i) ^ 2 * sin_sq_add_cos_sq node
    rw [this, Real.sqrt_sq (mul_pos hH hsi).le]
  unfold state2elements
  simp only
  rw [hsa]
  refine ⟨rfl, ?_, ?_, ?_⟩
  · have hc : 1 - r.norm / a = e * cos E := by
      rw [h.radius]
      field_simp
      ring
    have hs : r.dot v / √(GM * a) = e * sin E := by
      rw [hdot]
      have : √(GM * a) ≠ 0 := (Real.sqrt_pos.2 (mul_pos hg ha)).ne'
      field_simp
    rw [hc, hs]
    have : e * cos E * (e * cos E) + e * sin E * (e * sin E) = e ^ 2 := by
      linear_combination e ^ 2 * sin_sq_add_cos_sq E
    rw [this, Real.sqrt_sq h0]
  · rw [hxy, hz]
    exact atan2_polar_eq H i hH (by linarith [pi_pos]) hi1.le
  · rw [hx, hy]
    obtain ⟨k, hk⟩ := atan2_polar (H * sin i) node (mul_pos hH hsi)
    exact norm_unique hn _ node k hO0 hO1 hk

/-- **C46 (partial: the vector overload)** Elements to state and back, at any time offset: shape
and plane are recovered exactly. -/
theorem round_trip_partial (norm : ℝ → ℝ) (hn : IsNorm norm) (GM : ℝ) (ele : Elements) (dt : ℝ) (h : Elliptic GM ele)
    (hi0 : 0 < ele.i) (hi1 : ele.i < π) (hO0 : 0 ≤ ele.Omega) (hO1 : ele.Omega < 2 * π) :
    let y := elements2state ele dt GM
    let b := state2elements norm y.1 y.2.1 GM
    b.a = ele.a ∧ b.e = ele.e ∧ b.i = ele.i ∧ b.Omega = ele.Omega := by
  refine shape_recovered norm hn GM ele.a ele.e (anomaly GM ele dt).1 ele.Omega ele.i _ _ h.gm h.a h.e0 h.e1
    hi0 hi1 hO0 hO1 ?_ (state_invariants GM ele dt h)
  simp only [elements2state]
  rw [(matT_rotation _ _ _).orth.dot, perifocal_dot GM _ _ _ h.a h.e0 h.e1]

/-- **C46** The Eigen overload returns the argument of perigee as the node; shape and inclination
are right. -/
theorem eigen_round_trip (norm : ℝ → ℝ) (hn : IsNorm norm) (GM : ℝ) (ele : Elements) (dt : ℝ) (h : Elliptic GM ele)
    (hi0 : 0 < ele.i) (hi1 : ele.i < π) (hO0 : 0 ≤ ele.omega) (hO1 : ele.omega < 2 * π) :
    let y := elements2stateE GM dt ele
    let b := state2elements norm y.1 y.2.1 GM
    b.a = ele.a ∧ b.e = ele.e ∧ b.i = ele.i ∧ b.Omega = ele.omega := by
  refine shape_recovered norm hn GM ele.a ele.e (anomaly GM ele dt).1 ele.omega ele.i _ _ h.gm h.a h.e0 h.e1
    hi0 hi1 hO0 hO1 ?_ (eigen_invariants GM ele dt h)
  simp only [elements2stateE]
  rw [matR_transpose, (matT_rotation _ _ _).orth.dot, perifocal_dot GM _ _ _ h.a h.e0 h.e1]

/-- **C46** So the Eigen pair loses the node whenever it differs from the argument of perigee. -/
theorem eigen_round_trip_counterexample (norm : ℝ → ℝ) (hn : IsNorm norm) :
    ∃ GM ele, Elliptic GM ele ∧ 0 < ele.i ∧ ele.i < π ∧ 0 ≤ ele.Omega ∧ ele.Omega < 2 * π ∧
      (state2elements norm (elements2stateE GM 0 ele).1 (elements2stateE GM 0 ele).2.1 GM).Omega ≠ ele.Omega := by
  refine ⟨1, ⟨1, 1 / 2, 1, 1, 0, 0⟩, ⟨by norm_num, by norm_num, by norm_num, by norm_num⟩, by norm_num,
    by linarith [two_le_pi], by norm_num, by linarith [two_le_pi], ?_⟩
  have := eigen_round_trip norm hn 1 ⟨1, 1 / 2, 1, 1, 0, 0⟩ 0 ⟨by norm_num, by norm_num, by norm_num, by norm_num⟩
    (by norm_num) (by simp only; linarith [two_le_pi]) (by norm_num) (by simp only; linarith [two_le_pi])
  simp only at this
  rw [this.2.2.2]
  norm_num

end Verif.Orbit
