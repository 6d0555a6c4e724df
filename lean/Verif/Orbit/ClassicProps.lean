import Verif.Orbit.ClassicModel
import Verif.Orbit.Props
import Mathlib.Tactic.FieldSimp
import Mathlib.Tactic.NormNum

/-!
C87: the classical elements are those of the state, and give it back.  C88: right ascension and
declination give back the direction.
-/
namespace Verif.Orbit

open Verif.Astro Real

/-! ### Specification -/

/-- The ascending node. -/
noncomputable def node (Omega : ℝ) : V3 := ⟨cos Omega, sin Omega, 0⟩

/-- The direction in the orbit a quarter turn after the node. -/
noncomputable def quarter (Omega i : ℝ) : V3 := ⟨-sin Omega * cos i, cos Omega * cos i, sin i⟩

/-- The position with classical elements: the conic section in the orbital plane. -/
noncomputable def Classic.position (k : Classic) (m : ℝ) : V3 :=
  (((node k.Omega).smul (cos (k.omega + k.theta))).add ((quarter k.Omega k.i).smul (sin (k.omega + k.theta)))).smul
    (k.h ^ 2 / m / (1 + k.e * cos k.theta))

/-- The velocity with classical elements. -/
noncomputable def Classic.velocity (k : Classic) (m : ℝ) : V3 :=
  (((node k.Omega).smul (-(sin (k.omega + k.theta) + k.e * sin k.omega))).add
    ((quarter k.Omega k.i).smul (cos (k.omega + k.theta) + k.e * cos k.omega))).smul (m / k.h)

/-- The angles are in their ranges. -/
structure Classic.InRange (k : Classic) : Prop where
  i0 : 0 ≤ k.i
  i1 : k.i ≤ π
  Omega0 : 0 ≤ k.Omega
  Omega1 : k.Omega < 2 * π
  omega0 : 0 ≤ k.omega
  omega1 : k.omega < 2 * π
  theta0 : 0 ≤ k.theta
  theta1 : k.theta < 2 * π

/-- The eccentricity vector, `(v × h) / m - r / |r|`. -/
noncomputable def eccVec (r v : V3) (m : ℝ) : V3 := ((v.cross (r.cross v)).smul (1 / m)).sub (r.smul (1 / r.norm))

/-! ### Lemmas -/

/-- The angle in [0, 2π) from a cosine and the sign of the sine. -/
theorem angle_of (c s s' : ℝ) (h : c * c + s * s = 1) (hs : s' < 0 ↔ s < 0) :
    let a := open Classical in if s' < 0 then 2 * π - arccos c else arccos c
    cos a = c ∧ sin a = s ∧ 0 ≤ a ∧ a < 2 * π := by
  intro a
  have h1 : -1 ≤ c := by nlinarith [mul_self_nonneg s]
  have h2 : c ≤ 1 := by nlinarith [mul_self_nonneg s]
  have hsin : sin (arccos c) = |s| := by
    rw [sin_arccos, show 1 - c ^ 2 = s ^ 2 by linarith [pow_two c, pow_two s], sqrt_sq_eq_abs]
  by_cases hn : s' < 0
  · have ha : a = 2 * π - arccos c := if_pos hn
    have hneg := hs.1 hn
    rw [ha]
    refine ⟨?_, ?_, ?_, ?_⟩
    · rw [cos_two_pi_sub, cos_arccos h1 h2]
    · rw [sin_two_pi_sub, hsin, abs_of_neg hneg, neg_neg]
    · linarith [arccos_le_pi c, pi_pos]
    · have : 0 < arccos c := by
        rw [arccos_pos]
        nlinarith [mul_pos_of_neg_of_neg hneg hneg]
      linarith
  · have ha : a = arccos c := if_neg hn
    have hpos : 0 ≤ s := not_lt.1 fun hc => hn (hs.2 hc)
    rw [ha]
    refine ⟨cos_arccos h1 h2, by rw [hsin, abs_of_nonneg hpos], arccos_nonneg c, ?_⟩
    linarith [arccos_le_pi c, pi_pos]

/-- A vector at right angles to the unit vector `h`, in the basis `a`, `h × a`. -/
theorem plane_expansion (h a x : V3) (hh : h.dot h = 1) (haa : a.dot a = 1) (hah : a.dot h = 0) (hxh : x.dot h = 0) :
    x = (a.smul (x.dot a)).add ((h.cross a).smul (x.dot (h.cross a))) ∧
    x.dot x = x.dot a * x.dot a + x.dot (h.cross a) * x.dot (h.cross a) := by
  -- `x × a` is along `h`
  have hc : x.cross a = h.smul ((x.cross a).dot h) := by
    have e : ∀ w : V3, w.smul (h.dot h) = (h.cross (w.cross h)).add (h.smul (w.dot h)) := by
      intro w
      ext <;> simp only [V3.smul, V3.dot, V3.add, V3.cross] <;> ring
    have e2 : (x.cross a).cross h = (a.smul (x.dot h)).sub (x.smul (a.dot h)) := by
      ext <;> simp only [V3.smul, V3.dot, V3.sub, V3.cross] <;> ring
    have e3 := e (x.cross a)
    rw [e2, hh, hah, hxh] at e3
    have e4 := congrArg V3.x e3
    have e5 := congrArg V3.y e3
    have e6 := congrArg V3.z e3
    simp only [V3.smul, V3.add, V3.sub, V3.cross] at e4 e5 e6 ⊢
    ext <;> simp only
    · linarith
    · linarith
    · linarith
  have hs : (x.cross a).dot h = -(x.dot (h.cross a)) := by
    simp only [V3.cross, V3.dot]
    ring
  have key : x = (a.smul (x.dot a)).add ((h.cross a).smul (x.dot (h.cross a))) := by
    have e : x.smul (a.dot a) = (a.smul (x.dot a)).add (a.cross (x.cross a)) := by
      ext <;> simp only [V3.smul, V3.dot, V3.add, V3.cross] <;> ring
    rw [hc, haa, hs] at e
    generalize V3.dot x (h.cross a) = k at e ⊢
    generalize V3.dot x a = l at e ⊢
    have e4 := congrArg V3.x e
    have e5 := congrArg V3.y e
    have e6 := congrArg V3.z e
    simp only [V3.smul, V3.add, V3.cross] at e4 e5 e6
    ext <;> simp only [V3.smul, V3.add, V3.cross]
    · linarith
    · linarith
    · linarith
  refine ⟨key, ?_⟩
  have := congrArg (V3.dot x) key
  rw [this]
  simp only [V3.dot, V3.add, V3.smul]
  ring

theorem eccVec_eq (r v : V3) (m : ℝ) (hm : m ≠ 0) :
    ((r.smul (v.dot v - m / r.norm)).sub (v.smul (r.dot v))).smul (1 / m) = eccVec r v m := by
  unfold eccVec
  ext <;> simp only [V3.smul, V3.sub, V3.cross, V3.dot] <;> field_simp <;> ring

/-- The two Gauss-type functions agree. -/
theorem vallado_eq (r v : V3) (m : ℝ) (hr : r ≠ ⟨0, 0, 0⟩) : vallado r v m = state2kepler r v m := by
  have hrp := V3.norm_pos r hr
  have h1 : v.norm * v.norm = v.dot v := V3.norm_sq v
  have h2 : r.norm * (r.dot v / r.norm) = r.dot v := by field_simp
  have h3 : r.dot v / r.norm < 0 ↔ r.dot v < 0 := by
    rw [div_lt_iff₀ hrp, zero_mul]
  unfold vallado state2kepler
  simp only [h1, h2, h3, div_div]

theorem unscale (a b : V3) (c s : ℝ) {E : ℝ} (hE : E ≠ 0) (x : V3)
    (h : x = (a.smul (E * c)).add (b.smul (E * s))) : x.smul (1 / E) = (a.smul c).add (b.smul s) := by
  rw [h]
  ext <;> simp only [V3.smul, V3.add] <;> field_simp

structure Geometry (r hv ev : V3) (k : Classic) : Prop where
  mom : hv = (pole k.Omega k.i).smul k.h
  ecc : ev = ((node k.Omega).smul (k.e * cos k.omega)).add ((quarter k.Omega k.i).smul (k.e * sin k.omega))
  dir : r = (((node k.Omega).smul (cos (k.omega + k.theta))).add
    ((quarter k.Omega k.i).smul (sin (k.omega + k.theta)))).smul r.norm

theorem pole_cross_node (Omega i : ℝ) : (pole Omega i).cross (node Omega) = quarter Omega i := by
  have h := sin_sq_add_cos_sq Omega
  ext <;> simp only [pole, node, quarter, V3.cross]
  · ring
  · ring
  · linear_combination sin i * h

theorem pole_unit (Omega i : ℝ) : (pole Omega i).dot (pole Omega i) = 1 := by
  have h := sin_sq_add_cos_sq Omega
  have h' := sin_sq_add_cos_sq i
  simp only [pole, V3.dot]
  linear_combination (sin i) ^ 2 * h + h'

theorem node_unit (Omega : ℝ) : (node Omega).dot (node Omega) = 1 := by
  have h := sin_sq_add_cos_sq Omega
  simp only [node, V3.dot]
  linear_combination h

theorem node_pole (Omega i : ℝ) : (node Omega).dot (pole Omega i) = 0 := by
  simp only [node, pole, V3.dot]
  ring

theorem geometry (r v : V3) (m : ℝ) (hm : 0 < m) (hn : (⟨-(r.cross v).y, (r.cross v).x, 0⟩ : V3) ≠ ⟨0, 0, 0⟩)
    (he : eccVec r v m ≠ ⟨0, 0, 0⟩) : Geometry r (r.cross v) (eccVec r v m) (state2kepler r v m) ∧ (state2kepler r v m).InRange ∧
      (state2kepler r v m).h = (r.cross v).norm ∧ (state2kepler r v m).e = (eccVec r v m).norm := by
  have hr : r ≠ ⟨0, 0, 0⟩ := by
    intro h0
    apply hn
    rw [h0]
    simp [V3.cross]
  have hrp := V3.norm_pos r hr
  rw [← vallado_eq r v m hr]
  have hNp := V3.norm_pos _ hn
  have hh : r.cross v ≠ ⟨0, 0, 0⟩ := by
    intro h0
    apply hn
    rw [h0]
    simp
  have hhp := V3.norm_pos _ hh
  have hep := V3.norm_pos _ he
  have heh : (eccVec r v m).dot (r.cross v) = 0 := by
    simp only [eccVec, V3.dot, V3.sub, V3.smul, V3.cross]
    ring
  have hrh : r.dot (r.cross v) = 0 := by
    simp only [V3.dot, V3.cross]
    ring
  have her : (eccVec r v m).cross r = (r.cross v).smul (r.dot v / m) := by
    ext <;> simp only [eccVec, V3.dot, V3.sub, V3.smul, V3.cross] <;> field_simp <;> ring
  unfold vallado
  simp only
  rw [eccVec_eq r v m hm.ne']
  generalize eccVec r v m = ev at *
  generalize r.cross v = hv at *
  set N := V3.norm ⟨-hv.y, hv.x, 0⟩ with hN
  have hN2 : N * N = hv.x * hv.x + hv.y * hv.y := by
    rw [hN, V3.norm_sq]
    simp only [V3.dot]
    ring
  have hh2 : hv.norm * hv.norm = hv.x * hv.x + hv.y * hv.y + hv.z * hv.z := V3.norm_sq hv
  -- inclination
  have hi := angle_of (hv.z / hv.norm) (N / hv.norm) 0
    (by field_simp; nlinarith) (by simp [div_nonneg hNp.le hhp.le])
  rw [if_neg (lt_irrefl _)] at hi
  obtain ⟨hci, hsi, hi0, -⟩ := hi
  have hi1 := arccos_le_pi (hv.z / hv.norm)
  generalize arccos (hv.z / hv.norm) = i at *
  -- node
  have hO := angle_of (-hv.y / N) (hv.x / N) hv.x (by field_simp; nlinarith)
    (by rw [div_lt_iff₀ hNp, zero_mul])
  simp only at hO
  obtain ⟨hcO, hsO, hO0, hO1⟩ := hO
  generalize (open Classical in if hv.x < 0 then 2 * π - arccos (-hv.y / N) else arccos (-hv.y / N)) = Om at *
  have hpole : hv = (pole Om i).smul hv.norm := by
    ext <;> simp only [pole, V3.smul, hcO, hsO, hci, hsi] <;> field_simp
  have hnode : (⟨-hv.y, hv.x, 0⟩ : V3) = (node Om).smul N := by
    ext <;> simp only [node, V3.smul, hcO, hsO] <;> field_simp
    simp
  -- perigee
  have heP : ev.dot (pole Om i) = 0 := by
    have : ev.dot hv = hv.norm * ev.dot (pole Om i) := by
      conv_lhs => rw [hpole]
      simp only [V3.dot, V3.smul]
      ring
    rw [heh] at this
    exact (mul_eq_zero.1 this.symm).resolve_left hhp.ne'
  obtain ⟨hexp, hsq⟩ := plane_expansion (pole Om i) (node Om) ev (pole_unit Om i) (node_unit Om) (node_pole Om i) heP
  rw [pole_cross_node] at hexp hsq
  have hez : ev.z = ev.dot (quarter Om i) * (N / hv.norm) := by
    have := congrArg V3.z hexp
    simp only [V3.add, V3.smul, node, quarter] at this
    rw [hsi] at this
    simp only [V3.dot, quarter] at this ⊢
    rw [hsi] at *
    linarith
  have he2 : ev.norm * ev.norm = ev.dot ev := V3.norm_sq ev
  have hdot : V3.dot ⟨-hv.y, hv.x, 0⟩ ev / (N * ev.norm) = ev.dot (node Om) / ev.norm := by
    rw [hnode]
    have : V3.dot ((node Om).smul N) ev = N * ev.dot (node Om) := by
      simp only [V3.dot, V3.smul]
      ring
    rw [this]
    field_simp
  have hw := angle_of (ev.dot (node Om) / ev.norm) (ev.dot (quarter Om i) / ev.norm) ev.z
    (by field_simp; nlinarith)
    (by
      have hk : 0 < N / hv.norm := div_pos hNp hhp
      rw [hez, div_lt_iff₀ hep, zero_mul]
      constructor
      · intro h
        by_contra hc
        exact absurd h (not_lt.2 (mul_nonneg (not_lt.1 hc) hk.le))
      · intro h
        exact mul_neg_of_neg_of_pos h hk)
  rw [hdot]
  simp only at hw
  obtain ⟨hcw, hsw, hw0, hw1⟩ := hw
  generalize (open Classical in if ev.z < 0 then 2 * π - arccos (ev.dot (node Om) / ev.norm) else
    arccos (ev.dot (node Om) / ev.norm)) = w at *
  have hecc : ev = ((node Om).smul (ev.norm * cos w)).add ((quarter Om i).smul (ev.norm * sin w)) := by
    rw [hcw, hsw, mul_div_cancel₀ _ hep.ne', mul_div_cancel₀ _ hep.ne']
    exact hexp
  -- true anomaly
  have hPe : (ev.smul (1 / ev.norm)).dot (ev.smul (1 / ev.norm)) = 1 := by
    have : (ev.smul (1 / ev.norm)).dot (ev.smul (1 / ev.norm)) = 1 / ev.norm * (1 / ev.norm) * ev.dot ev := by
      simp only [V3.dot, V3.smul]
      ring
    rw [this, ← he2]
    field_simp
  have hPp : (ev.smul (1 / ev.norm)).dot (pole Om i) = 0 := by
    have : (ev.smul (1 / ev.norm)).dot (pole Om i) = 1 / ev.norm * ev.dot (pole Om i) := by
      simp only [V3.dot, V3.smul]
      ring
    rw [this, heP, mul_zero]
  have hrp0 : r.dot (pole Om i) = 0 := by
    have : r.dot hv = hv.norm * r.dot (pole Om i) := by
      conv_lhs => rw [hpole]
      simp only [V3.dot, V3.smul]
      ring
    rw [hrh] at this
    exact (mul_eq_zero.1 this.symm).resolve_left hhp.ne'
  obtain ⟨hrexp, hrsq⟩ := plane_expansion (pole Om i) (ev.smul (1 / ev.norm)) r (pole_unit Om i) hPe hPp hrp0
  have hr2 : r.norm * r.norm = r.dot r := V3.norm_sq r
  have hc1 : r.dot (ev.smul (1 / ev.norm)) = ev.dot r / ev.norm := by
    simp only [V3.dot, V3.smul]
    field_simp
  have hs1 : r.dot ((pole Om i).cross (ev.smul (1 / ev.norm))) = hv.norm * (r.dot v) / m / ev.norm := by
    have e1 : r.dot ((pole Om i).cross (ev.smul (1 / ev.norm))) = (ev.cross r).dot (pole Om i) / ev.norm := by
      simp only [V3.dot, V3.smul, V3.cross]
      field_simp
      ring
    have e2 : (hv.smul (r.dot v / m)).dot (pole Om i) = hv.norm * (r.dot v) / m := by
      have : (hv.smul (r.dot v / m)).dot (pole Om i) = (r.dot v / m) * hv.dot (pole Om i) := by
        simp only [V3.dot, V3.smul]
        ring
      rw [this]
      have : hv.dot (pole Om i) = hv.norm := by
        conv_lhs => rw [hpole]
        have : ((pole Om i).smul hv.norm).dot (pole Om i) = hv.norm * (pole Om i).dot (pole Om i) := by
          simp only [V3.dot, V3.smul]
          ring
        rw [this, pole_unit, mul_one]
      rw [this]
      ring
    rw [e1, her, e2]
  rw [hc1, hs1] at hrsq hrexp
  have ht := angle_of (ev.dot r / (ev.norm * r.norm)) (hv.norm * (r.dot v) / m / ev.norm / r.norm) (r.dot v)
    (by
      have : ev.dot r / (ev.norm * r.norm) * (ev.dot r / (ev.norm * r.norm)) +
          hv.norm * r.dot v / m / ev.norm / r.norm * (hv.norm * r.dot v / m / ev.norm / r.norm) =
          r.dot r / (r.norm * r.norm) := by
        rw [hrsq]
        field_simp
      rw [this, hr2, div_self]
      rw [← hr2]
      positivity)
    (by
      have hk : 0 < hv.norm / m / ev.norm / r.norm := by positivity
      have : hv.norm * r.dot v / m / ev.norm / r.norm = r.dot v * (hv.norm / m / ev.norm / r.norm) := by ring
      rw [this]
      constructor
      · intro h
        exact mul_neg_of_neg_of_pos h hk
      · intro h
        by_contra hc
        exact absurd h (not_lt.2 (mul_nonneg (not_lt.1 hc) hk.le)))
  simp only at ht
  obtain ⟨hct, hst, ht0, ht1⟩ := ht
  generalize (open Classical in if r.dot v < 0 then 2 * π - arccos (ev.dot r / (ev.norm * r.norm)) else
    arccos (ev.dot r / (ev.norm * r.norm))) = th at *
  refine ⟨⟨hpole, hecc, ?_⟩, ⟨hi0, hi1, hO0, hO1, hw0, hw1, ht0, ht1⟩, trivial, rfl⟩
  -- direction
  simp only
  have hP : ev.smul (1 / ev.norm) = ((node Om).smul (cos w)).add ((quarter Om i).smul (sin w)) := by
    exact unscale _ _ _ _ hep.ne' _ hecc
  have hQ : (pole Om i).cross (ev.smul (1 / ev.norm)) =
      ((node Om).smul (-sin w)).add ((quarter Om i).smul (cos w)) := by
    rw [hP]
    have h1 := sin_sq_add_cos_sq Om
    have h2 := sin_sq_add_cos_sq i
    have hx : ∀ a b : ℝ, (pole Om i).cross (((node Om).smul a).add ((quarter Om i).smul b)) =
        (((pole Om i).cross (node Om)).smul a).add (((pole Om i).cross (quarter Om i)).smul b) := by
      intro a b
      ext <;> simp only [V3.cross, V3.add, V3.smul] <;> ring
    have hq : (pole Om i).cross (quarter Om i) = (node Om).smul (-1) := by
      ext <;> simp only [V3.cross, V3.smul, pole, quarter, node]
      · linear_combination (-cos Om) * h2
      · linear_combination (-sin Om) * h2
      · ring
    rw [hx, pole_cross_node, hq]
    ext <;> simp only [V3.add, V3.smul] <;> ring
  rw [hQ, hP] at hrexp
  have c1 : ev.dot r / ev.norm = r.norm * cos th := by
    rw [hct]
    field_simp
  have c2 : hv.norm * r.dot v / m / ev.norm = r.norm * sin th := by
    rw [hst]
    field_simp
  rw [c1, c2] at hrexp
  conv_lhs => rw [hrexp]
  rw [cos_add, sin_add]
  generalize r.norm = R
  ext <;> simp only [V3.add, V3.smul] <;> ring

/-! ### C87 -/

/-- **C87** For a state that is not rectilinear, equatorial or circular, `state2kepler` returns angles in
their ranges, the magnitude of the angular momentum and the eccentricity, and the conic section with
these elements gives the state back. -/
theorem classic_round_trip (r v : V3) (m : ℝ) (hm : 0 < m)
    (hn : ¬ ((r.cross v).x = 0 ∧ (r.cross v).y = 0)) (he : eccVec r v m ≠ ⟨0, 0, 0⟩) :
    (state2kepler r v m).InRange ∧ (state2kepler r v m).h = (r.cross v).norm ∧
    (state2kepler r v m).e = (eccVec r v m).norm ∧
    (state2kepler r v m).position m = r ∧ (state2kepler r v m).velocity m = v := by
  have hn' : (⟨-(r.cross v).y, (r.cross v).x, 0⟩ : V3) ≠ ⟨0, 0, 0⟩ := by
    intro h0
    have h1 := congrArg V3.x h0
    have h2 := congrArg V3.y h0
    simp only [neg_eq_zero] at h1 h2
    exact hn ⟨h2, h1⟩
  obtain ⟨hg, hrange, hh, hee⟩ := geometry r v m hm hn' he
  refine ⟨hrange, hh, hee, ?_⟩
  have hr : r ≠ ⟨0, 0, 0⟩ := by
    intro h0
    apply hn
    rw [h0]
    simp [V3.cross]
  have hrp := V3.norm_pos r hr
  have hhne : r.cross v ≠ ⟨0, 0, 0⟩ := by
    intro h0
    apply hn
    rw [h0]
    simp
  have hhp := V3.norm_pos _ hhne
  rw [← hh] at hhp
  have hh2 : (r.cross v).dot (r.cross v) = (state2kepler r v m).h ^ 2 := by
    rw [hh, pow_two, V3.norm_sq]
  -- radius
  have hr2 : r.norm * r.norm = r.dot r := V3.norm_sq r
  have hedr : (eccVec r v m).dot r = (state2kepler r v m).h ^ 2 / m - r.norm := by
    have e : (eccVec r v m).dot r = (r.cross v).dot (r.cross v) / m - r.dot r / r.norm := by
      simp only [eccVec, V3.dot, V3.sub, V3.smul, V3.cross]
      field_simp
      ring
    rw [e, hh2, ← hr2, mul_div_assoc, div_self hrp.ne', mul_one]
  have hvel : (r.cross v).cross ((eccVec r v m).add (r.smul (1 / r.norm))) =
      v.smul ((state2kepler r v m).h ^ 2 / m) := by
    rw [← hh2]
    ext <;> simp only [eccVec, V3.dot, V3.sub, V3.smul, V3.cross, V3.add] <;> field_simp <;> ring
  obtain ⟨hmom, hecc, hdir⟩ := hg
  generalize state2kepler r v m = k at *
  have h1 := sin_sq_add_cos_sq k.Omega
  have h2 := sin_sq_add_cos_sq k.i
  have hnn := node_unit k.Omega
  have hqq : (quarter k.Omega k.i).dot (quarter k.Omega k.i) = 1 := by
    simp only [quarter, V3.dot]
    linear_combination (cos k.i) ^ 2 * h1 + h2
  have hnq : (node k.Omega).dot (quarter k.Omega k.i) = 0 := by
    simp only [quarter, node, V3.dot]
    ring
  have hcomb : ∀ a b c d : ℝ, (((node k.Omega).smul a).add ((quarter k.Omega k.i).smul b)).dot
      (((node k.Omega).smul c).add ((quarter k.Omega k.i).smul d)) = a * c + b * d := by
    intro a b c d
    have e : (((node k.Omega).smul a).add ((quarter k.Omega k.i).smul b)).dot
        (((node k.Omega).smul c).add ((quarter k.Omega k.i).smul d)) =
        a * c * (node k.Omega).dot (node k.Omega) + (a * d + b * c) * (node k.Omega).dot (quarter k.Omega k.i) +
          b * d * (quarter k.Omega k.i).dot (quarter k.Omega k.i) := by
      simp only [V3.dot, V3.add, V3.smul]
      ring
    rw [e, hnn, hnq, hqq]
    ring
  have hrad : r.norm * (1 + k.e * cos k.theta) = k.h ^ 2 / m := by
    have e : (eccVec r v m).dot r = r.norm * (k.e * cos k.theta) := by
      rw [hecc]
      conv_lhs => rw [hdir]
      have e2 : ∀ (x y : V3) (c : ℝ), x.dot (y.smul c) = c * x.dot y := by
        intro x y c
        simp only [V3.dot, V3.smul]
        ring
      rw [e2, hcomb]
      have : cos k.theta = cos (k.omega + k.theta - k.omega) := by ring_nf
      rw [this, cos_sub]
      ring
    rw [hedr] at e
    linarith
  have hpos : 0 < 1 + k.e * cos k.theta := by
    have : 0 < k.h ^ 2 / m := div_pos (pow_pos hhp 2) hm
    rw [← hrad] at this
    exact (mul_pos_iff_of_pos_left hrp).1 this
  constructor
  · unfold Classic.position
    rw [← hrad, mul_div_assoc, div_self hpos.ne', mul_one]
    exact hdir.symm
  · -- velocity
    have hq : (pole k.Omega k.i).cross (quarter k.Omega k.i) = (node k.Omega).smul (-1) := by
      ext <;> simp only [V3.cross, V3.smul, pole, quarter, node]
      · linear_combination (-cos k.Omega) * h2
      · linear_combination (-sin k.Omega) * h2
      · ring
    have hx : ∀ a b : ℝ, (pole k.Omega k.i).cross (((node k.Omega).smul a).add ((quarter k.Omega k.i).smul b)) =
        ((node k.Omega).smul (-b)).add ((quarter k.Omega k.i).smul a) := by
      intro a b
      have : (pole k.Omega k.i).cross (((node k.Omega).smul a).add ((quarter k.Omega k.i).smul b)) =
        (((pole k.Omega k.i).cross (node k.Omega)).smul a).add (((pole k.Omega k.i).cross (quarter k.Omega k.i)).smul b) := by
        ext <;> simp only [V3.cross, V3.add, V3.smul] <;> ring
      rw [this, pole_cross_node, hq]
      ext <;> simp only [V3.add, V3.smul] <;> ring
    have hsum : (eccVec r v m).add (r.smul (1 / r.norm)) =
        ((node k.Omega).smul (k.e * cos k.omega + cos (k.omega + k.theta))).add
          ((quarter k.Omega k.i).smul (k.e * sin k.omega + sin (k.omega + k.theta))) := by
      rw [hecc]
      have : r.smul (1 / r.norm) = ((node k.Omega).smul (cos (k.omega + k.theta))).add
          ((quarter k.Omega k.i).smul (sin (k.omega + k.theta))) := by
        refine unscale _ _ _ _ hrp.ne' _ (hdir.trans ?_)
        ext <;> simp only [V3.smul, V3.add] <;> ring
      rw [this]
      ext <;> simp only [V3.add, V3.smul] <;> ring
    have hs : ∀ (a b : V3) (c : ℝ), (a.smul c).cross b = (a.cross b).smul c := by
      intro a b c
      ext <;> simp only [V3.cross, V3.smul] <;> ring
    rw [hsum, hmom, hs, hx] at hvel
    unfold Classic.velocity
    have hvx := congrArg V3.x hvel
    have hvy := congrArg V3.y hvel
    have hvz := congrArg V3.z hvel
    simp only [V3.smul, V3.add] at hvx hvy hvz
    generalize node k.Omega = nd at *
    generalize quarter k.Omega k.i = qt at *
    ext <;> simp only [V3.smul, V3.add]
    · field_simp at hvx ⊢
      linarith
    · field_simp at hvy ⊢
      linarith
    · field_simp at hvz ⊢
      linarith

/-- **C87** So does the alternative after Vallado: it returns the same elements. -/
theorem vallado_agrees (r v : V3) (m : ℝ) (hr : r ≠ ⟨0, 0, 0⟩) : vallado r v m = state2kepler r v m :=
  vallado_eq r v m hr

/-- The state of the examples: semi-major axis 4, eccentricity 3/5, inclination a right angle. -/
noncomputable def exR : V3 := ⟨4 / 5, 0, 48 / 25⟩
noncomputable def exV : V3 := ⟨-(15 / 26), 0, 8 / 13⟩

theorem exR_norm : exR.norm = 52 / 25 := by
  unfold V3.norm
  rw [show exR.dot exR = (52 / 25) ^ 2 by norm_num [exR, V3.dot], sqrt_sq (by norm_num)]

theorem ex_cross : exR.cross exV = ⟨0, -(8 / 5), 0⟩ := by
  unfold exR exV
  ext <;> norm_num [V3.cross]

theorem ex_h : (exR.cross exV).norm = 8 / 5 := by
  rw [ex_cross]
  unfold V3.norm
  rw [show V3.dot ⟨0, -(8 / 5), 0⟩ ⟨0, -(8 / 5), 0⟩ = ((8 : ℝ) / 5) ^ 2 by norm_num [V3.dot], sqrt_sq (by norm_num)]

theorem ex_ecc : eccVec exR exV 1 = ⟨3 / 5, 0, 0⟩ := by
  unfold eccVec
  rw [exR_norm]
  unfold exR exV
  ext <;> norm_num [V3.cross, V3.smul, V3.sub]

example : (state2kepler exR exV 1).position 1 = exR ∧ (state2kepler exR exV 1).velocity 1 = exV :=
  (classic_round_trip exR exV 1 one_pos (by rw [ex_cross]; norm_num)
    (by
      rw [ex_ecc]
      intro h
      have := congrArg V3.x h
      norm_num at this)).2.2.2

theorem cos_atan2 (y x : ℝ) (h : ¬ (x = 0 ∧ y = 0)) : cos (atan2 y x) = x / √(x * x + y * y) ∧
    sin (atan2 y x) = y / √(x * x + y * y) := by
  have hz : (⟨x, y⟩ : ℂ) ≠ 0 := by
    intro h0
    exact h ⟨congrArg Complex.re h0, congrArg Complex.im h0⟩
  have hn : ‖(⟨x, y⟩ : ℂ)‖ = √(x * x + y * y) := by
    rw [Complex.norm_def, Complex.normSq_mk]
  unfold atan2
  rw [Complex.cos_arg hz, Complex.sin_arg, hn]
  exact ⟨rfl, rfl⟩

/-- The square of the eccentricity from the energy and the angular momentum. -/
theorem ecc_energy (r v : V3) (m : ℝ) (hm : m ≠ 0) (hr : r ≠ ⟨0, 0, 0⟩) :
    (eccVec r v m).dot (eccVec r v m) = 1 - (r.cross v).dot (r.cross v) / m * (2 / r.norm - v.dot v / m) := by
  have hrp := V3.norm_pos r hr
  have hr2 : r.norm * r.norm = r.dot r := V3.norm_sq r
  have e1 : (eccVec r v m).dot (eccVec r v m) =
      v.dot v * ((r.cross v).dot (r.cross v)) / (m * m) - 2 * ((r.cross v).dot (r.cross v)) / (m * r.norm) +
        r.dot r / (r.norm * r.norm) := by
    simp only [eccVec, V3.dot, V3.sub, V3.smul, V3.cross]
    field_simp
    ring
  rw [e1, ← hr2, div_self (by positivity)]
  field_simp
  ring

/-- **C87** (partial) The alternative after Montenbruck and Gill returns the right angular momentum,
inclination, node, eccentricity and argument of latitude.  Missing: the true anomaly, and with it the argument
of perigee; see the counterexample. -/
theorem montenbruck_partial (r v : V3) (m : ℝ) (hm : 0 < m)
    (hn : ¬ ((r.cross v).x = 0 ∧ (r.cross v).y = 0)) (he : eccVec r v m ≠ ⟨0, 0, 0⟩) :
    (montenbruck r v m).h = (r.cross v).norm ∧ (montenbruck r v m).e = (eccVec r v m).norm ∧
    r.cross v = (pole (montenbruck r v m).Omega (montenbruck r v m).i).smul (r.cross v).norm ∧
    0 ≤ (montenbruck r v m).i ∧ (montenbruck r v m).i ≤ π ∧
    r = (((node (montenbruck r v m).Omega).smul (cos ((montenbruck r v m).omega + (montenbruck r v m).theta))).add
      ((quarter (montenbruck r v m).Omega (montenbruck r v m).i).smul
        (sin ((montenbruck r v m).omega + (montenbruck r v m).theta)))).smul r.norm := by
  have hr : r ≠ ⟨0, 0, 0⟩ := by
    intro h0
    apply hn
    rw [h0]
    simp [V3.cross]
  have hrp := V3.norm_pos r hr
  have hhne : r.cross v ≠ ⟨0, 0, 0⟩ := by
    intro h0
    apply hn
    rw [h0]
    simp
  have hhp := V3.norm_pos _ hhne
  have hn' : (⟨-(r.cross v).y, (r.cross v).x, 0⟩ : V3) ≠ ⟨0, 0, 0⟩ := by
    intro h0
    have h1 := congrArg V3.x h0
    have h2 := congrArg V3.y h0
    simp only [neg_eq_zero] at h1 h2
    exact hn ⟨h2, h1⟩
  obtain ⟨⟨hmom, -, hdir⟩, hrange, hh, -⟩ := geometry r v m hm hn' he
  have hee := ecc_energy r v m hm.ne' hr
  unfold montenbruck
  simp only [one_div, div_inv_eq_mul, sub_add_cancel]
  rw [← hee]
  refine ⟨trivial, ?_⟩
  refine ⟨?_, ?_⟩
  · have : eccVec r v m = eccVec r v m := rfl
    simp only [V3.norm]
  rw [hh] at hmom
  generalize state2kepler r v m = k at *
  have hi0 := hrange.i0
  have hi1 := hrange.i1
  generalize k.i = i at *
  generalize k.Omega = Om at *
  generalize k.omega + k.theta = u at *
  generalize hv : r.cross v = h at *
  have hx : h.x / h.norm = sin Om * sin i := by
    have := congrArg V3.x hmom
    simp only [V3.smul, pole] at this
    rw [this]
    field_simp
  have hy : h.y / h.norm = -cos Om * sin i := by
    have := congrArg V3.y hmom
    simp only [V3.smul, pole] at this
    rw [this]
    field_simp
  have hz : h.z / h.norm = cos i := by
    have := congrArg V3.z hmom
    simp only [V3.smul, pole] at this
    rw [this]
    field_simp
  rw [hx, hy, hz]
  have hsi0 : 0 ≤ sin i := sin_nonneg_of_nonneg_of_le_pi hi0 hi1
  have hsi : 0 < sin i := by
    rcases hsi0.lt_or_eq with h1 | h1
    · exact h1
    · exfalso
      apply hn
      have a := congrArg V3.x hmom
      have b := congrArg V3.y hmom
      simp only [V3.smul, pole, ← h1, mul_zero] at a b
      exact ⟨a, b⟩
  have hO := sin_sq_add_cos_sq Om
  have hsq : √(sin Om * sin i * (sin Om * sin i) + -cos Om * sin i * (-cos Om * sin i)) = 1 * sin i := by
    rw [show sin Om * sin i * (sin Om * sin i) + -cos Om * sin i * (-cos Om * sin i) = sin i ^ 2 by
      linear_combination (sin i) ^ 2 * hO, sqrt_sq hsi0, one_mul]
  have hi : atan2 √(sin Om * sin i * (sin Om * sin i) + -cos Om * sin i * (-cos Om * sin i)) (cos i) = i := by
    rw [hsq]
    conv_lhs => rw [← one_mul (cos i)]
    exact atan2_polar_eq 1 i one_pos (by linarith [pi_pos]) hi1
  rw [hi]
  obtain ⟨n, hn1⟩ := atan2_polar (sin i) Om hsi
  have hOm : atan2 (sin Om * sin i) (-(-cos Om * sin i)) = Om + n * (2 * π) := by
    rw [← hn1]
    congr 1 <;> ring
  rw [hOm]
  have hcO : cos (Om + n * (2 * π)) = cos Om := cos_add_int_mul_two_pi Om n
  have hsO : sin (Om + n * (2 * π)) = sin Om := sin_add_int_mul_two_pi Om n
  have hrz := congrArg V3.z hdir
  have hrx := congrArg V3.x hdir
  have hry := congrArg V3.y hdir
  simp only [V3.smul, V3.add, node, quarter] at hrx hry hrz
  obtain ⟨l, hl⟩ := atan2_polar (r.norm * sin i) u (mul_pos hrp hsi)
  have hu : atan2 r.z (-r.x * (-cos Om * sin i) + r.y * (sin Om * sin i)) = u + l * (2 * π) := by
    rw [← hl]
    congr 1
    · rw [hrz]
      ring
    · rw [hrx, hry]
      linear_combination (r.norm * sin i * cos u) * hO
  rw [hu]
  have hcu : cos (u + l * (2 * π)) = cos u := cos_add_int_mul_two_pi u l
  have hsu : sin (u + l * (2 * π)) = sin u := sin_add_int_mul_two_pi u l
  rw [hcu, hsu]
  refine ⟨?_, hi0, hi1, ?_⟩
  · conv_lhs => rw [hmom]
    simp only [pole, hcO, hsO]
  · conv_lhs => rw [hdir]
    simp only [node, quarter, hcO, hsO]

/-- The alternative after Montenbruck and Gill divides by `a` and multiplies by `a` again where it
should divide by `a²`; on an ellipse of semi-major axis 4 (and eccentricity 3/5) its true anomaly is on the
wrong side of the orbit, and the elements do not give the position back. -/
theorem montenbruck_counterexample : cos (montenbruck exR exV 1).theta < 0 ∧ 0 < cos (state2kepler exR exV 1).theta ∧
    (montenbruck exR exV 1).position 1 ≠ exR ∧ (state2kepler exR exV 1).position 1 = exR := by
  have hn : ¬ ((exR.cross exV).x = 0 ∧ (exR.cross exV).y = 0) := by
    rw [ex_cross]
    norm_num
  have he : eccVec exR exV 1 ≠ ⟨0, 0, 0⟩ := by
    rw [ex_ecc]
    intro h
    have := congrArg V3.x h
    norm_num at this
  have hen : (eccVec exR exV 1).norm = 3 / 5 := by
    rw [ex_ecc]
    unfold V3.norm
    rw [show V3.dot ⟨3 / 5, 0, 0⟩ ⟨3 / 5, 0, 0⟩ = ((3 : ℝ) / 5) ^ 2 by norm_num [V3.dot], sqrt_sq (by norm_num)]
  obtain ⟨m1, m2, -, -, -, m3⟩ := montenbruck_partial exR exV 1 one_pos hn he
  obtain ⟨-, k1, k2, k3, -⟩ := classic_round_trip exR exV 1 one_pos hn he
  have ht : cos (montenbruck exR exV 1).theta < 0 := by
    have hth : (montenbruck exR exV 1).theta = atan2 (√(1 - (montenbruck exR exV 1).e * (montenbruck exR exV 1).e) *
        sin (atan2 (144 / 25) (12 / 25))) (cos (atan2 (144 / 25) (12 / 25)) - (montenbruck exR exV 1).e) := by
      have ha : 1 / (2 / exR.norm - exV.dot exV / 1) = 4 := by
        rw [exR_norm]
        norm_num [exV, V3.dot]
      have hnn : √(1 / ((4 : ℝ) * 4 * 4)) = 1 / 8 := by
        rw [show (1 : ℝ) / (4 * 4 * 4) = (1 / 8) ^ 2 by norm_num, sqrt_sq (by norm_num)]
      have hrv : exR.dot exV / 4 * 4 / (1 / 8) = 144 / 25 := by
        norm_num [exR, exV, V3.dot]
      have hq : 1 - exR.norm / 4 = 12 / 25 := by
        rw [exR_norm]
        norm_num
      unfold montenbruck
      simp only [ha, hnn, hrv, hq]
    rw [hth, m2, hen]
    have hc := (cos_atan2 (144 / 25) (12 / 25) (by norm_num)).1
    have hlt : cos (atan2 (144 / 25) (12 / 25)) - 3 / 5 < 0 := by
      rw [hc]
      have : (144 / 25 : ℝ) ≤ √(12 / 25 * (12 / 25) + 144 / 25 * (144 / 25)) := by
        apply le_sqrt_of_sq_le
        norm_num
      have h2 : (12 / 25 : ℝ) / √(12 / 25 * (12 / 25) + 144 / 25 * (144 / 25)) ≤ 12 / 25 / (144 / 25) :=
        div_le_div_of_nonneg_left (by norm_num) (by norm_num) this
      norm_num at h2 ⊢
      linarith
    rw [(cos_atan2 _ _ (fun h => absurd h.1 hlt.ne)).1]
    apply div_neg_of_neg_of_pos hlt
    apply sqrt_pos.2
    nlinarith [mul_pos_of_neg_of_neg hlt hlt, mul_self_nonneg (√(1 - 3 / 5 * (3 / 5)) * sin (atan2 (144 / 25) (12 / 25)))]
  have hrad : ∀ k : Classic, k.h = 8 / 5 → k.e = 3 / 5 → k.position 1 = exR →
      exR = (((node k.Omega).smul (cos (k.omega + k.theta))).add
        ((quarter k.Omega k.i).smul (sin (k.omega + k.theta)))).smul exR.norm → 0 < cos k.theta := by
    intro k h1 h2 h3 h4
    unfold Classic.position at h3
    rw [h1, h2] at h3
    generalize ((node k.Omega).smul (cos (k.omega + k.theta))).add
        ((quarter k.Omega k.i).smul (sin (k.omega + k.theta))) = d at *
    rw [exR_norm] at h4
    have a := congrArg V3.x h3
    have b := congrArg V3.x h4
    simp only [V3.smul, exR] at a b
    have hd : d.x = 5 / 13 := by linarith
    rw [hd] at a
    have hne : 1 + 3 / 5 * cos k.theta ≠ 0 := by
      intro h0
      rw [h0] at a
      norm_num at a
    rw [div_one, div_mul_eq_mul_div, div_eq_iff hne] at a
    linarith
  have hm : (montenbruck exR exV 1).position 1 ≠ exR := by
    intro h
    have := hrad _ (m1.trans ex_h) (m2.trans hen) h m3
    linarith
  have hn' : (⟨-(exR.cross exV).y, (exR.cross exV).x, 0⟩ : V3) ≠ ⟨0, 0, 0⟩ := by
    rw [ex_cross]
    intro h
    have := congrArg V3.x h
    norm_num at this
  have hg := (geometry exR exV 1 one_pos hn' he).1
  exact ⟨ht, hrad _ (k1.trans ex_h) (k2.trans hen) k3 hg.dir, hm, k3⟩

/-! ### C88 -/

/-- **C88** Away from the poles, right ascension and declination give the position back; the declination
is between -π/2 and π/2, the right ascension in (0, 2π]. -/
theorem ad_recovers (pos : V3) (h : ¬ (pos.x = 0 ∧ pos.y = 0)) :
    let a := (pos2ad pos).1
    let d := (pos2ad pos).2
    pos = (⟨cos d * cos a, cos d * sin a, sin d⟩ : V3).smul pos.norm ∧
    -(π / 2) < d ∧ d < π / 2 ∧ 0 < a ∧ a ≤ 2 * π := by
  have hp : pos ≠ ⟨0, 0, 0⟩ := by
    intro h0
    apply h
    rw [h0]
    exact ⟨rfl, rfl⟩
  have hr := V3.norm_pos pos hp
  have hr2 : pos.norm * pos.norm = pos.x * pos.x + pos.y * pos.y + pos.z * pos.z := V3.norm_sq pos
  have hxy : 0 < pos.x * pos.x + pos.y * pos.y := by
    rcases not_and_or.1 h with h1 | h1
    · nlinarith [mul_self_pos.2 h1, mul_self_nonneg pos.y]
    · nlinarith [mul_self_pos.2 h1, mul_self_nonneg pos.x]
  unfold pos2ad
  simp only
  generalize pos.norm = R at *
  have hz : pos.z / R * (pos.z / R) < 1 := by
    rw [div_mul_div_comm, div_lt_one (by positivity)]
    linarith
  have hz1 : -1 < pos.z / R := by nlinarith
  have hz2 : pos.z / R < 1 := by nlinarith
  have hd1 : -(π / 2) < arcsin (pos.z / R) := neg_pi_div_two_lt_arcsin.2 hz1
  have hd2 : arcsin (pos.z / R) < π / 2 := arcsin_lt_pi_div_two.2 hz2
  have hsd : sin (arcsin (pos.z / R)) = pos.z / R := sin_arcsin hz1.le hz2.le
  generalize arcsin (pos.z / R) = d at *
  have hcd : 0 < cos d := cos_pos_of_mem_Ioo ⟨hd1, hd2⟩
  have hcs := sin_sq_add_cos_sq d
  have hcc : pos.x / R / cos d * (pos.x / R / cos d) + pos.y / R / cos d * (pos.y / R / cos d) = 1 := by
    rw [hsd] at hcs
    field_simp at hcs ⊢
    nlinarith
  generalize hc : pos.x / R / cos d = c at *
  generalize hs : pos.y / R / cos d = s at *
  have c1 : -1 ≤ c := by nlinarith [mul_self_nonneg s]
  have c2 : c ≤ 1 := by nlinarith [mul_self_nonneg s]
  have hsin : sin (arccos c) = |s| := by
    rw [sin_arccos, show 1 - c ^ 2 = s ^ 2 by linarith [pow_two c, pow_two s], sqrt_sq_eq_abs]
  have hys : pos.y / R = s * cos d := by
    rw [← hs]
    field_simp
  have hxc : pos.x / R = c * cos d := by
    rw [← hc]
    field_simp
  have fin : ∀ a : ℝ, cos a = c → sin a = s → pos = (⟨cos d * cos a, cos d * sin a, sin d⟩ : V3).smul R := by
    intro a ha hb
    ext <;> simp only [V3.smul, ha, hb, hsd]
    · rw [mul_comm (cos d), ← hxc]
      field_simp
    · rw [mul_comm (cos d), ← hys]
      field_simp
    · field_simp
  by_cases hm : pos.y / R ≤ 0
  · rw [if_pos hm]
    have hs0 : s ≤ 0 := by
      rw [hys] at hm
      by_contra hc
      exact absurd hm (not_le.2 (mul_pos (not_le.1 hc) hcd))
    refine ⟨fin _ ?_ ?_, hd1, hd2, ?_, ?_⟩
    · rw [cos_two_pi_sub, cos_arccos c1 c2]
    · rw [sin_two_pi_sub, hsin, abs_of_nonpos hs0, neg_neg]
    · linarith [arccos_le_pi c, pi_pos]
    · linarith [arccos_nonneg c]
  · rw [if_neg hm]
    have hs0 : 0 < s := by
      rw [hys] at hm
      by_contra hc
      exact hm (mul_nonpos_of_nonpos_of_nonneg (not_lt.1 hc) hcd.le)
    refine ⟨fin _ (cos_arccos c1 c2) ?_, hd1, hd2, ?_, ?_⟩
    · rw [hsin, abs_of_pos hs0]
    · rw [arccos_pos]
      nlinarith [mul_pos hs0 hs0]
    · linarith [arccos_le_pi c, pi_pos]

example : ¬ ((⟨0, -3, 4⟩ : V3).x = 0 ∧ (⟨0, -3, 4⟩ : V3).y = 0) := by norm_num

/-- On the half plane of the vernal equinox the right ascension returned is the full turn, not zero. -/
theorem ad_counterexample (x z : ℝ) (hx : 0 < x) : (pos2ad ⟨x, 0, z⟩).1 = 2 * π := by
  have h := ad_recovers ⟨x, 0, z⟩ (by
    rintro ⟨h, -⟩
    exact hx.ne' h)
  simp only at h
  obtain ⟨h1, h2, h3, h4, h5⟩ := h
  have hcd : 0 < cos (pos2ad ⟨x, 0, z⟩).2 := cos_pos_of_mem_Ioo ⟨h2, h3⟩
  have hr : 0 < V3.norm ⟨x, 0, z⟩ := V3.norm_pos _ (by
    intro h
    exact hx.ne' (congrArg V3.x h))
  generalize pos2ad ⟨x, 0, z⟩ = q at *
  have hc := congrArg V3.x h1
  have hs := congrArg V3.y h1
  simp only [V3.smul] at hc hs
  have hsin : sin q.1 = 0 := by
    rcases mul_eq_zero.1 hs.symm with h | h
    · exact absurd h hr.ne'
    · exact (mul_eq_zero.1 h).resolve_left hcd.ne'
  have hcos : 0 < cos q.1 := by
    rw [hc, ← mul_assoc] at hx
    exact (mul_pos_iff_of_pos_left (mul_pos hr hcd)).1 hx
  by_contra hne
  have hlt := lt_of_le_of_ne h5 hne
  have hpi : q.1 = π := by
    by_contra hn
    rcases lt_or_gt_of_ne hn with h | h
    · exact absurd hsin (sin_pos_of_pos_of_lt_pi h4 h).ne'
    · have := sin_neg_of_neg_of_neg_pi_lt (x := q.1 - 2 * π) (by linarith) (by linarith)
      rw [sin_sub_two_pi] at this
      linarith
  rw [hpi, cos_pi] at hcos
  linarith

end Verif.Orbit
