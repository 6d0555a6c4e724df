import Verif.Atmosphere.ProfileProps
import Mathlib.Analysis.Calculus.Deriv.MeanValue

/-! C115 below 72.5 km (`densm`), and the joined profile. -/
namespace Verif.Atmosphere.Profile
open Set Verif.Atmosphere.Msis

/-! ### One part of `densm` -/

section Part
variable {F : Fns ℝ} {re : ℝ} {n : ℕ} {zn tn tg : ℕ → ℝ}

/-- The exponent of the density of one part. -/
noncomputable def expoM (re gsurf xm : ℝ) (n : ℕ) (zn tn tg : ℕ → ℝ) (z : ℝ) : ℝ :=
  xm * (gsurf / (1 + zn 0 / re) ^ (2 : ℝ)) * zeta re (zn (n - 1)) (zn 0) / r100gas *
    area re n zn tn tg z

theorem expoM_nonpos (h : Nodes re n zn) (hre : re ≠ 0) {gsurf xm : ℝ} (hg : 0 ≤ gsurf) (hx : 0 ≤ xm)
    (hp : ∀ z ∈ Icc (zn (n - 1)) (zn 0), 0 < inv re n zn tn tg z) :
    ∀ z ∈ Icc (zn (n - 1)) (zn 0), expoM re gsurf xm n zn tn tg z ≤ 0 := by
  obtain ⟨hd, h0⟩ := area_deriv (tn := tn) (tg := tg) h hre gsurf xm r100gas
  have hmono : MonotoneOn (expoM re gsurf xm n zn tn tg) (Icc (zn (n - 1)) (zn 0)) := by
    refine monotoneOn_of_hasDerivWithinAt_nonneg (convex_Icc _ _)
      (fun z hz => (hd z hz).continuousWithinAt)
      (fun z hz => (hd z (interior_subset hz)).mono interior_subset) fun z hz => ?_
    exact mul_nonneg (div_nonneg (mul_nonneg hx (mul_nonneg hg (sq_nonneg _))) R_pos.le)
      (hp z (interior_subset hz)).le
  intro z hz
  have := hmono hz ⟨h.ends.le, le_rfl⟩ hz.2
  rwa [show expoM re gsurf xm n zn tn tg (zn 0) = 0 by rw [expoM, h0, mul_zero]] at this

theorem part_temp (hF : RealFns F) (gsurf xm z : ℝ) :
    (densmPart F n zn z re gsurf xm tn tg).1 = 1 / inv re n zn tn tg z := by
  simp only [densmPart, hF.pow]
  rfl

theorem part_dens (hF : RealFns F) (h : Nodes re n zn) (hre : re ≠ 0) {gsurf xm : ℝ} (hg : 0 ≤ gsurf)
    (hx : 0 ≤ xm) (hp : ∀ z ∈ Icc (zn (n - 1)) (zn 0), 0 < inv re n zn tn tg z) {z : ℝ}
    (hz : z ∈ Icc (zn (n - 1)) (zn 0)) :
    (densmPart F n zn z re gsurf xm tn tg).2 =
      (tn 0 / (1 / inv re n zn tn tg z)) ^ (1 + 0 : ℝ) *
        Real.exp (-expoM re gsurf xm n zn tn tg z) := by
  have hn : ¬ expoM re gsurf xm n zn tn tg z > 50 :=
    not_lt.2 (le_trans (expoM_nonpos h hre hg hx hp z hz) (by norm_num))
  have e : ∀ x, (if expoM re gsurf xm n zn tn tg z > 50 then x else expoM re gsurf xm n zn tn tg z) =
      expoM re gsurf xm n zn tn tg z := fun x => if_neg hn
  have e' := e 50
  rw [add_zero, Real.rpow_one]
  simp only [densmPart, hF.pow, hF.exp]
  exact congrArg (fun f => tn 0 / (1 / inv re n zn tn tg z) * Real.exp (-f)) e'

theorem part_start (hF : RealFns F) (h : Nodes re n zn) (hre : re ≠ 0) {gsurf xm : ℝ} (hg : 0 ≤ gsurf)
    (hx : 0 ≤ xm) (hp : ∀ z ∈ Icc (zn (n - 1)) (zn 0), 0 < inv re n zn tn tg z) :
    (densmPart F n zn (zn 0) re gsurf xm tn tg).2 = 1 := by
  have h3 := h.three
  have hi := hp (zn 0) ⟨h.ends.le, le_rfl⟩
  rw [part_dens hF h hre hg hx hp ⟨h.ends.le, le_rfl⟩]
  rw [inv_node h (by omega)] at hi ⊢
  rw [one_div_one_div, div_self (one_div_pos.1 hi).ne', Real.one_rpow, expoM,
    (area_deriv (tn := tn) (tg := tg) h hre gsurf xm r100gas).2]
  simp

/-- Diffusive equilibrium within one part. -/
theorem part_equilibrium (hF : RealFns F) (h : Nodes re n zn) (hre : re ≠ 0) {gsurf xm : ℝ}
    (hg : 0 ≤ gsurf) (hx : 0 ≤ xm) (hp : ∀ z ∈ Icc (zn (n - 1)) (zn 0), 0 < inv re n zn tn tg z)
    (C : ℝ) (dens temp D : ℝ → ℝ) (hT : ∀ z ∈ Icc (zn (n - 1)) (zn 0), temp z = 1 / inv re n zn tn tg z)
    (hD : C1On temp D (zn (n - 1)) (zn 0))
    (hd : ∀ z ∈ Icc (zn (n - 1)) (zn 0), dens z = C * (densmPart F n zn z re gsurf xm tn tg).2) :
    Equilibrium re gsurf xm 0 dens temp D (zn (n - 1)) (zn 0) := by
  have h3 := h.three
  have hi := hp (zn 0) ⟨h.ends.le, le_rfl⟩
  rw [inv_node h (by omega)] at hi
  have hform : ∀ z ∈ Icc (zn (n - 1)) (zn 0), dens z =
      C * (tn 0 / temp z) ^ (1 + 0 : ℝ) * Real.exp (-expoM re gsurf xm n zn tn tg z) := by
    intro z hz
    rw [hd z hz, part_dens hF h hre hg hx hp hz, hT z hz]
    ring
  intro z hz
  have := layer_density C (tn 0) (1 + 0) hD
    (fun x hx' => by rw [hT x hx']; exact one_div_pos.2 (hp x hx')) (one_div_pos.1 hi)
    (A := expoM re gsurf xm n zn tn tg)
    (area_deriv (tn := tn) (tg := tg) h hre gsurf xm r100gas).1 z hz
  refine (this.congr hform (hform z hz)).congr_deriv ?_
  rw [← hform z hz]
  have e : xm * grav re gsurf z / r100gas * inv re n zn tn tg z =
      xm * grav re gsurf z / (r100gas * temp z) := by
    rw [hT z hz]
    have := (hp z hz).ne'
    have := R_pos.ne'
    field_simp
  rw [e]

end Part

/-! ### `densm` -/

section Lower
variable {F : Fns ℝ} (s : St ℝ) (d0 xm tz0 : ℝ)

/-- Temperature of `densm` at height `z`. -/
noncomputable def tempM (F : Fns ℝ) (s : St ℝ) (d0 xm tz0 z : ℝ) : ℝ := (densm F z d0 xm tz0 s).1.2

/-- Density of `densm` at height `z`. -/
noncomputable def densM (F : Fns ℝ) (s : St ℝ) (d0 xm tz0 z : ℝ) : ℝ := (densm F z d0 xm tz0 s).1.1

/-- Node values as `densm` reads them. -/
noncomputable def tn2 (s : St ℝ) : ℕ → ℝ := fun k => [s.tn2 0, s.tn2 1, s.tn2 2, s.tn2 3].getD k 0
@[inherit_doc tn2]
noncomputable def tg2 (s : St ℝ) : ℕ → ℝ := fun k => [s.tgn2 0, s.tgn2 1].getD k 0
@[inherit_doc tn2]
noncomputable def tn3 (s : St ℝ) : ℕ → ℝ := fun k =>
  [s.tn3 0, s.tn3 1, s.tn3 2, s.tn3 3, s.tn3 4].getD k 0
@[inherit_doc tn2]
noncomputable def tg3 (s : St ℝ) : ℕ → ℝ := fun k => [s.tgn3 0, s.tgn3 1].getD k 0

theorem nodes2 (re : ℝ) (hre : 0 < re) : Nodes re 4 zn2 where
  three := by omega
  dec := by
    intro i hi
    have : i = 0 ∨ i = 1 ∨ i = 2 := by omega
    rcases this with rfl | rfl | rfl
    · show (55 : ℝ) < 72.5; norm_num
    · show (45 : ℝ) < 55; norm_num
    · show (32.5 : ℝ) < 45; norm_num
  pos := by show 0 < re + 32.5; linarith

theorem nodes3 (re : ℝ) (hre : 0 < re) : Nodes re 5 zn3 where
  three := by omega
  dec := by
    intro i hi
    have : i = 0 ∨ i = 1 ∨ i = 2 ∨ i = 3 := by omega
    rcases this with rfl | rfl | rfl | rfl
    · show (20 : ℝ) < 32.5; norm_num
    · show (15 : ℝ) < 20; norm_num
    · show (10 : ℝ) < 15; norm_num
    · show (0 : ℝ) < 10; norm_num
  pos := by show 0 < re + 0; linarith

theorem tempM_up (hF : RealFns F) {z : ℝ} (h1 : 32.5 < z) (h2 : z ≤ 72.5) :
    tempM F s d0 xm tz0 z = 1 / inv s.re 4 zn2 (tn2 s) (tg2 s) z := by
  have a1 : z ≤ zn2 0 := h2
  have a2 : ¬ z ≤ zn3 0 := not_le.2 h1
  have a3 : max z (zn2 3) = z := max_eq_left h1.le
  simp only [tempM, densm, bind_run, rd_run, pure_run, ite_run, if_pos a1, if_neg a2, a3]
  exact part_temp hF _ _ _

theorem tempM_low (hF : RealFns F) {z : ℝ} (h1 : z ≤ 32.5) :
    tempM F s d0 xm tz0 z = 1 / inv s.re 5 zn3 (tn3 s) (tg3 s) z := by
  have a1 : z ≤ zn2 0 := by show z ≤ 72.5; linarith
  have a2 : z ≤ zn3 0 := h1
  simp only [tempM, densm, bind_run, rd_run, pure_run, ite_run, if_pos a1, if_pos a2]
  exact part_temp hF _ _ _

theorem densM_up (hxm : |xm| > nearzero) {z : ℝ} (h1 : 32.5 < z) (h2 : z ≤ 72.5) :
    densM F s d0 xm tz0 z = d0 * (densmPart F 4 zn2 z s.re s.gsurf xm (tn2 s) (tg2 s)).2 := by
  have a1 : z ≤ zn2 0 := h2
  have a2 : ¬ z ≤ zn3 0 := not_le.2 h1
  have a3 : max z (zn2 3) = z := max_eq_left h1.le
  simp only [densM, densm, bind_run, rd_run, pure_run, ite_run, if_pos a1, if_neg a2, a3, if_pos hxm,
    if_neg (not_lt.2 hxm.le)]
  rfl

theorem densM_low (hxm : |xm| > nearzero) {z : ℝ} (h1 : z ≤ 32.5) :
    densM F s d0 xm tz0 z = d0 * (densmPart F 4 zn2 32.5 s.re s.gsurf xm (tn2 s) (tg2 s)).2 *
      (densmPart F 5 zn3 z s.re s.gsurf xm (tn3 s) (tg3 s)).2 := by
  have a1 : z ≤ zn2 0 := by show z ≤ 72.5; linarith
  have a2 : z ≤ zn3 0 := h1
  have a3 : max z (zn2 3) = 32.5 := max_eq_right h1
  simp only [densM, densm, bind_run, rd_run, pure_run, ite_run, if_pos a1, if_pos a2, a3, if_pos hxm,
    if_neg (not_lt.2 hxm.le)]
  rfl

/-- The situation of the lower profile: real functions, a body of positive radius, temperatures and
gradients of the two parts that agree at 32.5 km, positive temperatures, and end slopes that do not
ask for a natural end. -/
structure LowerOk (F : Fns ℝ) (s : St ℝ) : Prop where
  fns : RealFns F
  radius : 0 < s.re
  node : s.tn3 0 = s.tn2 3
  grad : s.tgn3 0 = s.tgn2 1
  gentle2 : Gentle s.re 4 zn2 (tn2 s) (tg2 s)
  gentle3 : Gentle s.re 5 zn3 (tn3 s) (tg3 s)
  warm : ∀ z ∈ Icc 0 72.5, ∀ d0 xm tz0, 0 < tempM F s d0 xm tz0 z

variable {s}

theorem LowerOk.inv3 (h : LowerOk F s) : ∀ z ∈ Icc (zn3 (5 - 1)) (zn3 0),
    0 < inv s.re 5 zn3 (tn3 s) (tg3 s) z := by
  intro z hz
  have h0 : (0 : ℝ) ≤ z := hz.1
  have h1 : z ≤ 32.5 := hz.2
  have := h.warm z ⟨h0, by linarith⟩ 0 0 0
  rw [tempM_low s 0 0 0 h.fns h1] at this
  exact one_div_pos.1 this

theorem LowerOk.join (h : LowerOk F s) :
    inv s.re 4 zn2 (tn2 s) (tg2 s) 32.5 = inv s.re 5 zn3 (tn3 s) (tg3 s) 32.5 := by
  have e1 : inv s.re 4 zn2 (tn2 s) (tg2 s) (zn2 3) = 1 / tn2 s 3 :=
    inv_node (nodes2 s.re h.radius) (by omega)
  have e2 : inv s.re 5 zn3 (tn3 s) (tg3 s) (zn3 0) = 1 / tn3 s 0 :=
    inv_node (nodes3 s.re h.radius) (by omega)
  have e3 : tn3 s 0 = tn2 s 3 := h.node
  rw [e3, ← e1] at e2
  exact e2.symm

theorem LowerOk.tempM_upper (h : LowerOk F s) {z : ℝ} (h1 : 32.5 ≤ z) (h2 : z ≤ 72.5) :
    tempM F s d0 xm tz0 z = 1 / inv s.re 4 zn2 (tn2 s) (tg2 s) z := by
  rcases eq_or_lt_of_le h1 with e | e
  · rw [← e, tempM_low s d0 xm tz0 h.fns le_rfl, h.join]
  · exact tempM_up s d0 xm tz0 h.fns e h2

theorem LowerOk.inv2 (h : LowerOk F s) : ∀ z ∈ Icc (zn2 (4 - 1)) (zn2 0),
    0 < inv s.re 4 zn2 (tn2 s) (tg2 s) z := by
  intro z hz
  have h1 : (32.5 : ℝ) ≤ z := hz.1
  have h2 : z ≤ 72.5 := hz.2
  have := h.warm z ⟨by linarith, h2⟩ 0 0 0
  rw [h.tempM_upper 0 0 0 h1 h2] at this
  exact one_div_pos.1 this

/-- **C115 (below 72.5 km).**  When the two parts of `densm` agree at 32.5 km in temperature and
gradient, the temperature is continuously differentiable in height from 0 to 72.5 km, takes the node
values at the nodes and the prescribed gradients at 72.5, 32.5 and 0 km, and the density is in
hydrostatic equilibrium with it, starting from `d0` at 72.5 km. -/
theorem lower_profile (h : LowerOk F s) (hg : 0 ≤ s.gsurf) (hxm : nearzero < xm) :
    ∃ D, C1On (tempM F s d0 xm tz0) D 0 72.5 ∧
      D 72.5 = s.tgn2 0 ∧ D 32.5 = s.tgn2 1 ∧ D 0 = s.tgn3 1 ∧
      (∀ k, k ≤ 3 → tempM F s d0 xm tz0 (zn2 k) = s.tn2 k) ∧
      (∀ k, k ≤ 4 → tempM F s d0 xm tz0 (zn3 k) = s.tn3 k) ∧
      Equilibrium s.re s.gsurf xm 0 (densM F s d0 xm tz0) (tempM F s d0 xm tz0) D 0 72.5 ∧
      densM F s d0 xm tz0 72.5 = d0 := by
  have hnz : (0 : ℝ) < nearzero := by unfold nearzero; norm_num
  have hx0 : 0 ≤ xm := (hnz.trans hxm).le
  have hxa : |xm| > nearzero := by rw [abs_of_nonneg hx0]; exact hxm
  have N2 := nodes2 s.re h.radius
  have N3 := nodes3 s.re h.radius
  have hre := h.radius.ne'
  have l1 : (0 : ℝ) ≤ 32.5 := by norm_num
  have l2 : (32.5 : ℝ) ≤ 72.5 := by norm_num
  obtain ⟨D2, hD2, a0, a1⟩ := temp_C1 N2 h.gentle2 h.inv2
  obtain ⟨D3, hD3, b0, b1⟩ := temp_C1 N3 h.gentle3 h.inv3
  have hT3 : ∀ z ∈ Icc (0 : ℝ) 32.5, tempM F s d0 xm tz0 z = 1 / inv s.re 5 zn3 (tn3 s) (tg3 s) z :=
    fun z hz => tempM_low s d0 xm tz0 h.fns hz.2
  have hT2 : ∀ z ∈ Icc (32.5 : ℝ) 72.5,
      tempM F s d0 xm tz0 z = 1 / inv s.re 4 zn2 (tn2 s) (tg2 s) z :=
    fun z hz => h.tempM_upper d0 xm tz0 hz.1 hz.2
  have c3 : C1On (tempM F s d0 xm tz0) D3 0 32.5 := hD3.congr hT3
  have c2 : C1On (tempM F s d0 xm tz0) D2 32.5 72.5 := hD2.congr hT2
  have b0' : D3 32.5 = s.tgn3 0 := b0
  have a1' : D2 32.5 = s.tgn2 1 := a1
  obtain ⟨D, hD, e3, e2⟩ := c3.glue l1 l2 c2 (by rw [b0', a1']; exact h.grad)
  have hs3 : Icc (0 : ℝ) 32.5 ⊆ Icc 0 72.5 := Icc_subset_Icc_right l2
  have hs2 : Icc (32.5 : ℝ) 72.5 ⊆ Icc 0 72.5 := Icc_subset_Icc_left l1
  have hC3 : C1On (tempM F s d0 xm tz0) D 0 32.5 :=
    ⟨hD.1.mono hs3, fun x hx => (hD.2 x (hs3 hx)).mono hs3⟩
  have hC2 : C1On (tempM F s d0 xm tz0) D 32.5 72.5 :=
    ⟨hD.1.mono hs2, fun x hx => (hD.2 x (hs2 hx)).mono hs2⟩
  have hstart3 : (densmPart F 5 zn3 32.5 s.re s.gsurf xm (tn3 s) (tg3 s)).2 = 1 :=
    part_start h.fns N3 hre hg hx0 h.inv3
  have hdens2 : ∀ z ∈ Icc (32.5 : ℝ) 72.5, densM F s d0 xm tz0 z =
      d0 * (densmPart F 4 zn2 z s.re s.gsurf xm (tn2 s) (tg2 s)).2 := by
    intro z hz
    rcases eq_or_lt_of_le hz.1 with e | e
    · rw [← e, densM_low s d0 xm tz0 hxa le_rfl, hstart3, mul_one]
    · exact densM_up s d0 xm tz0 hxa e hz.2
  have E3 : Equilibrium s.re s.gsurf xm 0 (densM F s d0 xm tz0) (tempM F s d0 xm tz0) D 0 32.5 :=
    part_equilibrium h.fns N3 hre hg hx0 h.inv3
      (d0 * (densmPart F 4 zn2 32.5 s.re s.gsurf xm (tn2 s) (tg2 s)).2) _ _ D hT3 hC3
      fun z hz => densM_low s d0 xm tz0 hxa hz.2
  have E2 : Equilibrium s.re s.gsurf xm 0 (densM F s d0 xm tz0) (tempM F s d0 xm tz0) D 32.5 72.5 :=
    part_equilibrium h.fns N2 hre hg hx0 h.inv2 d0 _ _ D hT2 hC2 hdens2
  refine ⟨D, hD, ?_, ?_, ?_, ?_, ?_, deriv_glue l1 l2 E3 E2, ?_⟩
  · rw [e2 _ ⟨l2, le_rfl⟩]; exact a0
  · rw [e2 _ ⟨le_rfl, l2⟩]; exact a1'
  · rw [e3 _ ⟨le_rfl, l1⟩]; exact b1
  · intro k hk
    have hm : zn2 k ∈ Icc (32.5 : ℝ) 72.5 :=
      ⟨N2.anti 3 k hk (by omega), N2.anti k 0 (by omega) (by omega)⟩
    rw [hT2 _ hm, inv_node N2 (by omega), one_div_one_div]
    have : k = 0 ∨ k = 1 ∨ k = 2 ∨ k = 3 := by omega
    rcases this with rfl | rfl | rfl | rfl <;> rfl
  · intro k hk
    have hm : zn3 k ∈ Icc (0 : ℝ) 32.5 :=
      ⟨N3.anti 4 k hk (by omega), N3.anti k 0 (by omega) (by omega)⟩
    rw [hT3 _ hm, inv_node N3 (by omega), one_div_one_div]
    have : k = 0 ∨ k = 1 ∨ k = 2 ∨ k = 3 ∨ k = 4 := by omega
    rcases this with rfl | rfl | rfl | rfl | rfl <;> rfl
  · have hstart2 : (densmPart F 4 zn2 72.5 s.re s.gsurf xm (tn2 s) (tg2 s)).2 = 1 :=
      part_start h.fns N2 hre hg hx0 h.inv2
    rw [hdens2 _ ⟨l2, le_rfl⟩, hstart2, mul_one]

/-- **C115 (whole range).**  When the node values and gradients of the lower part continue those of
the upper part (`gtd7` copies them), the temperature is continuously differentiable from the ground
up to any height. -/
theorem whole_temperature {T : Tab ℝ} {t1 t2 zlb s2 top : ℝ} (dlb xu al : ℝ)
    (hu : UpperOk F T s t1 t2 zlb s2 top) (hl : LowerOk F s) (hg : 0 ≤ s.gsurf) (hxm : nearzero < xm)
    (hn : s.tn2 0 = s.tn1 4) (hgr : s.tgn2 0 = s.tgn1 1) :
    ∃ D, C1On (fun z => if 72.5 ≤ z then tempU F T s dlb t1 t2 xu al zlb s2 z
      else tempM F s d0 xm tz0 z) D 0 top := by
  obtain ⟨D₁, h1, g1, -, -, n1, -⟩ := lower_profile d0 xm tz0 hl hg hxm
  obtain ⟨D₂, h2, g2, -, n2⟩ := upper_temperature dlb xu al hu
  have e1 : tempM F s d0 xm tz0 72.5 = s.tn2 0 := n1 0 (by omega)
  have e2 : tempU F T s dlb t1 t2 xu al zlb s2 72.5 = s.tn1 4 := n2 4 (by omega) (by omega)
  have l1 : (0 : ℝ) ≤ 72.5 := by norm_num
  have l2 : (72.5 : ℝ) ≤ top := by linarith [hu.join, hu.reach]
  obtain ⟨D, hD, -⟩ := C1On.glue (f := fun z => if 72.5 ≤ z then
      tempU F T s dlb t1 t2 xu al zlb s2 z else tempM F s d0 xm tz0 z) l1 l2
    (h1.congr fun z hz => by
      rcases eq_or_lt_of_le hz.2 with e | e
      · rw [e, if_pos le_rfl, e1, e2, hn]
      · exact if_neg (not_le.2 e))
    (h2.congr fun z hz => if_pos hz.1) (by rw [g1, g2, hgr])
  exact ⟨D, hD⟩

/-- **The temperature has a gap at 32.5 km when `tn3[0]` differs from `tn2[3]`** – and no function of
the library writes `tn3[0]` (C64). -/
theorem profile_gap_counterexample (hF : RealFns F) (hre : 0 < s.re)
    (hgen : Gentle s.re 4 zn2 (tn2 s) (tg2 s)) (hne : s.tn3 0 ≠ s.tn2 3)
    (hw : ∀ z ∈ Icc (32.5 : ℝ) 72.5, 0 < inv s.re 4 zn2 (tn2 s) (tg2 s) z) :
    tempM F s d0 xm tz0 32.5 = s.tn3 0 ∧
    Filter.Tendsto (tempM F s d0 xm tz0) (nhdsWithin 32.5 (Ioi 32.5)) (nhds (s.tn2 3)) ∧
    ¬ ContinuousAt (tempM F s d0 xm tz0) 32.5 := by
  have N2 := nodes2 s.re hre
  have N3 := nodes3 s.re hre
  have v : tempM F s d0 xm tz0 32.5 = s.tn3 0 := by
    rw [tempM_low s d0 xm tz0 hF le_rfl]
    have : inv s.re 5 zn3 (tn3 s) (tg3 s) (zn3 0) = 1 / tn3 s 0 := inv_node N3 (by omega)
    exact (congrArg (fun t => 1 / t) this).trans (one_div_one_div _)
  obtain ⟨D, hD, -⟩ := temp_C1 N2 hgen hw
  have hlim : Filter.Tendsto (tempM F s d0 xm tz0) (nhdsWithin 32.5 (Ioi 32.5)) (nhds (s.tn2 3)) := by
    have hc := hD.continuousOn 32.5 ⟨le_rfl, by show (32.5 : ℝ) ≤ 72.5; norm_num⟩
    have e : inv s.re 4 zn2 (tn2 s) (tg2 s) (zn2 3) = 1 / tn2 s 3 := inv_node N2 (by omega)
    have e' : 1 / inv s.re 4 zn2 (tn2 s) (tg2 s) 32.5 = s.tn2 3 :=
      (congrArg (fun t => 1 / t) e).trans (one_div_one_div _)
    have hc' : Filter.Tendsto (fun z => 1 / inv s.re 4 zn2 (tn2 s) (tg2 s) z)
        (nhdsWithin 32.5 (Icc 32.5 72.5)) (nhds (1 / inv s.re 4 zn2 (tn2 s) (tg2 s) 32.5)) := hc
    rw [e'] at hc'
    have hnb : ∀ᶠ z in nhdsWithin (32.5 : ℝ) (Ioi 32.5), z ∈ Ioo (32.5 : ℝ) 72.5 :=
      Ioo_mem_nhdsGT (by norm_num)
    refine Filter.Tendsto.congr' ?_ (hc'.mono_left (nhdsWithin_le_of_mem ?_))
    · filter_upwards [hnb] with z hz
      exact (tempM_up s d0 xm tz0 hF hz.1 hz.2.le).symm
    · filter_upwards [hnb] with z hz
      exact ⟨hz.1.le, hz.2.le⟩
  refine ⟨v, hlim, fun hcont => hne ?_⟩
  have h1 : Filter.Tendsto (tempM F s d0 xm tz0) (nhdsWithin 32.5 (Ioi 32.5)) (nhds (s.tn3 0)) := by
    rw [← v]
    exact hcont.tendsto.mono_left nhdsWithin_le_nhds
  exact tendsto_nhds_unique h1 hlim

end Lower

/-- **C115 (nodes below 72.5 km).**  Below 32.5 km `gtd7` hands `densm` nodes of the middle part that
continue the upper part in temperature and gradient, and gradients of the lower part that continue the
middle part; the temperature `tn3[0]` is not set. -/
theorem nodes_continue (F : Fns ℝ) (T : Tab ℝ) (x : In ℝ) (s : St ℝ) :
    let s2 := (gtdNodes2 F T x s).2
    let s3 := (gtdNodes3 F T x s2).2
    (s2.tn2 0 = s2.tn1 4 ∧ s2.tgn2 0 = s2.tgn1 1) ∧
    (s3.tn2 0 = s3.tn1 4 ∧ s3.tgn2 0 = s3.tgn1 1 ∧ s3.tgn3 0 = s3.tgn2 1) ∧
    s3.tn3 0 = s.tn3 0 ∧ s3.tn1 = s.tn1 ∧ s3.tgn1 = s.tgn1 :=
  ⟨⟨rfl, rfl⟩, ⟨rfl, rfl, rfl⟩, rfl, rfl, rfl⟩

end Verif.Atmosphere.Profile
