import Verif.Atmosphere.ProfileCalc
import Verif.Atmosphere.MsisData
import Verif.Atmosphere.MsisUnits

/-! C115: temperature and density as functions of height (`densu`, `densm`). -/
namespace Verif.Atmosphere.Profile
open Set Verif.Atmosphere.Msis

/-! ### Specification -/

/-- The library functions are the mathematical ones. -/
structure RealFns (F : Fns ℝ) : Prop where
  exp : F.exp = Real.exp
  pow : F.pow = fun a b => a ^ b

/-- Diffusive equilibrium on a range of heights: the relative change of the density `dens` of a gas of
molecular weight `xm` with thermal diffusion coefficient `al` is `-(1 + al) T'/T - xm g / (R T)`. -/
def Equilibrium (re gsurf xm al : ℝ) (dens temp D : ℝ → ℝ) (a b : ℝ) : Prop :=
  ∀ z ∈ Icc a b, HasDerivWithinAt dens
    (-dens z * ((1 + al) * D z / temp z + xm * grav re gsurf z / (r100gas * temp z))) (Icc a b) z

/-! ### Densities -/

theorem R_pos : (0 : ℝ) < r100gas := by unfold r100gas; norm_num

theorem layer_density {τ D A a' : ℝ → ℝ} {a b : ℝ} (C c0 p : ℝ) (hτ : C1On τ D a b)
    (hp : ∀ z ∈ Icc a b, 0 < τ z) (hc : 0 < c0)
    (hA : ∀ z ∈ Icc a b, HasDerivWithinAt A (a' z) (Icc a b) z) :
    ∀ z ∈ Icc a b, HasDerivWithinAt (fun z => C * (c0 / τ z) ^ p * Real.exp (-A z))
      (-(C * (c0 / τ z) ^ p * Real.exp (-A z)) * (p * D z / τ z + a' z)) (Icc a b) z := by
  intro z hz
  have h0 := hp z hz
  have hq : HasDerivWithinAt (fun t => c0 / τ t) (-(c0 * D z) / τ z ^ 2) (Icc a b) z := by
    have := (hasDerivWithinAt_const z (Icc a b) c0).div (hτ.2 z hz) h0.ne'
    refine this.congr_deriv ?_
    ring
  have hpos : 0 < c0 / τ z := div_pos hc h0
  have := ((hq.rpow_const (p := p) (Or.inl hpos.ne')).const_mul C).mul ((hA z hz).neg.exp)
  refine this.congr_deriv ?_
  rw [Real.rpow_sub_one hpos.ne', Pi.neg_apply]
  have := h0.ne'
  have := hc.ne'
  field_simp
  ring

theorem grav_eq (re gsurf z : ℝ) (hre : re ≠ 0) (hz : re + z ≠ 0) :
    gsurf / (1 + z / re) ^ (2 : ℝ) = grav re gsurf z := by
  have e : 1 + z / re = (re + z) / re := by field_simp
  rw [Real.rpow_two, e, grav]
  field_simp

theorem grav_zeta (re gsurf zl z : ℝ) (hl : re + zl ≠ 0) :
    grav re gsurf zl * ((re + zl) / (re + z)) ^ 2 = grav re gsurf z := by
  unfold grav
  by_cases hz : re + z = 0
  · simp [hz]
  field_simp

/-! ### The upper part -/

section Upper
variable {F : Fns ℝ} {T : Tab ℝ} (hF : RealFns F) (s : St ℝ) (dlb t1 t2 xm al zlb s2 : ℝ)

/-- Temperature of `densu` at height `z`. -/
noncomputable def tempU (F : Fns ℝ) (T : Tab ℝ) (s : St ℝ) (dlb t1 t2 xm al zlb s2 : ℝ) (z : ℝ) : ℝ :=
  (densu F T z dlb t1 t2 xm al zlb s2 s).1.2

/-- Density of `densu` at height `z`. -/
noncomputable def densU (F : Fns ℝ) (T : Tab ℝ) (s : St ℝ) (dlb t1 t2 xm al zlb s2 : ℝ) (z : ℝ) : ℝ :=
  (densu F T z dlb t1 t2 xm al zlb s2 s).1.1

/-- The Bates profile. -/
noncomputable def bates (re t1 t2 zlb s2 z : ℝ) : ℝ :=
  t1 - (t1 - t2) * Real.exp (-s2 * ((z - zlb) * (re + zlb) / (re + z)))

/-- Node temperatures of the spline under the Bates profile. -/
noncomputable def tnU (T : Tab ℝ) (s : St ℝ) (t1 t2 zlb s2 : ℝ) : ℕ → ℝ := fun k =>
  [bates s.re t1 t2 zlb s2 (zn1 T 0), s.tn1 1, s.tn1 2, s.tn1 3, s.tn1 4].getD k 0

/-- End gradients of the spline under the Bates profile. -/
noncomputable def tgU (T : Tab ℝ) (s : St ℝ) (t1 t2 zlb s2 : ℝ) : ℕ → ℝ := fun k =>
  [(t1 - bates s.re t1 t2 zlb s2 (zn1 T 0)) * s2 * ((s.re + zlb) / (s.re + zn1 T 0)) ^ (2 : ℝ),
    s.tgn1 1].getD k 0

theorem zn1_last (T : Tab ℝ) : zn1 T (5 - 1) = 72.5 := rfl

include hF in
theorem tempU_high {z : ℝ} (hz : zn1 T 0 ≤ z) :
    tempU F T s dlb t1 t2 xm al zlb s2 z = bates s.re t1 t2 zlb s2 z := by
  simp only [tempU, densu, bind_run, rd_run, pure_run, ite_run, if_neg (not_lt.2 hz), max_eq_left hz,
    hF.exp]
  split_ifs <;> rfl

include hF in
theorem tempU_low {z : ℝ} (hz : z < zn1 T 0) (h72 : 72.5 ≤ z) :
    tempU F T s dlb t1 t2 xm al zlb s2 z =
      1 / inv s.re 5 (zn1 T) (tnU T s t1 t2 zlb s2) (tgU T s t1 t2 zlb s2) z := by
  have hm : max z (zn1 T 4) = z := max_eq_left h72
  simp only [tempU, densu, bind_run, rd_run, upd_run, pure_run, ite_run, if_pos hz, max_eq_right hz.le,
    hF.exp, hF.pow, densuLow, hm]
  split_ifs <;> rfl

/-- The exponent of the lower density. -/
noncomputable def expoU (T : Tab ℝ) (s : St ℝ) (t1 t2 xm zlb s2 z : ℝ) : ℝ :=
  xm * (s.gsurf / (1 + zn1 T 0 / s.re) ^ (2 : ℝ)) * zeta s.re (zn1 T (5 - 1)) (zn1 T 0) / r100gas *
    area s.re 5 (zn1 T) (tnU T s t1 t2 zlb s2) (tgU T s t1 t2 zlb s2) z

/-- The exponent `gamma` of the Bates density. -/
noncomputable def gam (s : St ℝ) (t1 xm zlb s2 : ℝ) : ℝ :=
  xm * (s.gsurf / (1 + zlb / s.re) ^ (2 : ℝ)) / (s2 * r100gas * t1)

/-- Density in the Bates region. -/
noncomputable def densB (s : St ℝ) (dlb t1 t2 xm al zlb s2 z : ℝ) : ℝ :=
  dlb * (t2 / bates s.re t1 t2 zlb s2 z) ^ (1 + al + gam s t1 xm zlb s2) *
    Real.exp (-s2 * gam s t1 xm zlb s2 * zeta s.re z zlb)

include hF in
theorem densU_high {z : ℝ} (hz : zn1 T 0 ≤ z) (hxm : |xm| > nearzero)
    (hp : 0 < bates s.re t1 t2 zlb s2 z)
    (hc : Real.exp (-s2 * gam s t1 xm zlb s2 * zeta s.re z zlb) ≤ 50) :
    densU F T s dlb t1 t2 xm al zlb s2 z = densB s dlb t1 t2 xm al zlb s2 z := by
  have hn : ¬ (Real.exp (-s2 * gam s t1 xm zlb s2 * zeta s.re z zlb) > 50 ∨
      bates s.re t1 t2 zlb s2 z ≤ 0) := not_or.2 ⟨not_lt.2 hc, not_le.2 hp⟩
  simp only [densU, densu, bind_run, rd_run, pure_run, if_neg (not_lt.2 hz), max_eq_left hz,
    hF.exp, hF.pow, if_pos hxm]
  have : ∀ x, (if Real.exp (-s2 * gam s t1 xm zlb s2 * zeta s.re z zlb) > 50 ∨
      bates s.re t1 t2 zlb s2 z ≤ 0 then x else
        Real.exp (-s2 * gam s t1 xm zlb s2 * zeta s.re z zlb)) =
      Real.exp (-s2 * gam s t1 xm zlb s2 * zeta s.re z zlb) := fun x => if_neg hn
  exact congrArg (fun e => dlb * (t2 / bates s.re t1 t2 zlb s2 z) ^ (1 + al + gam s t1 xm zlb s2) * e)
    (this 50)

include hF in
theorem densU_low {z : ℝ} (hz : z < zn1 T 0) (h72 : 72.5 ≤ z) (hxm : |xm| > nearzero)
    (hp : 0 < bates s.re t1 t2 zlb s2 (zn1 T 0))
    (hc : Real.exp (-s2 * gam s t1 xm zlb s2 * zeta s.re (zn1 T 0) zlb) ≤ 50)
    (hp' : 0 < inv s.re 5 (zn1 T) (tnU T s t1 t2 zlb s2) (tgU T s t1 t2 zlb s2) z)
    (hc' : expoU T s t1 t2 xm zlb s2 z ≤ 50) :
    densU F T s dlb t1 t2 xm al zlb s2 z = densB s dlb t1 t2 xm al zlb s2 (zn1 T 0) *
      (bates s.re t1 t2 zlb s2 (zn1 T 0) /
        (1 / inv s.re 5 (zn1 T) (tnU T s t1 t2 zlb s2) (tgU T s t1 t2 zlb s2) z)) ^ (1 + al) *
      Real.exp (-expoU T s t1 t2 xm zlb s2 z) := by
  have hm : max z (zn1 T 4) = z := max_eq_left h72
  have hn : ¬ (Real.exp (-s2 * gam s t1 xm zlb s2 * zeta s.re (zn1 T 0) zlb) > 50 ∨
      bates s.re t1 t2 zlb s2 (zn1 T 0) ≤ 0) := not_or.2 ⟨not_lt.2 hc, not_le.2 hp⟩
  have hn' : ¬ (expoU T s t1 t2 xm zlb s2 z > 50 ∨
      1 / inv s.re 5 (zn1 T) (tnU T s t1 t2 zlb s2) (tgU T s t1 t2 zlb s2) z ≤ 0) :=
    not_or.2 ⟨not_lt.2 hc', not_le.2 (one_div_pos.2 hp')⟩
  simp only [densU, densu, bind_run, rd_run, upd_run, pure_run, ite_run, if_pos hz, max_eq_right hz.le,
    hF.exp, hF.pow, densuLow, hm, if_pos hxm]
  have e1 : ∀ x, (if Real.exp (-s2 * gam s t1 xm zlb s2 * zeta s.re (zn1 T 0) zlb) > 50 ∨
      bates s.re t1 t2 zlb s2 (zn1 T 0) ≤ 0 then x else
        Real.exp (-s2 * gam s t1 xm zlb s2 * zeta s.re (zn1 T 0) zlb)) =
      Real.exp (-s2 * gam s t1 xm zlb s2 * zeta s.re (zn1 T 0) zlb) := fun x => if_neg hn
  have e2 : ∀ x, (if expoU T s t1 t2 xm zlb s2 z > 50 ∨
      1 / inv s.re 5 (zn1 T) (tnU T s t1 t2 zlb s2) (tgU T s t1 t2 zlb s2) z ≤ 0 then x else
        expoU T s t1 t2 xm zlb s2 z) = expoU T s t1 t2 xm zlb s2 z := fun x => if_neg hn'
  have e1' := e1 50
  have e2' := e2 50
  refine congrArg₂ (fun e f => dlb * (t2 / bates s.re t1 t2 zlb s2 (zn1 T 0)) ^
    (1 + al + gam s t1 xm zlb s2) * e * (bates s.re t1 t2 zlb s2 (zn1 T 0) /
        (1 / inv s.re 5 (zn1 T) (tnU T s t1 t2 zlb s2) (tgU T s t1 t2 zlb s2) z)) ^ (1 + al) *
      Real.exp (-f)) ?_ ?_
  · exact e1'
  · exact e2'

theorem bates_deriv (re t1 t2 zlb s2 z : ℝ) (hz : re + z ≠ 0) :
    HasDerivAt (bates re t1 t2 zlb s2)
      ((t1 - bates re t1 t2 zlb s2 z) * s2 * ((re + zlb) / (re + z)) ^ 2) z := by
  have := ((((zeta_deriv re zlb z hz).const_mul (-s2)).exp).const_mul (t1 - t2)).const_sub t1
  refine HasDerivAt.congr_deriv (f := bates re t1 t2 zlb s2) this ?_
  have e : bates re t1 t2 zlb s2 z = t1 - (t1 - t2) * Real.exp (-s2 * zeta re z zlb) := rfl
  rw [e]
  ring

theorem bates_C1 (re t1 t2 zlb s2 a b : ℝ) (ha : 0 < re + a) :
    C1On (bates re t1 t2 zlb s2)
      (fun z => (t1 - bates re t1 t2 zlb s2 z) * s2 * ((re + zlb) / (re + z)) ^ 2) a b := by
  have hne : ∀ z ∈ Icc a b, re + z ≠ 0 := fun z hz => (by linarith [hz.1] : (0 : ℝ) < re + z).ne'
  have hd : ∀ z ∈ Icc a b, HasDerivWithinAt (bates re t1 t2 zlb s2)
      ((t1 - bates re t1 t2 zlb s2 z) * s2 * ((re + zlb) / (re + z)) ^ 2) (Icc a b) z :=
    fun z hz => (bates_deriv re t1 t2 zlb s2 z (hne z hz)).hasDerivWithinAt
  refine ⟨?_, hd⟩
  have hc : ContinuousOn (bates re t1 t2 zlb s2) (Icc a b) := fun z hz => (hd z hz).continuousWithinAt
  exact ((continuousOn_const.sub hc).mul continuousOn_const).mul
    ((continuousOn_const.div (continuousOn_const.add continuousOn_id) hne).pow 2)

theorem nodes1 (re : ℝ) (hre : 0 < re) (h110 : 110 < zn1 T 0) : Nodes re 5 (zn1 T) where
  three := by omega
  dec := by
    intro i hi
    have : i = 0 ∨ i = 1 ∨ i = 2 ∨ i = 3 := by omega
    rcases this with rfl | rfl | rfl | rfl
    · exact h110
    · show (100 : ℝ) < 110; norm_num
    · show (90 : ℝ) < 100; norm_num
    · show (72.5 : ℝ) < 90; norm_num
  pos := by show 0 < re + 72.5; linarith

/-- The situation of the upper profile: real functions, a body of positive radius, the joining height
above the second node, positive temperatures from 72.5 km to the height `top`, and end slopes of the
spline that do not ask for a natural end. -/
structure UpperOk (F : Fns ℝ) (T : Tab ℝ) (s : St ℝ) (t1 t2 zlb s2 top : ℝ) : Prop where
  fns : RealFns F
  radius : 0 < s.re
  base : 0 < s.re + zlb
  join : 110 < zn1 T 0
  reach : zn1 T 0 ≤ top
  gentle : Gentle s.re 5 (zn1 T) (tnU T s t1 t2 zlb s2) (tgU T s t1 t2 zlb s2)
  warm : ∀ z ∈ Icc 72.5 top, ∀ dlb xm al, 0 < tempU F T s dlb t1 t2 xm al zlb s2 z

variable {s t1 t2 zlb s2} {top : ℝ}

theorem UpperOk.bates_pos (h : UpperOk F T s t1 t2 zlb s2 top) {z : ℝ} (h1 : zn1 T 0 ≤ z)
    (h2 : z ≤ top) : 0 < bates s.re t1 t2 zlb s2 z := by
  have := h.warm z ⟨by linarith [h.join], h2⟩ 0 0 0
  rwa [tempU_high h.fns s 0 t1 t2 0 0 zlb s2 h1] at this

theorem UpperOk.inv_pos (h : UpperOk F T s t1 t2 zlb s2 top) :
    ∀ z ∈ Icc (zn1 T (5 - 1)) (zn1 T 0),
      0 < inv s.re 5 (zn1 T) (tnU T s t1 t2 zlb s2) (tgU T s t1 t2 zlb s2) z := by
  intro z hz
  rcases eq_or_lt_of_le hz.2 with e | e
  · rw [e, inv_node (nodes1 s.re h.radius h.join) (by omega)]
    exact one_div_pos.2 (h.bates_pos le_rfl h.reach)
  · have := h.warm z ⟨hz.1, by linarith [h.reach]⟩ 0 0 0
    rw [tempU_low h.fns s 0 t1 t2 0 0 zlb s2 e hz.1] at this
    exact one_div_pos.1 this

theorem UpperOk.tempU_below (h : UpperOk F T s t1 t2 zlb s2 top) {z : ℝ}
    (hz : z ∈ Icc 72.5 (zn1 T 0)) : tempU F T s dlb t1 t2 xm al zlb s2 z =
      1 / inv s.re 5 (zn1 T) (tnU T s t1 t2 zlb s2) (tgU T s t1 t2 zlb s2) z := by
  rcases eq_or_lt_of_le hz.2 with e | e
  · rw [e, tempU_high h.fns s dlb t1 t2 xm al zlb s2 le_rfl, inv_node (nodes1 s.re h.radius h.join) (by omega),
      one_div_one_div]
    rfl
  · exact tempU_low h.fns s dlb t1 t2 xm al zlb s2 e hz.1

/-- **C115 (temperature above 72.5 km).**  The temperature of `densu` is continuously differentiable
in height from 72.5 km up to any height, across the joining height too.  Above it, it follows the
Bates law; at the nodes it takes the node values; at 72.5 km its gradient is the prescribed one. -/
theorem upper_temperature (h : UpperOk F T s t1 t2 zlb s2 top) :
    ∃ D, C1On (tempU F T s dlb t1 t2 xm al zlb s2) D 72.5 top ∧ D 72.5 = s.tgn1 1 ∧
      (∀ z ∈ Icc (zn1 T 0) top, tempU F T s dlb t1 t2 xm al zlb s2 z = bates s.re t1 t2 zlb s2 z ∧
        D z = (t1 - tempU F T s dlb t1 t2 xm al zlb s2 z) * s2 * ((s.re + zlb) / (s.re + z)) ^ 2) ∧
      ∀ k, 1 ≤ k → k ≤ 4 → tempU F T s dlb t1 t2 xm al zlb s2 (zn1 T k) = s.tn1 k := by
  have hN := nodes1 s.re h.radius h.join
  have ha : 0 < s.re + zn1 T 0 := by linarith [h.radius, h.join]
  have h72 : (72.5 : ℝ) ≤ zn1 T 0 := by linarith [h.join]
  obtain ⟨D₁, hD1, e0, e1⟩ := temp_C1 hN h.gentle h.inv_pos
  have hlow : C1On (tempU F T s dlb t1 t2 xm al zlb s2) D₁ 72.5 (zn1 T 0) :=
    hD1.congr fun z hz => h.tempU_below dlb xm al hz
  have hhigh : ∀ z ∈ Icc (zn1 T 0) top,
      tempU F T s dlb t1 t2 xm al zlb s2 z = bates s.re t1 t2 zlb s2 z :=
    fun z hz => tempU_high h.fns s dlb t1 t2 xm al zlb s2 hz.1
  have hup := (bates_C1 s.re t1 t2 zlb s2 (zn1 T 0) top ha).congr hhigh
  obtain ⟨D, hD, d1, d2⟩ := hlow.glue h72 h.reach hup (by
    rw [e0, ← Real.rpow_two]
    rfl)
  refine ⟨D, hD, ?_, ?_, ?_⟩
  · rw [d1 _ ⟨le_rfl, h72⟩]
    exact e1
  · intro z hz
    exact ⟨hhigh z hz, by rw [d2 z hz, hhigh z hz]⟩
  · intro k k1 k4
    have hk : zn1 T k ∈ Icc 72.5 (zn1 T 0) :=
      ⟨hN.anti 4 k k4 (by omega), hN.anti k 0 (by omega) (by omega)⟩
    rw [h.tempU_below dlb xm al hk, inv_node hN (by omega), one_div_one_div]
    have : k = 1 ∨ k = 2 ∨ k = 3 ∨ k = 4 := by omega
    rcases this with rfl | rfl | rfl | rfl <;> rfl

/-- The exponents stay below the limit 50 of the code. -/
structure UpperCaps (F : Fns ℝ) (T : Tab ℝ) (s : St ℝ) (t1 t2 xm zlb s2 top : ℝ) : Prop where
  above : ∀ z ∈ Icc (zn1 T 0) top, Real.exp (-(xm * grav s.re s.gsurf zlb / (r100gas * t1)) *
    ((z - zlb) * (s.re + zlb) / (s.re + z))) ≤ 50
  below : ∀ z ∈ Icc 72.5 (zn1 T 0), ∀ dlb al, -∫ t in z..zn1 T 0,
    xm * grav s.re s.gsurf t / (r100gas * tempU F T s dlb t1 t2 xm al zlb s2 t) ≤ 50

theorem s2_gam (s : St ℝ) (t1 xm zlb s2 : ℝ) (hre : s.re ≠ 0) (hl : s.re + zlb ≠ 0) (hs : s2 ≠ 0) :
    s2 * gam s t1 xm zlb s2 = xm * grav s.re s.gsurf zlb / (r100gas * t1) := by
  rw [gam, grav_eq _ _ _ hre hl]
  field_simp

open MeasureTheory in
theorem expoU_eq (h : UpperOk F T s t1 t2 zlb s2 top) {z : ℝ} (hz : z ∈ Icc 72.5 (zn1 T 0)) :
    expoU T s t1 t2 xm zlb s2 z = -∫ t in z..zn1 T 0,
      xm * grav s.re s.gsurf t / (r100gas * tempU F T s dlb t1 t2 xm al zlb s2 t) := by
  have hN := nodes1 s.re h.radius h.join
  obtain ⟨hd, h0⟩ := area_deriv (tn := tnU T s t1 t2 zlb s2) (tg := tgU T s t1 t2 zlb s2) hN
    h.radius.ne' s.gsurf xm r100gas
  have hd' : ∀ t ∈ Icc 72.5 (zn1 T 0), HasDerivWithinAt (expoU T s t1 t2 xm zlb s2)
      (xm * grav s.re s.gsurf t / (r100gas * tempU F T s dlb t1 t2 xm al zlb s2 t))
      (Icc 72.5 (zn1 T 0)) t := by
    intro t ht
    refine (hd t ht).congr_deriv ?_
    rw [h.tempU_below dlb xm al ht]
    have := (h.inv_pos t ht).ne'
    have := R_pos.ne'
    field_simp
  have hcont : ContinuousOn (fun t => xm * grav s.re s.gsurf t /
      (r100gas * tempU F T s dlb t1 t2 xm al zlb s2 t)) (Icc z (zn1 T 0)) := by
    obtain ⟨D, hD, -⟩ := upper_temperature dlb xm al h
    have hT : ContinuousOn (tempU F T s dlb t1 t2 xm al zlb s2) (Icc z (zn1 T 0)) :=
      hD.continuousOn.mono fun t ht => ⟨le_trans hz.1 ht.1, le_trans ht.2 h.reach⟩
    refine ContinuousOn.div ?_ (continuousOn_const.mul hT) ?_
    · refine continuousOn_const.mul (continuousOn_const.mul (ContinuousOn.pow ?_ 2))
      refine continuousOn_const.div (continuousOn_const.add continuousOn_id) ?_
      intro t ht
      exact (by simp only [id]; linarith [h.radius, hz.1, ht.1] : (0 : ℝ) < s.re + id t).ne'
    · intro t ht
      exact (mul_pos R_pos (h.warm t ⟨le_trans hz.1 ht.1, le_trans ht.2 h.reach⟩ dlb xm al)).ne'
  have hint : IntervalIntegrable (fun t => xm * grav s.re s.gsurf t /
      (r100gas * tempU F T s dlb t1 t2 xm al zlb s2 t)) volume z (zn1 T 0) := by
    refine ContinuousOn.intervalIntegrable ?_
    rwa [uIcc_of_le hz.2]
  have hftc := intervalIntegral.integral_eq_sub_of_hasDerivAt_of_le hz.2
    (f := expoU T s t1 t2 xm zlb s2)
    (fun t ht => ((hd' t ⟨le_trans hz.1 ht.1, ht.2⟩).continuousWithinAt).mono
      (Icc_subset_Icc_left hz.1))
    (fun t ht => (hd' t ⟨le_trans hz.1 ht.1.le, ht.2.le⟩).hasDerivAt
      (Icc_mem_nhds (lt_of_le_of_lt hz.1 ht.1) ht.2)) hint
  rw [hftc]
  have : expoU T s t1 t2 xm zlb s2 (zn1 T 0) = 0 := by
    rw [expoU, h0, mul_zero]
  rw [this]
  ring

/-- Diffusive equilibrium, given the temperature gradient. -/
theorem upper_density (h : UpperOk F T s t1 t2 zlb s2 top) (hc : UpperCaps F T s t1 t2 xm zlb s2 top)
    (ht1 : t1 ≠ 0) (ht2 : 0 < t2) (hs2 : s2 ≠ 0) (hxm : |xm| > nearzero) (D : ℝ → ℝ)
    (hD : C1On (tempU F T s dlb t1 t2 xm al zlb s2) D 72.5 top)
    (hDb : ∀ z ∈ Icc (zn1 T 0) top, D z = (t1 - tempU F T s dlb t1 t2 xm al zlb s2 z) * s2 *
      ((s.re + zlb) / (s.re + z)) ^ 2) :
    Equilibrium s.re s.gsurf xm al (densU F T s dlb t1 t2 xm al zlb s2)
      (tempU F T s dlb t1 t2 xm al zlb s2) D 72.5 top ∧
    ∀ z ∈ Icc (zn1 T 0) top, densU F T s dlb t1 t2 xm al zlb s2 z =
      dlb * (t2 / tempU F T s dlb t1 t2 xm al zlb s2 z) ^
        (1 + al + xm * grav s.re s.gsurf zlb / (s2 * r100gas * t1)) *
      Real.exp (-(xm * grav s.re s.gsurf zlb / (r100gas * t1)) *
        ((z - zlb) * (s.re + zlb) / (s.re + z))) := by
  have hre := h.radius.ne'
  have hl := h.base.ne'
  have h72 : (72.5 : ℝ) ≤ zn1 T 0 := by linarith [h.join]
  have hg := s2_gam s t1 xm zlb s2 hre hl hs2
  have hgam : gam s t1 xm zlb s2 = xm * grav s.re s.gsurf zlb / (s2 * r100gas * t1) := by
    rw [gam, grav_eq _ _ _ hre hl]
  have hexp : ∀ z, -s2 * gam s t1 xm zlb s2 * zeta s.re z zlb =
      -(xm * grav s.re s.gsurf zlb / (r100gas * t1)) *
        ((z - zlb) * (s.re + zlb) / (s.re + z)) := by
    intro z
    rw [← hg, zeta]
    ring
  have hcap : ∀ z ∈ Icc (zn1 T 0) top,
      Real.exp (-s2 * gam s t1 xm zlb s2 * zeta s.re z zlb) ≤ 50 := fun z hz => by
    rw [hexp]; exact hc.above z hz
  have hhigh : ∀ z ∈ Icc (zn1 T 0) top, densU F T s dlb t1 t2 xm al zlb s2 z =
      densB s dlb t1 t2 xm al zlb s2 z := fun z hz =>
    densU_high h.fns s dlb t1 t2 xm al zlb s2 hz.1 hxm (h.bates_pos hz.1 hz.2) (hcap z hz)
  have hN := nodes1 s.re h.radius h.join
  obtain ⟨hA, hA0⟩ := area_deriv (tn := tnU T s t1 t2 zlb s2) (tg := tgU T s t1 t2 zlb s2) hN hre
    s.gsurf xm r100gas
  have hbp := h.bates_pos le_rfl h.reach
  have hlow : ∀ z ∈ Icc 72.5 (zn1 T 0), densU F T s dlb t1 t2 xm al zlb s2 z =
      densB s dlb t1 t2 xm al zlb s2 (zn1 T 0) * (bates s.re t1 t2 zlb s2 (zn1 T 0) /
        tempU F T s dlb t1 t2 xm al zlb s2 z) ^ (1 + al) *
        Real.exp (-expoU T s t1 t2 xm zlb s2 z) := by
    intro z hz
    rcases eq_or_lt_of_le hz.2 with e | e
    · rw [e, hhigh _ ⟨le_rfl, h.reach⟩, tempU_high h.fns s dlb t1 t2 xm al zlb s2 le_rfl,
        div_self hbp.ne', Real.one_rpow, expoU, hA0]
      simp
    · rw [h.tempU_below dlb xm al hz]
      refine densU_low h.fns s dlb t1 t2 xm al zlb s2 e hz.1 hxm hbp (hcap _ ⟨le_rfl, h.reach⟩)
        (h.inv_pos z hz) ?_
      rw [expoU_eq dlb xm al h hz]
      exact hc.below z hz dlb al
  refine ⟨?_, ?_⟩
  · refine deriv_glue h72 h.reach ?_ ?_
    · intro z hz
      have hsub : Icc 72.5 (zn1 T 0) ⊆ Icc 72.5 top := Icc_subset_Icc_right h.reach
      have hτ : C1On (tempU F T s dlb t1 t2 xm al zlb s2) D 72.5 (zn1 T 0) :=
        ⟨hD.1.mono hsub, fun x hx => (hD.2 x (hsub hx)).mono hsub⟩
      have := layer_density (densB s dlb t1 t2 xm al zlb s2 (zn1 T 0))
        (bates s.re t1 t2 zlb s2 (zn1 T 0)) (1 + al) hτ (fun x hx => h.warm x (hsub hx) dlb xm al) hbp
        (A := expoU T s t1 t2 xm zlb s2) hA z hz
      refine (this.congr hlow (hlow z hz)).congr_deriv ?_
      rw [hlow z hz]
      have e : xm * grav s.re s.gsurf z / r100gas *
          inv s.re 5 (zn1 T) (tnU T s t1 t2 zlb s2) (tgU T s t1 t2 zlb s2) z =
          xm * grav s.re s.gsurf z / (r100gas * tempU F T s dlb t1 t2 xm al zlb s2 z) := by
        rw [h.tempU_below dlb xm al hz]
        have := (h.inv_pos z hz).ne'
        have := R_pos.ne'
        field_simp
      rw [e]
    · intro z hz
      have hsub : Icc (zn1 T 0) top ⊆ Icc 72.5 top := Icc_subset_Icc_left h72
      have hτ : C1On (tempU F T s dlb t1 t2 xm al zlb s2) D (zn1 T 0) top :=
        ⟨hD.1.mono hsub, fun x hx => (hD.2 x (hsub hx)).mono hsub⟩
      have hzp : ∀ x ∈ Icc (zn1 T 0) top, s.re + x ≠ 0 := fun x hx =>
        (by linarith [h.radius, h.join, hx.1] : (0 : ℝ) < s.re + x).ne'
      have hA2 : ∀ x ∈ Icc (zn1 T 0) top, HasDerivWithinAt
          (fun x => s2 * gam s t1 xm zlb s2 * zeta s.re x zlb)
          (s2 * gam s t1 xm zlb s2 * ((s.re + zlb) / (s.re + x)) ^ 2) (Icc (zn1 T 0) top) x :=
        fun x hx => ((zeta_deriv s.re zlb x (hzp x hx)).const_mul _).hasDerivWithinAt
      have hform : ∀ x ∈ Icc (zn1 T 0) top, densU F T s dlb t1 t2 xm al zlb s2 x =
          dlb * (t2 / tempU F T s dlb t1 t2 xm al zlb s2 x) ^ (1 + al + gam s t1 xm zlb s2) *
            Real.exp (-(s2 * gam s t1 xm zlb s2 * zeta s.re x zlb)) := by
        intro x hx
        rw [hhigh x hx, tempU_high h.fns s dlb t1 t2 xm al zlb s2 hx.1, densB, neg_mul, neg_mul]
      have := layer_density dlb t2 (1 + al + gam s t1 xm zlb s2) hτ
        (fun x hx => h.warm x (hsub hx) dlb xm al) ht2 hA2 z hz
      refine (this.congr hform (hform z hz)).congr_deriv ?_
      rw [hform z hz]
      congr 1
      have hpos := (h.warm z (hsub hz) dlb xm al).ne'
      have hq := grav_zeta s.re s.gsurf zlb z hl
      rw [hDb z hz, ← hq, hgam]
      generalize tempU F T s dlb t1 t2 xm al zlb s2 z = τ at *
      generalize ((s.re + zlb) / (s.re + z)) ^ 2 = q
      have := R_pos.ne'
      field_simp
      ring
  · intro z hz
    rw [hhigh z hz, tempU_high h.fns s dlb t1 t2 xm al zlb s2 hz.1, densB, hexp, hgam]

/-- **C115 (above 72.5 km).**  The temperature of `densu` is continuously differentiable in height
from 72.5 km up to any height, and the density is in diffusive equilibrium with it, both also across
the joining height.  Above the joining height they follow the Bates law and the closed formula; at the
nodes the temperature takes the node values; at 72.5 km its gradient is the prescribed one. -/
theorem upper_profile (h : UpperOk F T s t1 t2 zlb s2 top) (hc : UpperCaps F T s t1 t2 xm zlb s2 top)
    (ht1 : t1 ≠ 0) (ht2 : 0 < t2) (hs2 : s2 ≠ 0) (hxm : |xm| > nearzero) :
    ∃ D, C1On (tempU F T s dlb t1 t2 xm al zlb s2) D 72.5 top ∧ D 72.5 = s.tgn1 1 ∧
      (∀ k, 1 ≤ k → k ≤ 4 → tempU F T s dlb t1 t2 xm al zlb s2 (zn1 T k) = s.tn1 k) ∧
      Equilibrium s.re s.gsurf xm al (densU F T s dlb t1 t2 xm al zlb s2)
        (tempU F T s dlb t1 t2 xm al zlb s2) D 72.5 top ∧
      ∀ z ∈ Icc (zn1 T 0) top,
        tempU F T s dlb t1 t2 xm al zlb s2 z =
          t1 - (t1 - t2) * Real.exp (-s2 * ((z - zlb) * (s.re + zlb) / (s.re + z))) ∧
        densU F T s dlb t1 t2 xm al zlb s2 z =
          dlb * (t2 / tempU F T s dlb t1 t2 xm al zlb s2 z) ^
            (1 + al + xm * grav s.re s.gsurf zlb / (s2 * r100gas * t1)) *
          Real.exp (-(xm * grav s.re s.gsurf zlb / (r100gas * t1)) *
            ((z - zlb) * (s.re + zlb) / (s.re + z))) := by
  obtain ⟨D, hD, h72, hb, hn⟩ := upper_temperature dlb xm al h
  obtain ⟨he, hf⟩ := upper_density dlb xm al h hc ht1 ht2 hs2 hxm D hD fun z hz => (hb z hz).2
  exact ⟨D, hD, h72, hn, he, fun z hz => ⟨(hb z hz).1, hf z hz⟩⟩

/-- For a gas of positive molecular weight under downward gravity the limits of the exponents are not
reached, provided the joining height is not below the base of the Bates profile. -/
theorem caps_of_pos (h : UpperOk F T s t1 t2 zlb s2 top) (hxm : 0 ≤ xm) (hg : 0 ≤ s.gsurf)
    (ht1 : 0 ≤ t1) (hz : zlb ≤ zn1 T 0) : UpperCaps F T s t1 t2 xm zlb s2 top := by
  have hgr : ∀ z, 0 ≤ grav s.re s.gsurf z := fun z => mul_nonneg hg (sq_nonneg _)
  refine ⟨fun z hz' => ?_, fun z hz' dlb al => ?_⟩
  · have h1 : 0 ≤ xm * grav s.re s.gsurf zlb / (r100gas * t1) :=
      div_nonneg (mul_nonneg hxm (hgr zlb)) (mul_nonneg R_pos.le ht1)
    have h2 : 0 ≤ (z - zlb) * (s.re + zlb) / (s.re + z) :=
      div_nonneg (mul_nonneg (by linarith [hz'.1]) h.base.le) (by linarith [h.radius, h.join, hz'.1])
    have h3 : Real.exp (-(xm * grav s.re s.gsurf zlb / (r100gas * t1)) *
        ((z - zlb) * (s.re + zlb) / (s.re + z))) ≤ 1 := by
      rw [Real.exp_le_one_iff, neg_mul]
      exact neg_nonpos.2 (mul_nonneg h1 h2)
    linarith
  · have : 0 ≤ ∫ t in z..zn1 T 0,
        xm * grav s.re s.gsurf t / (r100gas * tempU F T s dlb t1 t2 xm al zlb s2 t) := by
      refine intervalIntegral.integral_nonneg hz'.2 fun t ht => ?_
      exact div_nonneg (mul_nonneg hxm (hgr t)) (mul_nonneg R_pos.le
        (h.warm t ⟨le_trans hz'.1 ht.1, le_trans ht.2 h.reach⟩ dlb xm al).le)
    linarith

end Upper

end Verif.Atmosphere.Profile
