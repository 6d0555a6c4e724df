import Verif.Atmosphere.HeightCalc
import Mathlib.Tactic.Linarith
import Mathlib.Tactic.FieldSimp
import Mathlib.Tactic.FinCases
import Mathlib.Tactic.LinearCombination

/-!
C126: the densities of the upper thermosphere as functions of the height.
-/
namespace Verif.Atmosphere.Msis

open Data

local macro "keep" h:term : term =>
  `(⟨($h).lat, ($h).time, ($h).g14, ($h).g18, ($h).g32, ($h).g39, ($h).s14, ($h).s18, ($h).s32,
    ($h).s39⟩)

section Real

open Verif.Atmosphere.Profile (RealFns)

variable {F : Fns ℝ} {T : Tab ℝ} {x : In ℝ}

/-! ### Inputs that differ in the height only -/

theorem globe7_height (F : Fns ℝ) (T : Tab ℝ) (x : In ℝ) (z : ℝ) (a : Arr) :
    globe7 F T { x with alt := z } a = globe7 F T x a := rfl

theorem gtsTemps_height (z : ℝ) (h : zn1 T 0 < x.alt) (h' : zn1 T 0 < z) (k : zn1 T 4 < x.alt) (k' : zn1 T 4 < z) :
    gtsTemps F T { x with alt := z } = gtsTemps F T x := by
  unfold gtsTemps
  simp only [globe7_height]
  rw [if_pos h, if_pos h', if_pos k, if_pos k']

theorem gtsNodes_height (z : ℝ) (h : 300 ≤ x.alt) (h' : 300 ≤ z) : gtsNodes F T { x with alt := z } = gtsNodes F T x := by
  unfold gtsNodes
  simp only []
  rw [if_pos h, if_pos h']

/-! ### The parts of a run -/

theorem Near.refl {s : St ℝ} (h : Ready F T x.glat x.lst x.doy s) : Near F T x s s where
  ready := h
  ready' := h
  p24 := fun _ => rfl
  re := rfl
  gsurf := rfl
  plg := fun _ => rfl
  trig := fun _ _ => rfl
  dfa := fun _ => rfl
  apdf := fun _ _ => rfl
  apt0 := fun _ _ => rfl
  tn1 := fun _ _ => rfl
  tgn1 := fun _ _ => rfl
  tn2 := fun _ _ => rfl
  tgn2 := fun _ _ => rfl
  tn3 := fun _ _ => rfl
  tgn3 := fun _ _ => rfl
  dm28 := fun _ => rfl
  xg0 := fun _ => rfl
  dm28m := fun _ => rfl

theorem Run.held (hT : TabOk T) {mass : ℤ} {tinf tlb s : ℝ} {st : St ℝ} (hr : Ready F T x.glat x.lst x.doy st)
    (r : Run F T x mass tinf tlb s st) : Near F T x st r.s0 ∧ Near F T x st r.s1 ∧ Near F T x st r.s2 ∧
      Near F T x st r.s3 ∧ Near F T x st r.s4 ∧ Near F T x st r.s5 ∧ Near F T x st r.s6 ∧ Near F T x st r.s7 := by
  have U := near_untouched (x := x) (F := F) hT st
  have K' : ∀ {b : Prop} [Decidable b] {m : M ℝ ℝ}, Keeps (Near F T x st) m → Keeps (Near F T x st) (part b m) :=
    fun h => Keeps.ite h (Keeps.pure _)
  have c0 : Near F T x st r.s0 := by
    rw [r.h0]; exact U.globe _ (Or.inr (Or.inr ⟨2, by omega, rfl⟩)) _ (Near.refl hr)
  have c1 : Near F T x st r.s1 := by
    rw [r.h1]
    exact Keeps.ite (gtsN2_right hT _ _ _ _ _) (Keeps.pure _) _ c0
  have c2 : Near F T x st r.s2 := by rw [r.h2]; exact K' (U.he r.c) _ c1
  have c3 : Near F T x st r.s3 := by rw [r.h3]; exact K' (U.o r.c) _ c2
  have c4 : Near F T x st r.s4 := by rw [r.h4]; exact K' (U.o2 mass r.c) _ c3
  have c5 : Near F T x st r.s5 := by rw [r.h5]; exact K' (U.ar r.c) _ c4
  have c6 : Near F T x st r.s6 := by rw [r.h6]; exact K' (U.h r.c) _ c5
  have c7 : Near F T x st r.s7 := by rw [r.h7]; exact K' (U.n r.c) _ c6
  exact ⟨c0, c1, c2, c3, c4, c5, c6, c7⟩

/-- The conditions under which the closed form holds. -/
structure Upper (T : Tab ℝ) (z tinf tlb s : ℝ) (st : St ℝ) : Prop where
  alt : 450 < z
  join : zn1 T 0 ≤ 450
  base : 0 ≤ T.ptm 5
  low : T.ptm 5 ≤ 450
  re : 0 < st.re
  gsurf : 0 < st.gsurf
  cold : 0 < tlb
  warm : tlb ≤ tinf
  grad : 0 < s

/-- Density at the base. -/
noncomputable def baseOf (F : Fns ℝ) (T : Tab ℝ) (x : In ℝ) (st : St ℝ) (row : ℕ) (a : Arr) : ℝ :=
  T.pdm row 0 * Real.exp (x.sw 20 * (globe7 F T x a st).1) * T.p a 0

/-- Density of a species by the closed form. -/
noncomputable def up (F : Fns ℝ) (T : Tab ℝ) (x : In ℝ) (st : St ℝ) (tinf tlb s : ℝ) (row : ℕ) (a : Arr) (m : ℝ) (ia : ℕ) : ℝ :=
  densUp st.re st.gsurf (baseOf F T x st row a) tinf tlb m (alpha ia) (T.ptm 5) s x.alt

theorem den_up (hF : RealFns F) {c : Ctx ℝ} {st s' : St ℝ} {z dlb m al : ℝ} (h : Upper T z c.tinf c.tlb c.s st)
    (e1 : st.re = s'.re) (e2 : st.gsurf = s'.gsurf) (hm : 1 ≤ m) :
    (den F T c z dlb m al s').1.1 = densUp st.re st.gsurf dlb c.tinf c.tlb m al (T.ptm 5) c.s z := by
  unfold den
  have ha := h.alt
  have hj := h.join
  have hl := h.low
  have hre := h.re
  have hgs := h.gsurf
  rw [e1] at hre ⊢
  rw [e2] at hgs ⊢
  refine densu_up F hF T z dlb c.tinf c.tlb m al (T.ptm 5) c.s s' (by linarith) (by linarith) h.cold h.warm h.grad hre hgs
    h.base (by linarith) ?_
  rw [abs_of_pos (by linarith)]
  unfold nearzero
  norm_num
  linarith

theorem altl_le (k : ℕ) : (altl k : ℝ) ≤ 450 := by
  rcases k with _ | _ | _ | _ | _ | _ | _ | _ | k <;> norm_num [altl]

theorem species_up (hF : RealFns F) (hT : TabOk T) {c : Ctx ℝ} {st s' : St ℝ} (h : Upper T x.alt c.tinf c.tlb c.s st)
    (hn : Near F T x st s') (k : ℕ) (a : Arr) (ha : GArr a) (m : ℝ) (ia il : ℕ) (corr : ℝ → ℝ → ℝ) (hm : 1 ≤ m) :
    (species F T x c k a m ia il corr s').1 = up F T x st c.tinf c.tlb c.s k a m ia := by
  have g := globe7_rel' hT x a ha st s' hn
  have n' : Near F T x st (globe7 F T x a s').2 := (near_untouched hT st).globe a ha s' hn
  have hl : ¬ (x.alt ≤ altl il ∧ |x.sw 14| > 0) := fun h' => absurd (h'.1.trans (altl_le il)) (not_le.2 h.alt)
  unfold species
  simp only [bind_run, if_neg hl, pure_run]
  rw [den_up hF h n'.re n'.gsurf hm]
  unfold up baseOf
  rw [g.1, hF.exp]

/-- The factor applied to molecular oxygen above the region of mixing. -/
noncomputable def o2Factor (F : Fns ℝ) (T : Tab ℝ) (x : In ℝ) : ℝ :=
  if |x.sw 14| > 0 then ccor2 F x.alt (T.pdm 3 3 * T.pdl 1 23 * (1 + x.sw 0 * T.pdl 0 23 * (x.f107A - 150)))
      (T.pdm 3 7 * T.pdl 1 22) (T.pdm 3 6 * T.pdl 1 21) (T.pdm 3 7 * T.pdl 0 22) else 1

theorem gtsO2_up (hF : RealFns F) (hT : TabOk T) {c : Ctx ℝ} {st s' : St ℝ} (h : Upper T x.alt c.tinf c.tlb c.s st)
    (hn : Near F T x st s') (mass : ℤ) :
    (gtsO2 F T x mass c s').1 = up F T x st c.tinf c.tlb c.s 3 (.pd 4) 32 3 * o2Factor F T x := by
  have ha : GArr (.pd 4) := Or.inr (Or.inr ⟨4, by omega, rfl⟩)
  have g := globe7_rel' hT x (.pd 4) ha st s' hn
  have n' : Near F T x st (globe7 F T x (.pd 4) s').2 := (near_untouched hT st).globe _ ha s' hn
  have hl : ¬ x.alt ≤ altl 3 := fun h' => absurd (h'.trans (altl_le 3)) (not_le.2 h.alt)
  unfold gtsO2 o2Factor
  by_cases hs : |x.sw 14| > 0
  · simp only [bind_run, if_neg hl, if_pos hs, pure_run]
    rw [den_up hF h n'.re n'.gsurf (by norm_num)]
    unfold up baseOf
    rw [g.1, hF.exp]
  · simp only [bind_run, if_neg hs, pure_run]
    rw [den_up hF h n'.re n'.gsurf (by norm_num), mul_one]
    unfold up baseOf
    rw [g.1, hF.exp]

theorem gtsN2_up (hF : RealFns F) {st s' : St ℝ} {tinf tlb s : ℝ} (h : Upper T x.alt tinf tlb s st)
    (hn : Near F T x st s') (g28 : ℝ) :
    (gtsN2 F T x 48 tinf tlb s g28 s').1.1 = densUp st.re st.gsurf (T.pdm 2 0 * Real.exp g28 * T.p (.pd 2) 0) tinf tlb 28
      (alpha 2) (T.ptm 5) s x.alt := by
  have hl : ¬ (x.alt ≤ altl 2 ∧ |x.sw 14| > 0) := fun h' => absurd (h'.1.trans (altl_le 2)) (not_le.2 h.alt)
  unfold gtsN2
  rw [if_pos (Or.inr (Or.inr rfl))]
  simp only [bind_run, if_neg hl, pure_run]
  rw [den_up (c := ⟨tinf, tlb, s, 0, 0⟩) hF h hn.re hn.gsurf (by norm_num), hF.exp]

/-- The temperature and the heights of the layer of anomalous oxygen, and its density. -/
noncomputable def oxUp (F : Fns ℝ) (T : Tab ℝ) (x : In ℝ) (st : St ℝ) (s : ℝ) : ℝ :=
  densUp st.re st.gsurf (baseOf F T x st 7 (.pd 8)) (T.pdm 7 9 * T.pdl 0 6) (T.pdm 7 9 * T.pdl 0 6) 16 (alpha 8) (T.ptm 5) s
    x.alt * Real.exp (-T.pdm 7 5 / scalh F st.gsurf st.re (T.pdm 7 4) 16 (T.pdm 7 9 * T.pdl 0 6) *
      (Real.exp (-(x.alt - T.pdm 7 4) / T.pdm 7 5) - 1))

theorem gtsAnomO_up (hF : RealFns F) (hT : TabOk T) {c : Ctx ℝ} {st s' : St ℝ} (h : Upper T x.alt c.tinf c.tlb c.s st)
    (hn : Near F T x st s') (ht : 0 < T.pdm 7 9 * T.pdl 0 6) : (gtsAnomO F T x c s').1 = oxUp F T x st c.s := by
  have ha : GArr (.pd 8) := Or.inr (Or.inr ⟨8, by omega, rfl⟩)
  have g := globe7_rel' hT x (.pd 8) ha st s' hn
  have n' : Near F T x st (globe7 F T x (.pd 8) s').2 := (near_untouched hT st).globe _ ha s' hn
  have U := near_untouched (x := x) (F := F) hT st
  have h' : Upper T x.alt (T.pdm 7 9 * T.pdl 0 6) (T.pdm 7 9 * T.pdl 0 6) c.s st := ⟨h.alt, h.join, h.base, h.low, h.re,
    h.gsurf, ht, le_refl _, h.grad⟩
  have e := den_up (c := ⟨T.pdm 7 9 * T.pdl 0 6, T.pdm 7 9 * T.pdl 0 6, c.s, 0, 0⟩) (z := x.alt)
    (dlb := T.pdm 7 0 * F.exp (x.sw 20 * (globe7 F T x (.pd 8) s').1) * T.p (.pd 8) 0) (m := 16) (al := alpha 8)
    hF h' n'.re n'.gsurf (by norm_num)
  unfold den at e
  have n'' := U.densu x.alt (T.pdm 7 0 * F.exp (x.sw 20 * (globe7 F T x (.pd 8) s').1) * T.p (.pd 8) 0)
    (T.pdm 7 9 * T.pdl 0 6) (T.pdm 7 9 * T.pdl 0 6) 16 (alpha 8) (T.ptm 5) c.s _ n'
  have n3 := fun v => U.setDd v _ n''
  unfold gtsAnomO
  simp only [bind_run, rd_run, pure_run]
  simp only [] at e
  rw [e, ← (n3 _).re, ← (n3 _).gsurf]
  unfold oxUp baseOf
  rw [← g.1, hF.exp]

/-- **The densities above 450 km**, before the conversion of units. -/
theorem gtsDens_up (hF : RealFns F) (hT : TabOk T) (ht : 0 < T.pdm 7 9 * T.pdl 0 6) {tinf tlb s : ℝ} {st : St ℝ}
    (h : Upper T x.alt tinf tlb s st) (hr : Ready F T x.glat x.lst x.doy st) :
    (gtsDens F T x 48 tinf tlb s st).1.1 0 = up F T x st tinf tlb s 0 (.pd 0) 4 0 ∧
    (gtsDens F T x 48 tinf tlb s st).1.1 1 = up F T x st tinf tlb s 1 (.pd 1) 16 1 ∧
    (gtsDens F T x 48 tinf tlb s st).1.1 2 = up F T x st tinf tlb s 2 (.pd 2) 28 2 ∧
    (gtsDens F T x 48 tinf tlb s st).1.1 3 = up F T x st tinf tlb s 3 (.pd 4) 32 3 * o2Factor F T x ∧
    (gtsDens F T x 48 tinf tlb s st).1.1 4 = up F T x st tinf tlb s 4 (.pd 5) 40 4 ∧
    (gtsDens F T x 48 tinf tlb s st).1.1 6 = up F T x st tinf tlb s 5 (.pd 6) 1 6 ∧
    (gtsDens F T x 48 tinf tlb s st).1.1 7 = up F T x st tinf tlb s 6 (.pd 7) 14 7 ∧
    (gtsDens F T x 48 tinf tlb s st).1.1 8 = oxUp F T x st s := by
  obtain ⟨r⟩ := Run.mk' (F := F) (T := T) (x := x) 48 tinf tlb s st
  obtain ⟨c0, c1, c2, c3, c4, c5, c6, c7⟩ := r.held hT hr
  have h' : Upper T x.alt r.c.tinf r.c.tlb r.c.s st := by rw [r.hc]; exact h
  have eu : ∀ row a m ia, up F T x st tinf tlb s row a m ia = up F T x st r.c.tinf r.c.tlb r.c.s row a m ia := by
    intros; rw [r.hc]
  have eo : oxUp F T x st s = oxUp F T x st r.c.s := by rw [r.hc]
  refine ⟨?_, ?_, ?_, ?_, ?_, ?_, ?_, ?_⟩
  · rw [r.dens 0 (by omega)]
    show r.he = _
    rw [r.v1, part_pos (by decide), eu]
    exact species_up hF hT h' c1 _ _ (Or.inr (Or.inr ⟨0, by omega, rfl⟩)) _ _ _ _ (by norm_num)
  · rw [r.dens 1 (by omega)]
    show r.o = _
    rw [r.v2, part_pos (by decide), eu]
    exact species_up hF hT h' c2 _ _ (Or.inr (Or.inr ⟨1, by omega, rfl⟩)) _ _ _ _ (by norm_num)
  · rw [r.dens 2 (by omega)]
    show r.n2.1 = _
    rw [r.hn, if_pos (by decide), gtsN2_up hF h c0]
    unfold up baseOf
    rw [r.hg]
  · rw [r.dens 3 (by omega)]
    show r.o2 = _
    rw [r.v3, part_pos (by decide), eu]
    exact gtsO2_up hF hT h' c3 _
  · rw [r.dens 4 (by omega)]
    show r.ar = _
    rw [r.v4, part_pos (by decide), eu]
    exact species_up hF hT h' c4 _ _ (Or.inr (Or.inr ⟨5, by omega, rfl⟩)) _ _ _ _ (by norm_num)
  · rw [r.dens 6 (by omega)]
    show r.h = _
    rw [r.v5, part_pos (by decide), eu]
    exact species_up hF hT h' c5 _ _ (Or.inr (Or.inr ⟨6, by omega, rfl⟩)) _ _ _ _ (by norm_num)
  · rw [r.dens 7 (by omega)]
    show r.n = _
    rw [r.v6, part_pos (by decide), eu]
    exact species_up hF hT h' c6 _ _ (Or.inr (Or.inr ⟨7, by omega, rfl⟩)) _ _ _ _ (by norm_num)
  · rw [r.dens 8 (by omega)]
    show r.ox = _
    rw [r.v7, part_pos (by decide), eo]
    exact gtsAnomO_up hF hT h' c7 ht

theorem put_mass (d : ℕ → ℝ) : put d 5 (massSum d) 5 = massSum (put d 5 (massSum d)) := rfl

theorem gtsDens_mass (tinf tlb s : ℝ) (st : St ℝ) :
    (gtsDens F T x 48 tinf tlb s st).1.1 5 = massSum (gtsDens F T x 48 tinf tlb s st).1.1 := by
  unfold gtsDens
  simp only [bind_run, pure_run]
  rw [if_pos trivial]
  exact put_mass _

/-! ### Comparing two heights -/

theorem glatf_bounds (lat : ℝ) (s : St ℝ) : 6300 ≤ (glatf realFns lat s).2.re ∧ (glatf realFns lat s).2.re ≤ 6400 ∧
    970 ≤ (glatf realFns lat s).2.gsurf := by
  have h1 := Real.cos_le_one (2 * realFns.deg2rad lat)
  have h2 := Real.neg_one_le_cos (2 * realFns.deg2rad lat)
  have e1 : (glatf realFns lat s).2.re = 2 * (egrav * 1e2 * (1 - 0.0026373 * Real.cos (2 * realFns.deg2rad lat))) /
    (3.085462e-6 + 2.27e-9 * Real.cos (2 * realFns.deg2rad lat)) * 1e-5 := rfl
  have e2 : (glatf realFns lat s).2.gsurf = egrav * 1e2 * (1 - 0.0026373 * Real.cos (2 * realFns.deg2rad lat)) := rfl
  rw [e1, e2]
  generalize Real.cos (2 * realFns.deg2rad lat) = c at h1 h2
  have b : (0 : ℝ) < 3.085462e-6 + 2.27e-9 * c := by norm_num; linarith
  unfold egrav
  refine ⟨?_, ?_, ?_⟩
  · rw [div_mul_eq_mul_div, le_div_iff₀ b]
    norm_num
    linarith
  · rw [div_mul_eq_mul_div, div_le_iff₀ b]
    norm_num
    linarith
  · norm_num
    linarith

/-- What is used of the tables. -/
structure Data126 (T : Tab ℝ) : Prop where
  join : T.pdl 1 15 ≤ 450
  base : T.ptm 5 = 120
  pos : ∀ k < 8, 0 < T.pdm k 0
  pos' : ∀ k < 9, 0 < T.p (.pd k) 0
  amp : T.pdm 3 3 * T.pdl 1 23 = -0.74623
  flux : T.pdl 0 23 = 0.0310302
  h1 : T.pdm 3 7 * T.pdl 1 22 = -34.4689
  zh : T.pdm 3 6 * T.pdl 1 21 = 126.522
  h2 : T.pdm 3 7 * T.pdl 0 22 = -12.884
  hot : T.pdm 7 9 * T.pdl 0 6 = 4000
  scale : T.pdm 7 5 = 76
  peak : T.pdm 7 4 = 550

theorem tabR_126 : Data126 tabR := by
  have a : ∀ k < 8, 0 < tabQ.pdm k 0 := by decide +kernel
  have b : ∀ k < 9, 0 < tabQ.p (.pd k) 0 := by decide +kernel
  have h : tabQ.pdl 1 15 ≤ 450 ∧ tabQ.ptm 5 = 120 ∧ tabQ.pdm 3 3 * tabQ.pdl 1 23 = -74623 / 100000 ∧
      tabQ.pdl 0 23 = 155151 / 5000000 ∧ tabQ.pdm 3 7 * tabQ.pdl 1 22 = -344689 / 10000 ∧
      tabQ.pdm 3 6 * tabQ.pdl 1 21 = 63261 / 500 ∧ tabQ.pdm 3 7 * tabQ.pdl 0 22 = -3221 / 250 ∧
      tabQ.pdm 7 9 * tabQ.pdl 0 6 = 4000 ∧ tabQ.pdm 7 5 = 76 ∧ tabQ.pdm 7 4 = 550 := by decide +kernel
  obtain ⟨h1, h2, h3, h4, h5, h6, h7, h8, h9, h10⟩ := h
  constructor <;> simp only [tabR]
  · exact_mod_cast h1
  · exact_mod_cast h2
  · exact_mod_cast a
  · exact_mod_cast b
  · rw [← Rat.cast_mul, h3]; norm_num
  · rw [h4]; norm_num
  · rw [← Rat.cast_mul, h5]; norm_num
  · rw [← Rat.cast_mul, h6]; norm_num
  · rw [← Rat.cast_mul, h7]; norm_num
  · rw [← Rat.cast_mul, h8]; norm_num
  · rw [h9]; norm_num
  · rw [h10]; norm_num

theorem baseOf_pos (hD : Data126 T) (st : St ℝ) (row : ℕ) (k : ℕ) (h1 : row < 8) (h2 : k < 9) :
    0 < baseOf F T x st row (.pd k) :=
  mul_pos (mul_pos (hD.pos row h1) (Real.exp_pos _)) (hD.pos' k h2)

theorem alpha_ge (k : ℕ) : (-1 : ℝ) ≤ alpha k := by
  rcases k with _ | _ | _ | _ | _ | _ | _ | _ | _ | k <;> norm_num [alpha]

/-- A species in diffusive equilibrium at two heights. -/
theorem up_falls (hD : Data126 T) {st : St ℝ} {tinf tlb s z : ℝ} (h : Upper T x.alt tinf tlb s st) (hz : x.alt < z)
    (row k : ℕ) (m : ℝ) (ia : ℕ) (h1 : row < 8) (h2 : k < 9) (hm : 0 < m) :
    0 < up F T { x with alt := z } st tinf tlb s row (.pd k) m ia ∧
      up F T { x with alt := z } st tinf tlb s row (.pd k) m ia < up F T x st tinf tlb s row (.pd k) m ia := by
  have hl := h.low
  have ha := h.alt
  exact densUp_lt h.re h.gsurf (baseOf_pos hD st row k h1 h2) h.cold h.warm hm (alpha_ge ia) h.base h.grad
    (by linarith) hz

theorem o2Factor_pos (hF : RealFns F) : 0 < o2Factor F T x := by
  unfold o2Factor
  split
  · unfold ccor2
    rw [hF.exp]
    exact Real.exp_pos _
  · exact one_pos

theorem ccor2_range (hF : RealFns F) (hD : Data126 T) (z r : ℝ) (h1 : 450 < z) (h2 : z ≤ 2500) :
    ccor2 F z r (T.pdm 3 7 * T.pdl 1 22) (T.pdm 3 6 * T.pdl 1 21) (T.pdm 3 7 * T.pdl 0 22) =
      Real.exp (r / (1 + 0.5 * (Real.exp ((z - 126.522) / -34.4689) + Real.exp ((z - 126.522) / -12.884)))) := by
  unfold ccor2
  rw [hD.h1, hD.h2, hD.zh, hF.exp]
  have a1 : ¬ ((z - 126.522) / -34.4689 > 70 ∨ (z - 126.522) / -12.884 > 70) := by
    rintro (h | h)
    · rw [gt_iff_lt, lt_div_iff_of_neg (by norm_num)] at h
      linarith
    · rw [gt_iff_lt, lt_div_iff_of_neg (by norm_num)] at h
      linarith
  have a2 : ¬ ((z - 126.522) / -34.4689 < -70 ∧ (z - 126.522) / -12.884 < -70) := by
    rintro ⟨h, -⟩
    rw [div_lt_iff_of_neg (by norm_num)] at h
    norm_num at h
    linarith
  dsimp only
  rw [if_neg a1, if_neg a2]

/-- Molecular oxygen at two heights. -/
theorem o2_falls (hF : RealFns F) (hD : Data126 T) {st : St ℝ} {tinf tlb s z : ℝ} (h : Upper T x.alt tinf tlb s st)
    (h1 : 6300 ≤ st.re) (hre : st.re ≤ 6400) (hg : 970 ≤ st.gsurf) (htm : tinf ≤ 10000) (hz : x.alt < z) (hz' : z ≤ 2500)
    (hf : |x.sw 0 * (x.f107A - 150)| ≤ 1000) :
    0 < up F T { x with alt := z } st tinf tlb s 3 (.pd 4) 32 3 * o2Factor F T { x with alt := z } ∧
      up F T { x with alt := z } st tinf tlb s 3 (.pd 4) 32 3 * o2Factor F T { x with alt := z } <
        up F T x st tinf tlb s 3 (.pd 4) 32 3 * o2Factor F T x := by
  obtain ⟨p, q⟩ := up_falls (F := F) hD h hz 3 4 32 3 (by omega) (by omega) (by norm_num)
  refine ⟨mul_pos p (o2Factor_pos hF), ?_⟩
  by_cases hs : |x.sw 14| > 0
  · have e1 : o2Factor F T { x with alt := z } = ccor2 F z (T.pdm 3 3 * T.pdl 1 23 *
        (1 + x.sw 0 * T.pdl 0 23 * (x.f107A - 150))) (T.pdm 3 7 * T.pdl 1 22) (T.pdm 3 6 * T.pdl 1 21)
        (T.pdm 3 7 * T.pdl 0 22) := if_pos hs
    have e2 : o2Factor F T x = ccor2 F x.alt (T.pdm 3 3 * T.pdl 1 23 *
        (1 + x.sw 0 * T.pdl 0 23 * (x.f107A - 150))) (T.pdm 3 7 * T.pdl 1 22) (T.pdm 3 6 * T.pdl 1 21)
        (T.pdm 3 7 * T.pdl 0 22) := if_pos hs
    rw [e1, e2, ccor2_range hF hD _ _ h.alt (by linarith), ccor2_range hF hD _ _ (h.alt.trans hz) hz', hD.amp, hD.flux]
    have hr : |(-0.74623) * (1 + x.sw 0 * 0.0310302 * (x.f107A - 150))| ≤ 90 := by
      rw [abs_le] at hf ⊢
      constructor <;> nlinarith [hf.1, hf.2]
    generalize (-0.74623) * (1 + x.sw 0 * 0.0310302 * (x.f107A - 150)) = r at hr
    have ha := h.alt
    have cd := corr_drop (r := r) (h1 := -34.4689) (h2 := -12.884) (u := x.alt - 126.522) (d := z - x.alt)
      (by norm_num) (by norm_num) (by rw [div_le_iff_of_neg (by norm_num)]; norm_num; linarith)
      (by rw [div_le_iff_of_neg (by norm_num)]; norm_num; linarith) (by linarith)
    have eu : x.alt - 126.522 + (z - x.alt) = z - 126.522 := by ring
    rw [eu] at cd
    have bo := baro_oxygen (s2 := s) h1 hre hg (h.cold.trans_le h.warm) htm h.grad h.alt.le hz hz'
    have fall := (densUp_fall (al := alpha 3) (m := 32) h.re h.gsurf (baseOf_pos (F := F) (x := x) hD st 3 4 (by omega)
      (by omega)) h.cold h.warm (by norm_num) (alpha_ge 3) h.base h.grad
      (by have := h.low; linarith : T.ptm 5 ≤ x.alt) hz).2
    rw [hD.base] at fall
    have e3 : up F T { x with alt := z } st tinf tlb s 3 (.pd 4) 32 3 = densUp st.re st.gsurf (baseOf F T x st 3 (.pd 4)) tinf
        tlb 32 (alpha 3) 120 s z := by rw [← hD.base]; rfl
    have e4 : up F T x st tinf tlb s 3 (.pd 4) 32 3 = densUp st.re st.gsurf (baseOf F T x st 3 (.pd 4)) tinf
        tlb 32 (alpha 3) 120 s x.alt := by rw [← hD.base]; rfl
    have q' : 0 < up F T x st tinf tlb s 3 (.pd 4) 32 3 := p.trans q
    rw [e3, e4] at q
    rw [e3] at p
    rw [e4] at q'
    rw [e3, e4]
    generalize densUp st.re st.gsurf (baseOf F T x st 3 (.pd 4)) tinf tlb 32 (alpha 3) 120 s z = D2 at *
    generalize densUp st.re st.gsurf (baseOf F T x st 3 (.pd 4)) tinf tlb 32 (alpha 3) 120 s x.alt = D1 at *
    generalize s * gamUp st.re st.gsurf tinf 32 120 s * (zeta st.re z 120 - zeta st.re x.alt 120) = Δ at *
    generalize r / (1 + 0.5 * (Real.exp ((z - 126.522) / -34.4689) + Real.exp ((z - 126.522) / -12.884))) = L2 at *
    generalize r / (1 + 0.5 * (Real.exp ((x.alt - 126.522) / -34.4689) + Real.exp ((x.alt - 126.522) / -12.884))) = L1 at *
    have hlt : -Δ + L2 < L1 := by
      have : |r| * ((z - x.alt) / 96000) ≤ 90 * ((z - x.alt) / 96000) := mul_le_mul_of_nonneg_right hr (by linarith)
      nlinarith
    calc D2 * Real.exp L2 ≤ D1 * Real.exp (-Δ) * Real.exp L2 := mul_le_mul_of_nonneg_right fall (Real.exp_pos _).le
      _ = D1 * Real.exp (-Δ + L2) := by rw [mul_assoc, ← Real.exp_add]
      _ < D1 * Real.exp L1 := mul_lt_mul_of_pos_left (Real.exp_lt_exp.2 hlt) q'
  · have e1 : o2Factor F T { x with alt := z } = 1 := if_neg hs
    have e2 : o2Factor F T x = 1 := if_neg hs
    rw [e1, e2, mul_one, mul_one]
    exact q

/-- All densities at two heights, before the conversion of units. -/
theorem gtsDens_falls (hF : RealFns F) (hT : TabOk T) (hD : Data126 T) {st : St ℝ} {tinf tlb s z : ℝ}
    (h : Upper T x.alt tinf tlb s st) (hr : Ready F T x.glat x.lst x.doy st) (h1 : 6300 ≤ st.re) (hre : st.re ≤ 6400)
    (hg : 970 ≤ st.gsurf) (htm : tinf ≤ 10000) (hz : x.alt < z) (hz' : z ≤ 2500)
    (hf : |x.sw 0 * (x.f107A - 150)| ≤ 1000) (k : ℕ) (hk : k < 8) :
    0 < (gtsDens F T { x with alt := z } 48 tinf tlb s st).1.1 k ∧
      (gtsDens F T { x with alt := z } 48 tinf tlb s st).1.1 k < (gtsDens F T x 48 tinf tlb s st).1.1 k := by
  have ht : 0 < T.pdm 7 9 * T.pdl 0 6 := by rw [hD.hot]; norm_num
  have h' : Upper T ({ x with alt := z } : In ℝ).alt tinf tlb s st := ⟨h.alt.trans hz, h.join, h.base, h.low, h.re,
    h.gsurf, h.cold, h.warm, h.grad⟩
  have m1 := gtsDens_mass (F := F) (T := T) (x := x) tinf tlb s st
  have m2 := gtsDens_mass (F := F) (T := T) (x := { x with alt := z }) tinf tlb s st
  obtain ⟨a0, a1, a2, a3, a4, a6, a7, -⟩ := gtsDens_up hF hT ht h hr
  obtain ⟨b0, b1, b2, b3, b4, b6, b7, -⟩ := gtsDens_up (x := { x with alt := z }) hF hT ht h' (keep hr)
  have c0 := up_falls (F := F) hD h hz 0 0 4 0 (by omega) (by omega) (by norm_num)
  have c1 := up_falls (F := F) hD h hz 1 1 16 1 (by omega) (by omega) (by norm_num)
  have c2 := up_falls (F := F) hD h hz 2 2 28 2 (by omega) (by omega) (by norm_num)
  have c3 := o2_falls hF hD h h1 hre hg htm hz hz' hf
  have c4 := up_falls (F := F) hD h hz 4 5 40 4 (by omega) (by omega) (by norm_num)
  have c6 := up_falls (F := F) hD h hz 5 6 1 6 (by omega) (by omega) (by norm_num)
  have c7 := up_falls (F := F) hD h hz 6 7 14 7 (by omega) (by omega) (by norm_num)
  rw [← a0, ← b0] at c0
  rw [← a1, ← b1] at c1
  rw [← a2, ← b2] at c2
  rw [← a3, ← b3] at c3
  rw [← a4, ← b4] at c4
  rw [← a6, ← b6] at c6
  rw [← a7, ← b7] at c7
  clear a0 a1 a2 a3 a4 a6 a7 b0 b1 b2 b3 b4 b6 b7
  generalize (gtsDens F T { x with alt := z } 48 tinf tlb s st).1.1 = d' at *
  generalize (gtsDens F T x 48 tinf tlb s st).1.1 = d at *
  rcases k with _ | _ | _ | _ | _ | _ | _ | _ | k
  · exact c0
  · exact c1
  · exact c2
  · exact c3
  · exact c4
  · show 0 < d' 5 ∧ d' 5 < d 5
    rw [m1, m2]
    unfold massSum
    have w : (0 : ℝ) < 1.66e-24 := by norm_num
    refine ⟨mul_pos w (by linarith [c0.1, c1.1, c2.1, c3.1, c4.1, c6.1, c7.1]), mul_lt_mul_of_pos_left ?_ w⟩
    linarith [c0.2, c1.2, c2.2, c3.2, c4.2, c6.2, c7.2]
  · exact c6
  · exact c7
  · omega

/-- The factor of the conversion of units. -/
noncomputable def unitOf (meters : Bool) (k : ℕ) : ℝ := if meters then (if k = 5 then 1e6 / 1e3 else 1e6) else 1

theorem unitOf_pos (b : Bool) (k : ℕ) : 0 < unitOf b k := by
  unfold unitOf
  split
  · split <;> norm_num
  · exact one_pos

theorem gts7_out (mass : ℤ) (hm : mass ≠ 0) (k : ℕ) (s : St ℝ) :
    (gts7 F T x mass s).1.d k = (gtsDens F T x mass (gtsTemps F T x s).1.1 (gtsTemps F T x s).1.2.1
      (gtsTemps F T x s).1.2.2 (gtsNodes F T x (gtsTemps F T x s).2).2).1.1 k * unitOf x.meters k := by
  unfold gts7 gtsCore
  simp only [bind_run, pure_run, if_pos hm]
  generalize (gtsTemps F T x s).1 = tt
  generalize (gtsNodes F T x (gtsTemps F T x s).2).2 = st
  unfold unitOf
  cases x.meters
  · exact (mul_one _).symm
  · simp only [if_true, toMeters]
    by_cases h : k = 5
    · rw [if_pos h, if_pos h, h]; ring
    · rw [if_neg h, if_neg h]

/-- The evaluation of the temperatures keeps what the densities rely on. -/
structure Steady (F : Fns ℝ) (T : Tab ℝ) (x : In ℝ) (ρ γ : ℝ) (s : St ℝ) : Prop where
  ready : Ready F T x.glat x.lst x.doy s
  re : s.re = ρ
  gsurf : s.gsurf = γ

theorem steady_globe7 (hT : TabOk T) (ρ γ : ℝ) (a : Arr) (ha : GArr a) : Keeps (Steady F T x ρ γ) (globe7 F T x a) := by
  intro s h
  have r := globe7_ready F T hT x a ha s h.1
  obtain ⟨v, w, τ, q, -, -, -, -, -, e, -⟩ := globe7_eq F T x a ha s h.1
  refine ⟨r, ?_, ?_⟩ <;> rw [e]
  · exact h.2
  · exact h.3

theorem steady_temps (hT : TabOk T) (ρ γ : ℝ) : Keeps (Steady F T x ρ γ) (gtsTemps F T x) := by
  have g := fun a ha => steady_globe7 (F := F) (x := x) hT ρ γ a ha
  have u1 : ∀ v : ℝ, Keeps (Steady F T x ρ γ) (upd fun s => { s with xg0 := v }) :=
    fun _ _ h => ⟨keep h.1, h.2, h.3⟩
  have u2 : ∀ v : ℝ, Keeps (Steady F T x ρ γ) (upd fun s => { s with tlb := v }) :=
    fun _ _ h => ⟨keep h.1, h.2, h.3⟩
  unfold gtsTemps
  refine Keeps.bind (Keeps.ite (Keeps.bind (g _ (Or.inl rfl)) fun _ => Keeps.pure _) (Keeps.pure _)) fun _ => ?_
  refine Keeps.bind (Keeps.ite (Keeps.bind (g _ (Or.inr (Or.inl rfl))) fun _ => Keeps.pure _) (Keeps.pure _)) fun _ => ?_
  refine Keeps.bind (u1 _) fun _ => Keeps.bind (g _ (Or.inr (Or.inr ⟨3, by omega, rfl⟩))) fun _ => ?_
  exact Keeps.bind (u2 _) fun _ => Keeps.bind (Keeps.rd _) fun _ => Keeps.bind (Keeps.rd _) fun _ => Keeps.pure _

theorem steady_nodes (ρ γ : ℝ) (ha : 300 ≤ x.alt) : Keeps (Steady F T x ρ γ) (gtsNodes F T x) := by
  intro s h
  unfold gtsNodes
  rw [if_pos ha]
  exact ⟨keep h.1, h.2, h.3⟩

/-- The temperatures that the profiles are built from: the one at the base, the one far above, and the gradient at the
base, for the input `x` and the members `s` with which the thermosphere is entered. -/
structure Plausible (F : Fns ℝ) (T : Tab ℝ) (x : In ℝ) (s : St ℝ) : Prop where
  base : 0 < (gtsTemps F T x s).1.2.1
  above : (gtsTemps F T x s).1.2.1 ≤ (gtsTemps F T x s).1.1
  top : (gtsTemps F T x s).1.1 ≤ 10000
  grad : 0 < (gtsTemps F T x s).1.2.2

theorem gts7_falls (hF : RealFns F) (hT : TabOk T) (hD : Data126 T) {s : St ℝ} {z : ℝ} (ha : 450 < x.alt) (hz : x.alt < z)
    (hz' : z ≤ 2500) (hr : Ready F T x.glat x.lst x.doy s) (h1 : 6300 ≤ s.re) (hre : s.re ≤ 6400) (hg : 970 ≤ s.gsurf)
    (hp : Plausible F T x s) (hf : |x.sw 0 * (x.f107A - 150)| ≤ 1000) (k : ℕ) (hk : k < 8) :
    0 < (gts7 F T { x with alt := z } 48 s).1.d k ∧
      (gts7 F T { x with alt := z } 48 s).1.d k < (gts7 F T x 48 s).1.d k := by
  have j : zn1 T 0 ≤ 450 := hD.join
  have z4 : zn1 T 4 = 72.5 := rfl
  have et : gtsTemps F T { x with alt := z } = gtsTemps F T x :=
    gtsTemps_height z (by linarith) (by linarith) (by rw [z4]; linarith) (by rw [z4]; linarith)
  have en : gtsNodes F T { x with alt := z } = gtsNodes F T x := gtsNodes_height z (by linarith) (by linarith)
  have st := steady_nodes (F := F) (T := T) s.re s.gsurf (by linarith : 300 ≤ x.alt) _
    (steady_temps hT s.re s.gsurf s ⟨hr, rfl, rfl⟩)
  rw [gts7_out 48 (by decide), gts7_out 48 (by decide), et, en]
  obtain ⟨p1, p2, p3, p4⟩ := hp
  generalize (gtsTemps F T x s).1.1 = tinf at *
  generalize (gtsTemps F T x s).1.2.1 = tlb at *
  generalize (gtsTemps F T x s).1.2.2 = gr at *
  generalize (gtsNodes F T x (gtsTemps F T x s).2).2 = t at *
  have U : Upper T x.alt tinf tlb gr t := ⟨ha, j, by rw [hD.base]; norm_num, by rw [hD.base]; norm_num,
    by rw [st.re]; linarith, by rw [st.gsurf]; linarith, p1, p2, p4⟩
  obtain ⟨a, b⟩ := gtsDens_falls hF hT hD U st.ready (by rw [st.re]; exact h1) (by rw [st.re]; exact hre)
    (by rw [st.gsurf]; exact hg) p3 hz hz' hf k hk
  exact ⟨mul_pos a (unitOf_pos _ _), mul_lt_mul_of_pos_right b (unitOf_pos _ _)⟩

theorem gtd7_high_alt (tzg z : ℝ) (mass : ℤ) (old : Out ℝ) (hz : 450 < z) (s : St ℝ) (k : ℕ) (hk : k < 9) :
    (gtd7 F T tzg { x with alt := z } mass old s).1.d k = (gts7 F T { x with alt := z } mass
      (glatf F (if |x.sw 1| < 0 then 45 else x.glat) s).2).1.d k := by
  have hz2 : (zn2 0 : ℝ) = 72.5 := rfl
  have hzm : (zmix : ℝ) = 62.5 := rfl
  exact gtd7_high_d (x := { x with alt := z }) tzg mass old (by rw [hz2]; show (72.5 : ℝ) ≤ z; linarith)
    (fun h => absurd h.1 (not_lt.2 (by rw [hzm]; show (62.5 : ℝ) ≤ z; linarith))) s k hk

theorem realFns_ok : RealFns realFns := ⟨rfl, rfl⟩

/-- **C126**  Between 450 and 2500 km every species but anomalous oxygen, and the total mass density, is positive and
strictly falls with the height, other inputs equal. -/
theorem densities_fall (x : In ℝ) (z : ℝ) (ha : 450 < x.alt) (hz : x.alt < z) (hz' : z ≤ 2500)
    (hf : |x.sw 0 * (x.f107A - 150)| ≤ 1000) (tzg tzg' : ℝ) (old old' : Out ℝ) (s : St ℝ)
    (hr : Ready realFns tabR x.glat x.lst x.doy s)
    (hp : Plausible realFns tabR x (glatf realFns (if |x.sw 1| < 0 then 45 else x.glat) s).2) (k : ℕ) (hk : k < 8) :
    0 < (gtd7 realFns tabR tzg { x with alt := z } 48 old s).1.d k ∧
      (gtd7 realFns tabR tzg { x with alt := z } 48 old s).1.d k < (gtd7 realFns tabR tzg' x 48 old' s).1.d k := by
  have hz2 : (zn2 0 : ℝ) = 72.5 := rfl
  have hzm : (zmix : ℝ) = 62.5 := rfl
  obtain ⟨b1, b2, b3⟩ := glatf_bounds (if |x.sw 1| < 0 then 45 else x.glat) s
  rw [gtd7_high_d tzg' 48 old' (by rw [hz2]; linarith) (fun h => absurd h.1 (not_lt.2 (by rw [hzm]; linarith))) s k
    (by omega), gtd7_high_alt tzg z 48 old (ha.trans hz) s k (by omega)]
  have hr' : Ready realFns tabR x.glat x.lst x.doy (glatf realFns (if |x.sw 1| < 0 then 45 else x.glat) s).2 := keep hr
  generalize (glatf realFns (if |x.sw 1| < 0 then 45 else x.glat) s).2 = t at *
  exact gts7_falls realFns_ok tabR_ok tabR_126 ha hz hz' hr' b1 b2 b3 hp hf k hk

/-! ### Anomalous oxygen -/

theorem densUp_iso {re gsurf dlb t m al zl s2 z : ℝ} (ht : 0 < t) :
    densUp re gsurf dlb t t m al zl s2 z = dlb * Real.exp (-s2 * gamUp re gsurf t m zl s2 * zeta re z zl) := by
  unfold densUp tempUp
  rw [sub_self, zero_mul, sub_zero, div_self ht.ne', Real.one_rpow, mul_one]

theorem scalh_pos (hF : RealFns F) {gsurf re h t : ℝ} (hre : 0 < re) (hg : 0 < gsurf) (hh : 0 ≤ h) (ht : 0 < t) :
    0 < scalh F gsurf re h 16 t := by
  unfold scalh
  rw [hF.pow]
  have a : 0 < 1 + h / re := by positivity
  exact div_pos (mul_pos r100gas_pos ht) (mul_pos (div_pos hg (Real.rpow_pos_of_pos a _)) (by norm_num))

/-- The decrease with the geopotential height from the base is that from the middle of the layer. -/
theorem layer_rate (hF : RealFns F) {re gsurf t s2 zl h z1 z2 : ℝ} (hre : 0 < re) (hg : 0 < gsurf) (ht : 0 < t)
    (hs : 0 < s2) (h0 : 0 ≤ zl) (hh : 0 ≤ h) (k1 : 0 ≤ z1) (k2 : 0 ≤ z2) :
    s2 * gamUp re gsurf t 16 zl s2 * (zeta re z2 zl - zeta re z1 zl) =
      1 / scalh F gsurf re h 16 t * (zeta re z2 h - zeta re z1 h) := by
  rw [zeta_sub (by linarith) (by linarith), zeta_sub (by linarith) (by linarith)]
  unfold gamUp scalh
  rw [hF.pow]
  have sq : ∀ w : ℝ, w ^ (2 : ℝ) = w ^ 2 := fun w => by rw [← Real.rpow_natCast]; norm_num
  dsimp only
  rw [sq, sq]
  have e1 : (1 + zl / re : ℝ) = (re + zl) / re := by field_simp
  have e2 : (1 + h / re : ℝ) = (re + h) / re := by field_simp
  rw [e1, e2]
  have a1 : re + zl ≠ 0 := by linarith
  have a2 : re + z1 ≠ 0 := by linarith
  have a3 : re + z2 ≠ 0 := by linarith
  have a4 : re + h ≠ 0 := by linarith
  have hR : (r100gas : ℝ) ≠ 0 := r100gas_pos.ne'
  field_simp

/-- Ratio of two densities of the layer. -/
theorem oxUp_ratio (hF : RealFns F) (hD : Data126 T) {st : St ℝ} {s z : ℝ} (hre : 0 < st.re) (hg : 0 < st.gsurf)
    (hs : 0 < s) (k1 : 0 ≤ x.alt) (k2 : 0 ≤ z) : 0 < oxUp F T x st s ∧
      oxUp F T { x with alt := z } st s = oxUp F T x st s *
        Real.exp (1 / scalh F st.gsurf st.re 550 16 4000 * (layerLog st.re 550 76 z - layerLog st.re 550 76 x.alt)) := by
  have hb : 0 < baseOf F T x st 7 (.pd 8) := baseOf_pos hD st 7 8 (by omega) (by omega)
  have hb' : baseOf F T { x with alt := z } st 7 (.pd 8) = baseOf F T x st 7 (.pd 8) := rfl
  have lr := layer_rate (F := F) (t := 4000) (zl := 120) (h := 550) (s2 := s) hF hre hg (by norm_num) hs (by norm_num)
    (by norm_num) k1 k2
  unfold oxUp
  rw [hD.hot, hD.scale, hD.peak, hD.base, densUp_iso (by norm_num), densUp_iso (by norm_num), hb']
  generalize baseOf F T x st 7 (.pd 8) = B at *
  refine ⟨mul_pos (mul_pos hb (Real.exp_pos _)) (Real.exp_pos _), ?_⟩
  simp only [mul_assoc B, ← Real.exp_add]
  congr 2
  unfold layerLog
  show _ + -76 / scalh F st.gsurf st.re 550 16 4000 * (Real.exp (-(z - 550) / 76) - 1) = _
  generalize scalh F st.gsurf st.re 550 16 4000 = H at *
  generalize Real.exp (-(z - 550) / 76) = E2
  generalize Real.exp (-(x.alt - 550) / 76) = E1
  have lr' : 1 / H * (zeta st.re z 550 - zeta st.re x.alt 550) = H⁻¹ * zeta st.re z 550 - H⁻¹ * zeta st.re x.alt 550 := by
    rw [one_div]; ring
  rw [lr'] at lr
  show -s * gamUp st.re st.gsurf 4000 16 120 s * zeta st.re z 120 + _ = _
  rw [div_eq_mul_inv, div_eq_mul_inv]
  linear_combination -lr

theorem gts7_layer (hF : RealFns F) (hT : TabOk T) (hD : Data126 T) {s : St ℝ} {z : ℝ} (ha : 450 < x.alt) (hz : x.alt < z)
    (hr : Ready F T x.glat x.lst x.doy s) (h1 : 6300 ≤ s.re) (hg : 970 ≤ s.gsurf) (hp : Plausible F T x s) :
    0 < (gts7 F T x 48 s).1.d 8 ∧ 0 < (gts7 F T { x with alt := z } 48 s).1.d 8 ∧
      (z ≤ 550 → (gts7 F T x 48 s).1.d 8 < (gts7 F T { x with alt := z } 48 s).1.d 8) ∧
      (550 ≤ x.alt → (gts7 F T { x with alt := z } 48 s).1.d 8 < (gts7 F T x 48 s).1.d 8) := by
  have j : zn1 T 0 ≤ 450 := hD.join
  have z4 : zn1 T 4 = 72.5 := rfl
  have et : gtsTemps F T { x with alt := z } = gtsTemps F T x :=
    gtsTemps_height z (by linarith) (by linarith) (by rw [z4]; linarith) (by rw [z4]; linarith)
  have en : gtsNodes F T { x with alt := z } = gtsNodes F T x := gtsNodes_height z (by linarith) (by linarith)
  have st := steady_nodes (F := F) (T := T) s.re s.gsurf (by linarith : 300 ≤ x.alt) _
    (steady_temps hT s.re s.gsurf s ⟨hr, rfl, rfl⟩)
  rw [gts7_out 48 (by decide), gts7_out 48 (by decide), et, en]
  obtain ⟨p1, p2, p3, p4⟩ := hp
  generalize (gtsTemps F T x s).1.1 = tinf at *
  generalize (gtsTemps F T x s).1.2.1 = tlb at *
  generalize (gtsTemps F T x s).1.2.2 = gr at *
  generalize (gtsNodes F T x (gtsTemps F T x s).2).2 = t at *
  have U : Upper T x.alt tinf tlb gr t := ⟨ha, j, by rw [hD.base]; norm_num, by rw [hD.base]; norm_num,
    by rw [st.re]; linarith, by rw [st.gsurf]; linarith, p1, p2, p4⟩
  have U' : Upper T ({ x with alt := z } : In ℝ).alt tinf tlb gr t := ⟨ha.trans hz, j, U.base, U.low, U.re,
    U.gsurf, p1, p2, p4⟩
  have ht : 0 < T.pdm 7 9 * T.pdl 0 6 := by rw [hD.hot]; norm_num
  obtain ⟨-, -, -, -, -, -, -, a8⟩ := gtsDens_up hF hT ht U st.ready
  obtain ⟨-, -, -, -, -, -, -, b8⟩ := gtsDens_up (x := { x with alt := z }) hF hT ht U' (keep st.ready)
  obtain ⟨q1, q2⟩ := oxUp_ratio (F := F) (x := x) (s := gr) (z := z) hF hD U.re U.gsurf p4 (by linarith) (by linarith)
  rw [a8, b8, q2]
  have hu := unitOf_pos x.meters 8
  have hre : 6300 ≤ t.re := by rw [st.re]; exact h1
  have hsc : 0 < 1 / scalh F t.gsurf t.re 550 16 4000 :=
    one_div_pos.2 (scalh_pos hF U.re U.gsurf (by norm_num) (by norm_num))
  have hu' : unitOf ({ x with alt := z } : In ℝ).meters 8 = unitOf x.meters 8 := rfl
  rw [hu']
  refine ⟨mul_pos q1 hu, mul_pos (mul_pos q1 (Real.exp_pos _)) hu, fun h => ?_, fun h => ?_⟩
  · refine mul_lt_mul_of_pos_right ?_ hu
    have m := layerLog_mono (re := t.re) (h := 550) (l := 76) (b := 450) (by linarith) (by norm_num) (by linarith)
      ⟨ha.le, by linarith⟩ ⟨by linarith, h⟩ hz
    have : 1 < Real.exp (1 / scalh F t.gsurf t.re 550 16 4000 * (layerLog t.re 550 76 z - layerLog t.re 550 76 x.alt)) :=
      Real.one_lt_exp_iff.2 (mul_pos hsc (sub_pos.2 m))
    exact lt_mul_of_one_lt_right q1 this
  · refine mul_lt_mul_of_pos_right ?_ hu
    have m := layerLog_anti (re := t.re) (h := 550) (l := 76) (by linarith) (by norm_num) (by linarith)
      (Set.mem_Ici.2 h) (Set.mem_Ici.2 (h.trans hz.le)) hz
    have : Real.exp (1 / scalh F t.gsurf t.re 550 16 4000 * (layerLog t.re 550 76 z - layerLog t.re 550 76 x.alt)) < 1 :=
      Real.exp_lt_one_iff.2 (mul_neg_of_pos_of_neg hsc (sub_neg.2 m))
    exact mul_lt_of_lt_one_right q1 this

/-- **C126**  The density of anomalous oxygen above 450 km is positive, rises up to 550 km and falls from there on, without an
upper limit for the height. -/
theorem anomalous_layer (x : In ℝ) (z : ℝ) (ha : 450 < x.alt) (hz : x.alt < z) (tzg tzg' : ℝ) (old old' : Out ℝ) (s : St ℝ)
    (hr : Ready realFns tabR x.glat x.lst x.doy s)
    (hp : Plausible realFns tabR x (glatf realFns (if |x.sw 1| < 0 then 45 else x.glat) s).2) :
    0 < (gtd7 realFns tabR tzg' x 48 old' s).1.d 8 ∧ 0 < (gtd7 realFns tabR tzg { x with alt := z } 48 old s).1.d 8 ∧
      (z ≤ 550 → (gtd7 realFns tabR tzg' x 48 old' s).1.d 8 < (gtd7 realFns tabR tzg { x with alt := z } 48 old s).1.d 8) ∧
      (550 ≤ x.alt →
        (gtd7 realFns tabR tzg { x with alt := z } 48 old s).1.d 8 < (gtd7 realFns tabR tzg' x 48 old' s).1.d 8) := by
  have hz2 : (zn2 0 : ℝ) = 72.5 := rfl
  have hzm : (zmix : ℝ) = 62.5 := rfl
  obtain ⟨b1, b2, b3⟩ := glatf_bounds (if |x.sw 1| < 0 then 45 else x.glat) s
  rw [gtd7_high_d tzg' 48 old' (by rw [hz2]; linarith) (fun h => absurd h.1 (not_lt.2 (by rw [hzm]; linarith))) s 8
    (by omega), gtd7_high_alt tzg z 48 old (ha.trans hz) s 8 (by omega)]
  have hr' : Ready realFns tabR x.glat x.lst x.doy (glatf realFns (if |x.sw 1| < 0 then 45 else x.glat) s).2 := keep hr
  generalize (glatf realFns (if |x.sw 1| < 0 then 45 else x.glat) s).2 = t at *
  exact gts7_layer realFns_ok tabR_ok tabR_126 ha hz hr' b1 b3 hp

/-! ### Examples -/

theorem tabR_temps : tabR.ptm 1 * tabR.p (.pd 3) 0 < tabR.ptm 0 * tabR.p .pt 0 ∧ 0 < tabR.ptm 1 * tabR.p (.pd 3) 0 ∧
    0 < tabR.ptm 3 * tabR.p .ps 0 ∧ tabR.ptm 0 * tabR.p .pt 0 ≤ 10000 := by
  have h : tabQ.ptm 1 * tabQ.p (.pd 3) 0 < tabQ.ptm 0 * tabQ.p .pt 0 ∧ 0 < tabQ.ptm 1 * tabQ.p (.pd 3) 0 ∧
      0 < tabQ.ptm 3 * tabQ.p .ps 0 ∧ tabQ.ptm 0 * tabQ.p .pt 0 ≤ 10000 := by decide +kernel
  simp only [tabR]
  exact_mod_cast h

/-- With the variations of the temperatures switched off the temperatures are plausible. -/
theorem plausible_off (x : In ℝ) (h15 : x.sw 15 = 0) (h16 : x.sw 16 = 0) (h18 : x.sw 18 = 0) (s : St ℝ)
    (hr : Ready realFns tabR x.glat x.lst x.doy s) : Plausible realFns tabR x s := by
  obtain ⟨k1, k2, k3, k4⟩ := tabR_temps
  obtain ⟨et, -⟩ := temps_off tabR_ok h15 h16 h18 s hr
  constructor <;> rw [et]
  · exact k2
  · exact k1.le
  · exact k4
  · exact div_pos k3 (by linarith)

/-- An input with the variations of the temperatures switched off. -/
noncomputable def calm (alt : ℝ) : In ℝ := { sampleIn 10 0 alt 200 with sw := fun k => if k ∈ [15, 16, 18] then 0 else 1 }

/-- The mass density at 500 and 800 km, from a new object. -/
example (s : St ℝ) (hs : Fresh tabR s) (old old' : Out ℝ) (tz tz' : ℝ) :
    (gtd7 realFns tabR tz { calm 500 with alt := 800 } 48 old s).1.d 5 < (gtd7 realFns tabR tz' (calm 500) 48 old' s).1.d 5 :=
  have hr := ready_fresh 10 0 200 (by simp) (by simp) (by decide) s hs
  (densities_fall (calm 500) 800 (by show (450 : ℝ) < 500; norm_num) (by show (500 : ℝ) < 800; norm_num) (by norm_num)
    (by show |(if (0 : ℕ) ∈ [15, 16, 18] then (0 : ℝ) else 1) * ((sampleIn 10 0 500 200).f107A - 150)| ≤ 1000
        norm_num [sampleIn]) tz tz' old old' s hr
    (plausible_off (calm 500) rfl rfl rfl _ (keep hr)) 5 (by omega)).2

/-- Anomalous oxygen at 500 and 540 km. -/
example (s : St ℝ) (hs : Fresh tabR s) (old old' : Out ℝ) (tz tz' : ℝ) :
    (gtd7 realFns tabR tz' (calm 500) 48 old' s).1.d 8 < (gtd7 realFns tabR tz { calm 500 with alt := 540 } 48 old s).1.d 8 :=
  have hr := ready_fresh 10 0 200 (by simp) (by simp) (by decide) s hs
  (anomalous_layer (calm 500) 540 (by show (450 : ℝ) < 500; norm_num) (by show (500 : ℝ) < 540; norm_num) tz tz' old old' s hr
    (plausible_off (calm 500) rfl rfl rfl _ (keep hr))).2.2.1 (by norm_num)

end Real

end Verif.Atmosphere.Msis
