import Verif.Atmosphere.ProfileLow
import Verif.Atmosphere.MsisExamples

/-! C115: an atmosphere that meets the hypotheses.  The inverse temperature is `A + B / (re + z)` below
the joining height – a straight line in the coordinate of every spline – and continues the Bates
profile there. -/
namespace Verif.Atmosphere.Profile
open Set Verif.Atmosphere.Msis Verif.Atmosphere.Msis.Data

theorem bracket (xa : ℕ → ℝ) {n : ℕ} (hn : 2 ≤ n) {x : ℝ} (h1 : xa 0 ≤ x) (h2 : x ≤ xa (n - 1)) :
    ∃ i, i + 1 < n ∧ xa i ≤ x ∧ x ≤ xa (i + 1) := by
  have : ∀ m, m + 1 < n → x ≤ xa (m + 1) → ∃ i, i + 1 < n ∧ xa i ≤ x ∧ x ≤ xa (i + 1) := by
    intro m
    induction m with
    | zero => intro hm hle; exact ⟨0, hm, h1, hle⟩
    | succ m ih =>
      intro hm hle
      by_cases hc : x ≤ xa (m + 1)
      · exact ih (by omega) hc
      · exact ⟨m + 1, hm, (not_le.mp hc).le, hle⟩
  refine this (n - 2) (by omega) ?_
  rwa [show n - 2 + 1 = n - 1 by omega]

variable {re : ℝ} {n : ℕ} {zn tn tg : ℕ → ℝ}

/-- Node values on a straight line, with its slope at both ends: the spline is the line. -/
theorem inv_linear (h : Nodes re n zn) (y0 b : ℝ) (hy : ∀ k, k < n → 1 / tn k = y0 + b * xs re n zn (zn k))
    (h1 : yd1 re n zn tn tg = b) (h2 : yd2 re n zn tn tg = b) (hb : ¬ b > 0.99e30) {z : ℝ}
    (hz : z ∈ Icc (zn (n - 1)) (zn 0)) : inv re n zn tn tg z = y0 + b * xs re n zn z := by
  have h3 := h.three
  have hinc := h.increasing
  have hslope : ∀ i, i + 1 < n → (1 / tn (i + 1) - 1 / tn i) /
      (xs re n zn (zn (i + 1)) - xs re n zn (zn i)) = b := by
    intro i hi
    rw [hy (i + 1) hi, hy i (by omega)]
    have := (sub_pos.2 (hinc i hi)).ne'
    dsimp only at this
    field_simp
    ring
  have hzero : IsSpline 0.99e30 (fun k => xs re n zn (zn k)) (fun k => 1 / tn k) n
      (yd1 re n zn tn tg) (yd2 re n zn tn tg) (fun _ => 0) := by
    refine ⟨?_, ?_, ?_⟩
    · intro i hi
      simp only [slopeLeft, slopeRight, hslope i (by omega), hslope (i + 1) hi]
      ring
    · rw [h1, if_neg hb]
      simp only [slopeRight, hslope 0 (by omega)]
      ring
    · rw [h2, if_neg hb]
      simp only [slopeLeft, hslope (n - 2) (by omega)]
      ring
  have hM := spline_unique 0.99e30 (fun k => xs re n zn (zn k)) (fun k => 1 / tn k) n (by omega) hinc
    (yd1 re n zn tn tg) (yd2 re n zn tn tg) (sec re n zn tn tg) (fun _ => 0)
    (spline_solves _ _ _ n (by omega) hinc _ _ junk) hzero
  obtain ⟨i, hi, hl, hu⟩ := bracket (fun k => xs re n zn (zn k)) (by omega) (h.maps hz).1 (h.maps hz).2
  rw [inv, splint_eq _ _ _ _ n h3 hinc i hi _ hl hu]
  simp only [cubic]
  rw [hM i (by omega), hM (i + 1) hi, hy i (by omega), hy (i + 1) hi]
  have := (sub_pos.2 (hinc i hi)).ne'
  dsimp only at this
  field_simp
  ring

/-- The inverse temperature `A + B / (re + z)`. -/
noncomputable def yl (re A B z : ℝ) : ℝ := A + B / (re + z)

/-- The spline through such values with the matching end gradients. -/
theorem inv_hyper (h : Nodes re n zn) (A B : ℝ) (htn : ∀ k, k < n → tn k = 1 / yl re A B (zn k))
    (hpos : ∀ k, k < n → 0 < yl re A B (zn k))
    (hg0 : tg 0 = B / (re + zn 0) ^ 2 / yl re A B (zn 0) ^ 2)
    (hg1 : tg 1 = B / (re + zn (n - 1)) ^ 2 / yl re A B (zn (n - 1)) ^ 2)
    (hB : -(B / (re + zn 0) ^ 2 * zeta re (zn (n - 1)) (zn 0)) ≤ 0.99e30) :
    Gentle re n zn tn tg ∧ ∀ z ∈ Icc (zn (n - 1)) (zn 0), inv re n zn tn tg z = yl re A B z := by
  have h3 := h.three
  have p0 : 0 < re + zn 0 := h.lower (by omega)
  have pl := h.pos
  have y0 := hpos 0 (by omega)
  have yn := hpos (n - 1) (by omega)
  set dif := zeta re (zn (n - 1)) (zn 0) with hdif
  have hdne : dif ≠ 0 := h.dif_neg.ne
  have hb1 : yd1 re n zn tn tg = -(B / (re + zn 0) ^ 2 * dif) := by
    rw [yd1, hg0, htn 0 (by omega), ← hdif]
    have := y0.ne'
    field_simp
  have hb2 : yd2 re n zn tn tg = -(B / (re + zn 0) ^ 2 * dif) := by
    rw [yd2, hg1, htn (n - 1) (by omega), ← hdif, Real.rpow_two]
    have := yn.ne'
    have := pl.ne'
    have := p0.ne'
    field_simp
  refine ⟨⟨?_, ?_, ?_, ?_⟩, fun z hz => ?_⟩
  · rw [htn 0 (by omega)]; exact (one_div_pos.2 y0).ne'
  · rw [htn (n - 1) (by omega)]; exact (one_div_pos.2 yn).ne'
  · rw [hb1]; exact not_lt.2 hB
  · rw [hb2]; exact not_lt.2 hB
  · have line : ∀ w, re + w ≠ 0 → yl re A B (zn 0) + -(B / (re + zn 0) ^ 2 * dif) * xs re n zn w =
        yl re A B w := by
      intro w hw
      have e : -(B / (re + zn 0) ^ 2 * dif) * xs re n zn w = -(B / (re + zn 0) ^ 2 * zeta re w (zn 0)) := by
        rw [xs, ← hdif]
        field_simp
      rw [e, yl, yl, zeta]
      have := p0.ne'
      field_simp
      ring
    have hzp : re + z ≠ 0 := (by linarith [hz.1] : (0 : ℝ) < re + z).ne'
    rw [inv_linear h (yl re A B (zn 0)) (-(B / (re + zn 0) ^ 2 * dif)) ?_ hb1 hb2 (not_lt.2 hB) hz,
      line z hzp]
    intro k hk
    rw [htn k hk, one_div_one_div, line _ (h.lower hk).ne']

/-! ### The atmosphere -/

theorem realFns_real : RealFns realFns := ⟨rfl, rfl⟩

theorem tabR_join : zn1 tabR 0 = 123.435 := by
  have h : tabQ.pdl 1 15 = 123.435 := by decide +kernel
  show ((tabQ.pdl 1 15 : ℚ) : ℝ) = 123.435
  rw [h]
  norm_num

/-- Bates temperature at the joining height: 1000 K far up, 380 K at 120 km, 0.02 per km. -/
noncomputable def ta : ℝ := bates 6356 1000 380 120 0.02 123.435
/-- Its gradient. -/
noncomputable def dta : ℝ := (1000 - ta) * 0.02 * ((6356 + 120) / (6356 + 123.435)) ^ 2
/-- The coefficients of the inverse temperature below. -/
noncomputable def cB : ℝ := dta / ta ^ 2 * (6356 + 123.435) ^ 2
@[inherit_doc cB]
noncomputable def cA : ℝ := 1 / ta - cB / (6356 + 123.435)

/-- The temperature below the joining height. -/
noncomputable def tb (z : ℝ) : ℝ := 1 / yl 6356 cA cB z
/-- Its gradient. -/
noncomputable def gb (z : ℝ) : ℝ := cB / (6356 + z) ^ 2 / yl 6356 cA cB z ^ 2

/-- The state with these nodes. -/
noncomputable def warmState (s : St ℝ) : St ℝ :=
  { s with
    re := 6356
    gsurf := 980
    tn1 := fun k => tb (zn1 tabR k)
    tn2 := fun k => tb (zn2 k)
    tn3 := fun k => tb (zn3 k)
    tgn1 := fun k => gb (if k = 0 then 123.435 else 72.5)
    tgn2 := fun k => gb (if k = 0 then 72.5 else 32.5)
    tgn3 := fun k => gb (if k = 0 then 32.5 else 0) }

theorem bates_range (z : ℝ) (hz : 120 ≤ z) : 380 ≤ bates 6356 1000 380 120 0.02 z ∧
    bates 6356 1000 380 120 0.02 z ≤ 1000 := by
  have h : 0 ≤ (z - 120) * (6356 + 120) / (6356 + z) :=
    div_nonneg (mul_nonneg (by linarith) (by norm_num)) (by linarith)
  have h1 : Real.exp (-0.02 * ((z - 120) * (6356 + 120) / (6356 + z))) ≤ 1 := by
    rw [Real.exp_le_one_iff]
    linarith
  have h2 := Real.exp_pos (-0.02 * ((z - 120) * (6356 + 120) / (6356 + z)))
  unfold bates
  constructor <;> linarith

theorem ta_range : 380 ≤ ta ∧ ta ≤ 1000 := bates_range 123.435 (by norm_num)

theorem dta_range : 0 ≤ dta ∧ dta ≤ 13 := by
  obtain ⟨h1, h2⟩ := ta_range
  unfold dta
  have hq : ((6356 + 120 : ℝ) / (6356 + 123.435)) ^ 2 ≤ 1 := by norm_num
  have hq0 : 0 ≤ ((6356 + 120 : ℝ) / (6356 + 123.435)) ^ 2 := by positivity
  constructor
  · exact mul_nonneg (mul_nonneg (by linarith) (by norm_num)) hq0
  · have : (1000 - ta) * 0.02 ≤ 13 := by linarith
    nlinarith

theorem cB_range : 0 ≤ cB ∧ cB ≤ 10 ^ 9 := by
  obtain ⟨h1, -⟩ := ta_range
  obtain ⟨h3, h4⟩ := dta_range
  have hs : (1 : ℝ) ≤ ta ^ 2 := by nlinarith
  have hq : dta / ta ^ 2 ≤ 13 := (div_le_self h3 hs).trans h4
  have hq0 : 0 ≤ dta / ta ^ 2 := div_nonneg h3 (by positivity)
  unfold cB
  constructor
  · positivity
  · have : ((6356 : ℝ) + 123.435) ^ 2 ≤ 5 * 10 ^ 7 := by norm_num
    nlinarith

theorem yl_top : yl 6356 cA cB 123.435 = 1 / ta := by
  unfold yl cA
  ring

theorem yl_pos (z : ℝ) (h0 : 0 ≤ z) (h1 : z ≤ 123.435) : 0 < yl 6356 cA cB z := by
  have h : yl 6356 cA cB 123.435 ≤ yl 6356 cA cB z := by
    unfold yl
    have := div_le_div_of_nonneg_left cB_range.1 (by linarith : (0 : ℝ) < 6356 + z)
      (by linarith : 6356 + z ≤ 6356 + 123.435)
    linarith
  rw [yl_top] at h
  have : 0 < 1 / ta := one_div_pos.2 (by linarith [ta_range.1])
  linarith

theorem slope_small (z1 z2 : ℝ) (h2 : 0 ≤ z2) (h12 : z2 ≤ z1) (h1 : z1 ≤ 200) :
    -(cB / (6356 + z1) ^ 2 * zeta 6356 z2 z1) ≤ 0.99e30 := by
  obtain ⟨hb, hb'⟩ := cB_range
  have hz : 0 ≤ -zeta 6356 z2 z1 ∧ -zeta 6356 z2 z1 ≤ 400 := by
    have e : -zeta 6356 z2 z1 = (z1 - z2) * ((6356 + z1) / (6356 + z2)) := by
      unfold zeta; ring
    have hq0 : 0 ≤ (6356 + z1) / (6356 + z2) := div_nonneg (by linarith) (by linarith)
    have hq : (6356 + z1) / (6356 + z2) ≤ 2 := by
      rw [div_le_iff₀ (by linarith)]; linarith
    rw [e]
    constructor
    · exact mul_nonneg (by linarith) hq0
    · nlinarith
  have hq : cB / (6356 + z1) ^ 2 ≤ 10 ^ 9 :=
    (div_le_self hb (by nlinarith)).trans hb'
  have hq0 : 0 ≤ cB / (6356 + z1) ^ 2 := div_nonneg hb (by positivity)
  have : -(cB / (6356 + z1) ^ 2 * zeta 6356 z2 z1) = cB / (6356 + z1) ^ 2 * -zeta 6356 z2 z1 := by ring
  rw [this]
  have : cB / (6356 + z1) ^ 2 * -zeta 6356 z2 z1 ≤ 10 ^ 9 * 400 :=
    mul_le_mul hq hz.2 hz.1 (by norm_num)
  refine this.trans ?_
  norm_num

variable (s : St ℝ)

theorem part1 : Gentle 6356 5 (zn1 tabR) (tnU tabR (warmState s) 1000 380 120 0.02)
      (tgU tabR (warmState s) 1000 380 120 0.02) ∧
    ∀ z ∈ Icc (72.5 : ℝ) 123.435, inv 6356 5 (zn1 tabR) (tnU tabR (warmState s) 1000 380 120 0.02)
      (tgU tabR (warmState s) 1000 380 120 0.02) z = yl 6356 cA cB z := by
  have hN : Nodes 6356 5 (zn1 tabR) := nodes1 6356 (by norm_num) (by rw [tabR_join]; norm_num)
  have hta : bates 6356 1000 380 120 0.02 (zn1 tabR 0) = ta := by rw [tabR_join]; rfl
  have hle : ∀ k, k < 5 → 0 ≤ zn1 tabR k ∧ zn1 tabR k ≤ 123.435 := by
    intro k hk
    refine ⟨?_, by rw [← tabR_join]; exact hN.anti k 0 (by omega) hk⟩
    have := hN.anti 4 k (by omega) (by omega)
    have e : zn1 tabR 4 = 72.5 := rfl
    linarith
  have h0 : yl 6356 cA cB (zn1 tabR 0) = 1 / ta := by rw [tabR_join, yl_top]
  have hrange := ta_range
  have hne : ta ≠ 0 := by linarith
  have := inv_hyper (tn := tnU tabR (warmState s) 1000 380 120 0.02)
    (tg := tgU tabR (warmState s) 1000 380 120 0.02) hN cA cB ?_ ?_ ?_ ?_ ?_
  · rw [tabR_join] at this
    exact this
  · intro k hk
    have : k = 0 ∨ k = 1 ∨ k = 2 ∨ k = 3 ∨ k = 4 := by omega
    rcases this with rfl | rfl | rfl | rfl | rfl
    · show bates 6356 1000 380 120 0.02 (zn1 tabR 0) = _
      rw [hta, h0, one_div_one_div]
    all_goals rfl
  · intro k hk
    exact yl_pos _ (hle k hk).1 (hle k hk).2
  · show (1000 - bates 6356 1000 380 120 0.02 (zn1 tabR 0)) * 0.02 *
      ((6356 + 120) / (6356 + zn1 tabR 0)) ^ (2 : ℝ) = _
    rw [hta, h0, tabR_join, Real.rpow_two]
    have e : (1000 - ta) * 0.02 * ((6356 + 120) / (6356 + 123.435)) ^ 2 = dta := rfl
    rw [e, cB]
    field_simp
  · show gb (if 1 = 0 then 123.435 else 72.5) = _
    rfl
  · rw [tabR_join]
    exact slope_small _ _ (by show (0 : ℝ) ≤ 72.5; norm_num) (by show (72.5 : ℝ) ≤ _; norm_num)
      (by norm_num)

theorem part2 : Gentle 6356 4 zn2 (tn2 (warmState s)) (tg2 (warmState s)) ∧
    ∀ z ∈ Icc (32.5 : ℝ) 72.5, inv 6356 4 zn2 (tn2 (warmState s)) (tg2 (warmState s)) z =
      yl 6356 cA cB z := by
  have hN : Nodes 6356 4 zn2 := nodes2 6356 (by norm_num)
  have hle : ∀ k, k < 4 → 0 ≤ (zn2 k : ℝ) ∧ zn2 k ≤ (123.435 : ℝ) := by
    intro k hk
    have a := hN.anti 3 k (by omega) (by omega)
    have b := hN.anti k 0 (by omega) hk
    have e : (zn2 3 : ℝ) = 32.5 := rfl
    have e' : (zn2 0 : ℝ) = 72.5 := rfl
    constructor <;> linarith
  refine inv_hyper (tn := tn2 (warmState s)) (tg := tg2 (warmState s)) hN cA cB ?_
    (fun k hk => yl_pos _ (hle k hk).1 (hle k hk).2) ?_ ?_ ?_
  · intro k hk
    have : k = 0 ∨ k = 1 ∨ k = 2 ∨ k = 3 := by omega
    rcases this with rfl | rfl | rfl | rfl <;> rfl
  · rfl
  · rfl
  · exact slope_small _ _ (by show (0 : ℝ) ≤ 32.5; norm_num) (by show (32.5 : ℝ) ≤ 72.5; norm_num)
      (by show (72.5 : ℝ) ≤ 200; norm_num)

theorem part3 : Gentle 6356 5 zn3 (tn3 (warmState s)) (tg3 (warmState s)) ∧
    ∀ z ∈ Icc (0 : ℝ) 32.5, inv 6356 5 zn3 (tn3 (warmState s)) (tg3 (warmState s)) z =
      yl 6356 cA cB z := by
  have hN : Nodes 6356 5 zn3 := nodes3 6356 (by norm_num)
  have hle : ∀ k, k < 5 → 0 ≤ (zn3 k : ℝ) ∧ zn3 k ≤ (123.435 : ℝ) := by
    intro k hk
    have a := hN.anti 4 k (by omega) (by omega)
    have b := hN.anti k 0 (by omega) hk
    have e : (zn3 4 : ℝ) = 0 := rfl
    have e' : (zn3 0 : ℝ) = 32.5 := rfl
    constructor <;> linarith
  refine inv_hyper (tn := tn3 (warmState s)) (tg := tg3 (warmState s)) hN cA cB ?_
    (fun k hk => yl_pos _ (hle k hk).1 (hle k hk).2) ?_ ?_ ?_
  · intro k hk
    have : k = 0 ∨ k = 1 ∨ k = 2 ∨ k = 3 ∨ k = 4 := by omega
    rcases this with rfl | rfl | rfl | rfl | rfl <;> rfl
  · rfl
  · rfl
  · exact slope_small _ _ (by show (0 : ℝ) ≤ 0; norm_num) (by show (0 : ℝ) ≤ 32.5; norm_num)
      (by show (32.5 : ℝ) ≤ 200; norm_num)

theorem warm_upper (top : ℝ) (ht : 123.435 ≤ top) :
    UpperOk realFns tabR (warmState s) 1000 380 120 0.02 top where
  fns := realFns_real
  radius := by show (0 : ℝ) < 6356; norm_num
  base := by show (0 : ℝ) < 6356 + 120; norm_num
  join := by rw [tabR_join]; norm_num
  reach := by rw [tabR_join]; exact ht
  gentle := (part1 s).1
  warm := by
    intro z hz dlb xm al
    by_cases h : zn1 tabR 0 ≤ z
    · rw [tempU_high realFns_real (warmState s) dlb 1000 380 xm al 120 0.02 h]
      rw [tabR_join] at h
      have := (bates_range z (by linarith)).1
      show 0 < bates 6356 1000 380 120 0.02 z
      linarith
    · rw [tempU_low realFns_real (warmState s) dlb 1000 380 xm al 120 0.02 (not_le.1 h) hz.1]
      have h' := (not_le.1 h).le
      rw [tabR_join] at h'
      have h0 : 0 ≤ z := by linarith [hz.1]
      exact one_div_pos.2 (lt_of_lt_of_eq (yl_pos z h0 h') ((part1 s).2 z ⟨hz.1, h'⟩).symm)

theorem warm_lower : LowerOk realFns (warmState s) where
  fns := realFns_real
  radius := by show (0 : ℝ) < 6356; norm_num
  node := rfl
  grad := rfl
  gentle2 := (part2 s).1
  gentle3 := (part3 s).1
  warm := by
    intro z hz d0 xm tz0
    by_cases h : z ≤ 32.5
    · rw [tempM_low (warmState s) d0 xm tz0 realFns_real h]
      exact one_div_pos.2 (lt_of_lt_of_eq (yl_pos z hz.1 (by linarith)) ((part3 s).2 z ⟨hz.1, h⟩).symm)
    · rw [tempM_up (warmState s) d0 xm tz0 realFns_real (not_le.1 h) hz.2]
      exact one_div_pos.2 (lt_of_lt_of_eq (yl_pos z hz.1 (by linarith [hz.2]))
        ((part2 s).2 z ⟨(not_le.1 h).le, hz.2⟩).symm)

/-- Atomic oxygen up to 1000 km. -/
example : ∃ D, C1On (tempU realFns tabR (warmState s) (10 ^ 11) 1000 380 16 0 120 0.02) D 72.5 1000 ∧
    Equilibrium 6356 980 16 0 (densU realFns tabR (warmState s) (10 ^ 11) 1000 380 16 0 120 0.02)
      (tempU realFns tabR (warmState s) (10 ^ 11) 1000 380 16 0 120 0.02) D 72.5 1000 := by
  have h := warm_upper s 1000 (by norm_num)
  obtain ⟨D, h1, -, -, h2, -⟩ := upper_profile (10 ^ 11) 16 0 h
    (caps_of_pos 16 h (by norm_num) (by show (0 : ℝ) ≤ 980; norm_num) (by norm_num)
      (by rw [tabR_join]; norm_num)) (by norm_num) (by norm_num) (by norm_num)
    (by rw [abs_of_pos (by norm_num)]; unfold nearzero; norm_num)
  exact ⟨D, h1, h2⟩

/-- Air below 72.5 km. -/
example : ∃ D, C1On (tempM realFns (warmState s) (10 ^ 15) 28.95 0) D 0 72.5 ∧
    Equilibrium 6356 980 28.95 0 (densM realFns (warmState s) (10 ^ 15) 28.95 0)
      (tempM realFns (warmState s) (10 ^ 15) 28.95 0) D 0 72.5 := by
  obtain ⟨D, h1, -, -, -, -, -, h2, -⟩ := lower_profile (10 ^ 15) 28.95 0 (warm_lower s)
    (by show (0 : ℝ) ≤ 980; norm_num) (by unfold nearzero; norm_num)
  exact ⟨D, h1, h2⟩

/-- From the ground to 1000 km. -/
example : ∃ D, C1On (fun z => if 72.5 ≤ z then
    tempU realFns tabR (warmState s) 1 1000 380 0 0 120 0.02 z
    else tempM realFns (warmState s) (10 ^ 15) 28.95 0 z) D 0 1000 :=
  whole_temperature (10 ^ 15) 28.95 0 1 0 0 (warm_upper s 1000 (by norm_num)) (warm_lower s)
    (by show (0 : ℝ) ≤ 980; norm_num) (by unfold nearzero; norm_num) rfl rfl

/-- The gap: the same nodes with 0 in `tn3[0]`. -/
example : ¬ ContinuousAt (tempM realFns { warmState s with tn3 := fun _ => 0 } 1 28.95 0) 32.5 := by
  refine (profile_gap_counterexample (s := { warmState s with tn3 := fun _ => 0 }) 1 28.95 0 realFns_real
    (by show (0 : ℝ) < 6356; norm_num) (part2 s).1 ?_ ?_).2.2
  · show (0 : ℝ) ≠ tb 32.5
    exact (one_div_pos.2 (yl_pos _ (by norm_num) (by norm_num))).ne
  · intro z hz
    exact lt_of_lt_of_eq (yl_pos z (by linarith [hz.1]) (by linarith [hz.2])) ((part2 s).2 z hz).symm

end Verif.Atmosphere.Profile
