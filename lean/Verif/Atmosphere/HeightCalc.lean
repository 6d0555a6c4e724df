import Verif.Atmosphere.RequestNitrogen
import Mathlib.Analysis.SpecialFunctions.ExpDeriv
import Mathlib.Analysis.Complex.ExponentialBounds
import Mathlib.Analysis.Calculus.Deriv.MeanValue
import Mathlib.Tactic.Linarith
import Mathlib.Tactic.Positivity
import Mathlib.Tactic.FieldSimp

/-!
C126: estimates for the profiles of the upper thermosphere.
-/
namespace Verif.Atmosphere.Msis

open Data

section Real

open Verif.Atmosphere.Profile (RealFns)

/-- The temperature at height `z` of an atmosphere that has temperature `t2` at `zl` and tends to `t1`. -/
noncomputable def tempUp (re t1 t2 zl s2 z : ℝ) : ℝ := t1 - (t1 - t2) * Real.exp (-s2 * zeta re z zl)

/-- The exponent of a gas of weight `m`. -/
noncomputable def gamUp (re gsurf t1 m zl s2 : ℝ) : ℝ := m * (gsurf / (1 + zl / re) ^ (2 : ℝ)) / (s2 * r100gas * t1)

/-- Its density, from the density `dlb` at `zl`. -/
noncomputable def densUp (re gsurf dlb t1 t2 m al zl s2 z : ℝ) : ℝ :=
  dlb * (t2 / tempUp re t1 t2 zl s2 z) ^ (1 + al + gamUp re gsurf t1 m zl s2) *
    Real.exp (-s2 * gamUp re gsurf t1 m zl s2 * zeta re z zl)

theorem zeta_nonneg {re z zl : ℝ} (hre : 0 < re) (h0 : 0 ≤ zl) (hl : zl ≤ z) : 0 ≤ zeta re z zl := by
  unfold zeta
  exact div_nonneg (mul_nonneg (by linarith) (by linarith)) (by linarith)

theorem zeta_sub {re z1 z2 zl : ℝ} (h1 : 0 < re + z1) (h2 : 0 < re + z2) :
    zeta re z2 zl - zeta re z1 zl = (re + zl) ^ 2 * (z2 - z1) / ((re + z1) * (re + z2)) := by
  unfold zeta
  field_simp
  ring

theorem zeta_incr {re z1 z2 zl : ℝ} (hre : 0 < re) (h0 : 0 ≤ zl) (hl : zl ≤ z1) (h : z1 < z2) :
    zeta re z1 zl < zeta re z2 zl := by
  have e := zeta_sub (re := re) (z1 := z1) (z2 := z2) (zl := zl) (by linarith) (by linarith)
  have : 0 < (re + zl) ^ 2 * (z2 - z1) / ((re + z1) * (re + z2)) :=
    div_pos (mul_pos (pow_pos (by linarith) 2) (by linarith)) (mul_pos (by linarith) (by linarith))
  linarith

theorem tempUp_pos {re t1 t2 zl s2 z : ℝ} (hre : 0 < re) (h0 : 0 ≤ zl) (hl : zl ≤ z) (h2 : 0 < t2) (h12 : t2 ≤ t1)
    (hs : 0 ≤ s2) : t2 ≤ tempUp re t1 t2 zl s2 z := by
  have he : Real.exp (-s2 * zeta re z zl) ≤ 1 := by
    rw [Real.exp_le_one_iff]
    nlinarith [mul_nonneg hs (zeta_nonneg hre h0 hl)]
  unfold tempUp
  nlinarith [mul_le_mul_of_nonneg_left he (sub_nonneg.2 h12)]

theorem tempUp_le {re t1 t2 zl s2 z1 z2 : ℝ} (hre : 0 < re) (h0 : 0 ≤ zl) (hl : zl ≤ z1) (h : z1 < z2) (h12 : t2 ≤ t1)
    (hs : 0 ≤ s2) : tempUp re t1 t2 zl s2 z1 ≤ tempUp re t1 t2 zl s2 z2 := by
  have he : Real.exp (-s2 * zeta re z2 zl) ≤ Real.exp (-s2 * zeta re z1 zl) := by
    apply Real.exp_le_exp.2
    nlinarith [mul_le_mul_of_nonneg_left (zeta_incr hre h0 hl h).le hs]
  unfold tempUp
  nlinarith [mul_le_mul_of_nonneg_left he (sub_nonneg.2 h12)]

theorem r100gas_pos : (0 : ℝ) < r100gas := by unfold r100gas; norm_num

theorem gamUp_pos {re gsurf t1 m zl s2 : ℝ} (hre : 0 < re) (hg : 0 < gsurf) (ht : 0 < t1) (hm : 0 < m) (h0 : 0 ≤ zl)
    (hs : 0 < s2) : 0 < gamUp re gsurf t1 m zl s2 := by
  unfold gamUp
  have a : 0 < 1 + zl / re := by positivity
  exact div_pos (mul_pos hm (div_pos hg (Real.rpow_pos_of_pos a _))) (mul_pos (mul_pos hs r100gas_pos) ht)

/-- The density falls at least as the barometric factor. -/
theorem densUp_fall {re gsurf dlb t1 t2 m al zl s2 z1 z2 : ℝ} (hre : 0 < re) (hg : 0 < gsurf) (hd : 0 < dlb) (h2 : 0 < t2)
    (h12 : t2 ≤ t1) (hm : 0 < m) (hal : -1 ≤ al) (h0 : 0 ≤ zl) (hs : 0 < s2) (hl : zl ≤ z1) (h : z1 < z2) :
    0 < densUp re gsurf dlb t1 t2 m al zl s2 z2 ∧
      densUp re gsurf dlb t1 t2 m al zl s2 z2 ≤ densUp re gsurf dlb t1 t2 m al zl s2 z1 *
        Real.exp (-(s2 * gamUp re gsurf t1 m zl s2 * (zeta re z2 zl - zeta re z1 zl))) := by
  have hγ := gamUp_pos (m := m) hre hg (h2.trans_le h12) hm h0 hs
  have p1 := h2.trans_le (tempUp_pos (z := z1) hre h0 hl h2 h12 hs.le)
  have hle := tempUp_le hre h0 hl h h12 hs.le
  have p2 := p1.trans_le hle
  unfold densUp
  generalize gamUp re gsurf t1 m zl s2 = γ at hγ ⊢
  generalize tempUp re t1 t2 zl s2 z1 = T1 at *
  generalize tempUp re t1 t2 zl s2 z2 = T2 at *
  refine ⟨mul_pos (mul_pos hd (Real.rpow_pos_of_pos (div_pos h2 p2) _)) (Real.exp_pos _), ?_⟩
  rw [mul_assoc _ (Real.exp _) (Real.exp _), ← Real.exp_add]
  have ee : -s2 * γ * zeta re z1 zl + -(s2 * γ * (zeta re z2 zl - zeta re z1 zl)) = -s2 * γ * zeta re z2 zl := by ring
  rw [ee]
  refine mul_le_mul_of_nonneg_right ?_ (Real.exp_pos _).le
  refine mul_le_mul_of_nonneg_left ?_ hd.le
  exact Real.rpow_le_rpow (div_pos h2 p2).le (div_le_div_of_nonneg_left h2.le p1 hle) (by linarith)

theorem densUp_lt {re gsurf dlb t1 t2 m al zl s2 z1 z2 : ℝ} (hre : 0 < re) (hg : 0 < gsurf) (hd : 0 < dlb) (h2 : 0 < t2)
    (h12 : t2 ≤ t1) (hm : 0 < m) (hal : -1 ≤ al) (h0 : 0 ≤ zl) (hs : 0 < s2) (hl : zl ≤ z1) (h : z1 < z2) :
    0 < densUp re gsurf dlb t1 t2 m al zl s2 z2 ∧
      densUp re gsurf dlb t1 t2 m al zl s2 z2 < densUp re gsurf dlb t1 t2 m al zl s2 z1 := by
  obtain ⟨a, b⟩ := densUp_fall (al := al) hre hg hd h2 h12 hm hal h0 hs hl h
  refine ⟨a, b.trans_lt ?_⟩
  have hγ := gamUp_pos (m := m) hre hg (h2.trans_le h12) hm h0 hs
  have p1 := h2.trans_le (tempUp_pos (z := z1) hre h0 hl h2 h12 hs.le)
  have q : 0 < densUp re gsurf dlb t1 t2 m al zl s2 z1 :=
    mul_pos (mul_pos hd (Real.rpow_pos_of_pos (div_pos h2 p1) _)) (Real.exp_pos _)
  have : Real.exp (-(s2 * gamUp re gsurf t1 m zl s2 * (zeta re z2 zl - zeta re z1 zl))) < 1 := by
    rw [Real.exp_lt_one_iff]
    have := mul_pos (mul_pos hs hγ) (sub_pos.2 (zeta_incr hre h0 hl h))
    linarith
  nlinarith

/-- Above the junction `densu` is this density, and leaves the members alone. -/
theorem densu_up (F : Fns ℝ) (hF : RealFns F) (T : Tab ℝ) (alt dlb t1 t2 xm xalph zlb s2 : ℝ) (s : St ℝ)
    (hz : zn1 T 0 ≤ alt) (hl : zlb ≤ alt) (h2 : 0 < t2) (h12 : t2 ≤ t1) (hs : 0 < s2) (hre : 0 < s.re) (hg : 0 < s.gsurf)
    (h0 : 0 ≤ zlb) (hm : 0 < xm) (hx : |xm| > nearzero) :
    (densu F T alt dlb t1 t2 xm xalph zlb s2 s).1.1 = densUp s.re s.gsurf dlb t1 t2 xm xalph zlb s2 alt := by
  have hγ := gamUp_pos (m := xm) hre hg (h2.trans_le h12) hm h0 hs
  have htt := h2.trans_le (tempUp_pos (z := alt) hre h0 hl h2 h12 hs.le)
  have he : Real.exp (-s2 * gamUp s.re s.gsurf t1 xm zlb s2 * zeta s.re alt zlb) ≤ 1 := by
    rw [Real.exp_le_one_iff]
    have := mul_nonneg (mul_pos hs hγ).le (zeta_nonneg hre h0 hl)
    linarith
  unfold densu
  simp only [bind_run, rd_run, if_neg (not_lt.2 hz), if_pos hx, pure_run, max_eq_left hz, hF.exp, hF.pow]
  have cap : ¬ (Real.exp (-s2 * gamUp s.re s.gsurf t1 xm zlb s2 * zeta s.re alt zlb) > 50 ∨
      tempUp s.re t1 t2 zlb s2 alt ≤ 0) := by
    rintro (h | h)
    · linarith
    · linarith
  unfold tempUp gamUp at cap
  exact congrArg (fun e => dlb * (t2 / tempUp s.re t1 t2 zlb s2 alt) ^ (1 + xalph + gamUp s.re s.gsurf t1 xm zlb s2) * e)
    (if_neg cap)

/-! ### The correction of molecular oxygen -/

theorem exp_neg_nine : Real.exp (-9) ≤ 1 / 8000 := by
  have h := Real.exp_one_gt_d9
  have e : Real.exp (-9) = (Real.exp 1 ^ 9)⁻¹ := by
    rw [Real.exp_neg, ← Real.exp_nat_mul]; norm_num
  rw [e, inv_eq_one_div]
  have : (8000 : ℝ) ≤ Real.exp 1 ^ 9 := by
    calc (8000 : ℝ) ≤ 2.718 ^ 9 := by norm_num
      _ ≤ Real.exp 1 ^ 9 := by apply pow_le_pow_left₀ (by norm_num); linarith
  exact div_le_div_of_nonneg_left zero_le_one (by norm_num) this

theorem exp_drop {h u d : ℝ} (hh : h ≤ -12) (hu : u / h ≤ -9) (hd : 0 ≤ d) :
    0 ≤ Real.exp (u / h) - Real.exp ((u + d) / h) ∧
      Real.exp (u / h) - Real.exp ((u + d) / h) ≤ d / 96000 := by
  have hn : d / h ≤ 0 := div_nonpos_of_nonneg_of_nonpos hd (by linarith)
  have hl : -(d / 12) ≤ d / h := by
    rw [le_div_iff_of_neg (by linarith)]
    nlinarith
  rw [add_div, Real.exp_add]
  have e1 : Real.exp (d / h) ≤ 1 := by rw [Real.exp_le_one_iff]; exact hn
  have e2 : d / h + 1 ≤ Real.exp (d / h) := Real.add_one_le_exp _
  have e3 : Real.exp (u / h) ≤ 1 / 8000 := (Real.exp_le_exp.2 hu).trans exp_neg_nine
  have e4 := Real.exp_pos (u / h)
  constructor
  · nlinarith
  · have : Real.exp (u / h) * (1 - Real.exp (d / h)) ≤ 1 / 8000 * (d / 12) :=
      mul_le_mul e3 (by linarith) (by linarith) (by norm_num)
    nlinarith

/-- The logarithm of the correction varies by at most a part of `1/96000` of its amplitude per kilometre. -/
theorem corr_drop {r h1 h2 u d : ℝ} (k1 : h1 ≤ -12) (k2 : h2 ≤ -12) (u1 : u / h1 ≤ -9) (u2 : u / h2 ≤ -9) (hd : 0 ≤ d) :
    r / (1 + 0.5 * (Real.exp ((u + d) / h1) + Real.exp ((u + d) / h2))) -
      r / (1 + 0.5 * (Real.exp (u / h1) + Real.exp (u / h2))) ≤ |r| * (d / 96000) := by
  obtain ⟨a1, b1⟩ := exp_drop k1 u1 hd
  obtain ⟨a2, b2⟩ := exp_drop k2 u2 hd
  have p1 := Real.exp_pos (u / h1)
  have p2 := Real.exp_pos (u / h2)
  have q1 := Real.exp_pos ((u + d) / h1)
  have q2 := Real.exp_pos ((u + d) / h2)
  generalize Real.exp (u / h1) = A at *
  generalize Real.exp (u / h2) = B at *
  generalize Real.exp ((u + d) / h1) = A' at *
  generalize Real.exp ((u + d) / h2) = B' at *
  have e : r / (1 + 0.5 * (A' + B')) - r / (1 + 0.5 * (A + B)) =
      r * (0.5 * ((A - A') + (B - B')) / ((1 + 0.5 * (A' + B')) * (1 + 0.5 * (A + B)))) := by
    field_simp
    ring
  rw [e]
  have w0 : 0 ≤ 0.5 * ((A - A') + (B - B')) / ((1 + 0.5 * (A' + B')) * (1 + 0.5 * (A + B))) := by
    apply div_nonneg <;> nlinarith
  have w1 : 0.5 * ((A - A') + (B - B')) / ((1 + 0.5 * (A' + B')) * (1 + 0.5 * (A + B))) ≤ d / 96000 := by
    refine (div_le_self (by nlinarith) ?_).trans (by nlinarith)
    nlinarith [mul_pos (add_pos q1 q2) (add_pos p1 p2)]
  calc _ ≤ |r| * (0.5 * ((A - A') + (B - B')) / ((1 + 0.5 * (A' + B')) * (1 + 0.5 * (A + B)))) :=
        mul_le_mul_of_nonneg_right (le_abs_self r) w0
    _ ≤ _ := mul_le_mul_of_nonneg_left w1 (abs_nonneg r)

/-- The barometric factor of molecular oxygen loses at least a part in a thousand per kilometre. -/
theorem baro_oxygen {re gsurf t1 s2 z1 z2 : ℝ} (h1 : 6300 ≤ re) (hre : re ≤ 6400) (hg : 970 ≤ gsurf) (ht : 0 < t1)
    (htm : t1 ≤ 10000) (hs : 0 < s2) (ha : 450 ≤ z1) (h : z1 < z2) (hz : z2 ≤ 2500) :
    (z2 - z1) / 1000 ≤ s2 * gamUp re gsurf t1 32 120 s2 * (zeta re z2 120 - zeta re z1 120) := by
  have hr0 : 0 < re := by linarith
  rw [zeta_sub (by linarith) (by linarith)]
  have hR := r100gas_pos
  have hR' : (r100gas : ℝ) ≤ 840 := by unfold r100gas; norm_num
  have e : s2 * gamUp re gsurf t1 32 120 s2 * ((re + 120) ^ 2 * (z2 - z1) / ((re + z1) * (re + z2))) =
      (z2 - z1) * (32 * gsurf * re ^ 2 / (r100gas * t1 * ((re + z1) * (re + z2)))) := by
    unfold gamUp
    rw [show (1 + 120 / re : ℝ) ^ (2 : ℝ) = (1 + 120 / re) ^ 2 by rw [← Real.rpow_natCast]; norm_num]
    have : (1 + 120 / re : ℝ) = (re + 120) / re := by field_simp
    rw [this]
    have a1 : re + 120 ≠ 0 := by linarith
    have a2 : re + z1 ≠ 0 := by linarith
    have a3 : re + z2 ≠ 0 := by linarith
    field_simp
  rw [e, div_eq_mul_one_div]
  refine mul_le_mul_of_nonneg_left ?_ (by linarith)
  have d1 : 0 < r100gas * t1 * ((re + z1) * (re + z2)) :=
    mul_pos (mul_pos hR ht) (mul_pos (by linarith) (by linarith))
  rw [le_div_iff₀ d1]
  have c1 : r100gas * t1 ≤ 840 * 10000 := mul_le_mul hR' htm ht.le (by norm_num)
  have c2 : (re + z1) * (re + z2) ≤ 8900 * 8900 :=
    mul_le_mul (by linarith) (by linarith) (by linarith) (by norm_num)
  have c3 : r100gas * t1 * ((re + z1) * (re + z2)) ≤ 840 * 10000 * (8900 * 8900) :=
    mul_le_mul c1 c2 (mul_nonneg (by linarith) (by linarith)) (by norm_num)
  have c4 : (6300 : ℝ) ^ 2 ≤ re ^ 2 := pow_le_pow_left₀ (by norm_num) h1 2
  have c5 : (32 * 970) * (6300 : ℝ) ^ 2 ≤ 32 * gsurf * re ^ 2 :=
    mul_le_mul (by linarith) c4 (by norm_num) (by linarith)
  have c6 : (1 / 1000 : ℝ) * (840 * 10000 * (8900 * 8900)) ≤ (32 * 970) * (6300 : ℝ) ^ 2 := by norm_num
  linarith

/-! ### The layer of anomalous oxygen -/

/-- Logarithm of the shape of the layer, up to a positive factor: the geopotential height from the reference height `h`, and
an exponential of scale `l`. -/
noncomputable def layerLog (re h l z : ℝ) : ℝ := -(zeta re z h) - l * Real.exp (-(z - h) / l)

theorem layerLog_deriv {re h l z : ℝ} (hz : re + z ≠ 0) (hl : l ≠ 0) :
    HasDerivAt (layerLog re h l) (Real.exp (-(z - h) / l) - ((re + h) / (re + z)) ^ 2) z := by
  have a : HasDerivAt (fun z => zeta re z h) (((re + h) / (re + z)) ^ 2) z := by
    unfold zeta
    have n : HasDerivAt (fun z => (z - h) * (re + h)) (re + h) z := by
      simpa using ((hasDerivAt_id z).sub_const h).mul_const (re + h)
    have d : HasDerivAt (fun z => re + z) 1 z := by simpa using (hasDerivAt_id z).const_add re
    have q := n.div d hz
    refine q.congr_deriv ?_
    field_simp
    ring
  have b : HasDerivAt (fun z => l * Real.exp (-(z - h) / l)) (-Real.exp (-(z - h) / l)) z := by
    have n : HasDerivAt (fun z => -(z - h) / l) (-1 / l) z := by
      simpa using (((hasDerivAt_id z).sub_const h).neg).div_const l
    refine (n.exp.const_mul l).congr_deriv ?_
    field_simp
  exact (a.neg.sub b).congr_deriv (by ring)

theorem layer_above {R w l : ℝ} (hR : 0 < R) (hw : 0 < w) (hl : 0 < l) (h : 2 * l < R) :
    Real.exp (-w / l) < (R / (R + w)) ^ 2 := by
  have e1 : (R + w) / R ≤ Real.exp (w / R) := by
    have := Real.add_one_le_exp (w / R)
    have e : (R + w) / R = w / R + 1 := by field_simp; ring
    rw [e]; exact this
  have e2 : ((R + w) / R) ^ 2 ≤ Real.exp (w / R) ^ 2 := pow_le_pow_left₀ (by positivity) e1 2
  rw [← Real.exp_nat_mul] at e2
  have e3 : Real.exp ((2 : ℕ) * (w / R)) < Real.exp (w / l) := by
    apply Real.exp_lt_exp.2
    push_cast
    rw [← mul_div_assoc, div_lt_div_iff₀ hR hl]
    nlinarith
  have e4 := e2.trans_lt e3
  have e5 : (R / (R + w)) ^ 2 = (((R + w) / R) ^ 2)⁻¹ := by rw [← inv_pow, inv_div]
  rw [e5, neg_div, Real.exp_neg]
  exact inv_strictAnti₀ (by positivity) e4

theorem layer_below {R v l : ℝ} (hv : 0 < v) (hvR : v < R) (hl : 0 < l) (h : 2 * l < R - v) :
    (R / (R - v)) ^ 2 < Real.exp (v / l) := by
  have hp : 0 < R - v := by linarith
  have e1 : R / (R - v) ≤ Real.exp (v / (R - v)) := by
    have := Real.add_one_le_exp (v / (R - v))
    have e : R / (R - v) = v / (R - v) + 1 := by field_simp; ring
    rw [e]; exact this
  have e2 : (R / (R - v)) ^ 2 ≤ Real.exp (v / (R - v)) ^ 2 :=
    pow_le_pow_left₀ (div_nonneg (by linarith) hp.le) e1 2
  rw [← Real.exp_nat_mul] at e2
  refine e2.trans_lt (Real.exp_lt_exp.2 ?_)
  push_cast
  rw [← mul_div_assoc, div_lt_div_iff₀ hp hl]
  nlinarith

theorem layerLog_anti {re h l : ℝ} (hre : 0 < re + h) (hl : 0 < l) (hh : 2 * l < re + h) :
    StrictAntiOn (layerLog re h l) (Set.Ici h) := by
  apply strictAntiOn_of_deriv_neg (convex_Ici h)
  · intro z hz
    exact (layerLog_deriv (by have := Set.mem_Ici.1 hz; linarith) hl.ne').continuousAt.continuousWithinAt
  · intro z hz
    rw [interior_Ici, Set.mem_Ioi] at hz
    rw [(layerLog_deriv (by linarith) hl.ne').deriv]
    have := layer_above (R := re + h) (w := z - h) hre (by linarith) hl hh
    have e : re + h + (z - h) = re + z := by ring
    rw [e] at this
    linarith

theorem layerLog_mono {re h l b : ℝ} (hb : 0 < re + b) (hl : 0 < l) (hh : 2 * l < re + b) :
    StrictMonoOn (layerLog re h l) (Set.Icc b h) := by
  apply strictMonoOn_of_deriv_pos (convex_Icc b h)
  · intro z hz
    exact (layerLog_deriv (by have := hz.1; linarith) hl.ne').continuousAt.continuousWithinAt
  · intro z hz
    rw [interior_Icc, Set.mem_Ioo] at hz
    rw [(layerLog_deriv (by linarith) hl.ne').deriv]
    have := layer_below (R := re + h) (v := h - z) (by linarith) (by linarith) hl (by linarith)
    have e : re + h - (h - z) = re + z := by ring
    have e' : -(z - h) / l = (h - z) / l := by ring
    rw [e] at this
    rw [e']
    linarith

end Real

end Verif.Atmosphere.Msis
