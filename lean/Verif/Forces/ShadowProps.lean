import Verif.Forces.ShadowModel
import Verif.Forces.Lens
import Mathlib.Tactic.NormNum
import Mathlib.Tactic.ByContra

/-!
C89 (the conical shadow function is the uncovered part of the solar disc), C90 (the shadow cones).
-/
namespace Verif.Forces

open Real Verif.Astro

/-! ### C89 -/

/-- The part of a disc of radius `ts` that is not covered by a disc of radius `te` whose centre is
`tes` away. -/
noncomputable def uncovered (te ts tes : ℝ) : ℝ := area (disc 0 ts \ disc tes te) / area (disc 0 ts)

theorem uncovered_eq (te ts tes : ℝ) (hs : 0 < ts) :
    uncovered te ts tes = 1 - area (disc 0 ts ∩ disc tes te) / (π * ts ^ 2) := by
  have hf := area_finite ts hs
  have h : area (disc 0 ts \ disc tes te) = area (disc 0 ts) - area (disc 0 ts ∩ disc tes te) := by
    have hm := MeasureTheory.measure_inter_add_sdiff (μ := MeasureTheory.volume) (disc 0 ts) (disc_measurable tes te)
    unfold area
    rw [← hm, ENNReal.toReal_add]
    · ring
    · exact ne_top_of_le_ne_top hf (MeasureTheory.measure_mono Set.inter_subset_left)
    · exact ne_top_of_le_ne_top hf (MeasureTheory.measure_mono Set.sdiff_subset)
  unfold uncovered
  have hp : 0 < π * ts ^ 2 := by positivity
  rw [h, area_disc ts hs, sub_div, div_self hp.ne']

theorem uncovered_bounds (te ts tes : ℝ) (hs : 0 < ts) : 0 ≤ uncovered te ts tes ∧ uncovered te ts tes ≤ 1 := by
  have hp : 0 < area (disc 0 ts) := by
    rw [area_disc ts hs]
    positivity
  unfold uncovered
  refine ⟨div_nonneg ENNReal.toReal_nonneg hp.le, (div_le_one hp).2 ?_⟩
  exact ENNReal.toReal_mono (area_finite ts hs) (MeasureTheory.measure_mono Set.sdiff_subset)

theorem acosQ_some (n d : ℝ) (hd : 0 < d) (h1 : -d ≤ n) (h2 : n ≤ d) : acosQ n d = some (arccos (n / d)) := by
  unfold acosQ
  rw [if_pos]
  refine ⟨hd.ne', ?_, ?_⟩
  · rw [le_div_iff₀ hd]
    linarith
  · rw [div_le_iff₀ hd]
    linarith

/-- **C89** For angular radii `te`, `ts` of the Earth and the Sun and the angle `tes` between their centres, the
result is the part of the solar disc that the Earth leaves uncovered, unless the Earth is seen
inside the Sun. -/
theorem conical_angles (te ts tes : ℝ) (he : 0 < te) (hs : 0 < ts) (h0 : 0 ≤ tes) (hann : ts < tes + te) :
    conicalAngles te ts tes = some (uncovered te ts tes) := by
  rw [uncovered_eq te ts tes hs]
  have hp : 0 < π * ts ^ 2 := by positivity
  unfold conicalAngles
  split
  · rename_i h
    rw [area_apart ts tes te hs he (by linarith), zero_div, sub_zero]
  rename_i h1
  split
  · rename_i h
    rw [area_inside ts tes te hs h0 h, area_disc ts hs, div_self hp.ne', sub_self]
  rename_i h2
  have h1 := not_le.1 h1
  have h2 := not_le.1 h2
  have hd : 0 < tes := by linarith
  have hA := acosQ_some (ts * ts + tes * tes - te * te) (2 * ts * tes) (by positivity) (by nlinarith) (by nlinarith)
  have hB := acosQ_some (te * te + tes * tes - ts * ts) (2 * te * tes) (by positivity) (by nlinarith) (by nlinarith)
  have cA : cos (arccos ((ts * ts + tes * tes - te * te) / (2 * ts * tes))) =
      (ts * ts + tes * tes - te * te) / (2 * ts * tes) := by
    apply cos_arccos
    · rw [le_div_iff₀ (by positivity)]
      nlinarith
    · rw [div_le_iff₀ (by positivity)]
      nlinarith
  have cB : cos (arccos ((te * te + tes * tes - ts * ts) / (2 * te * tes))) =
      (te * te + tes * tes - ts * ts) / (2 * te * tes) := by
    apply cos_arccos
    · rw [le_div_iff₀ (by positivity)]
      nlinarith
    · rw [div_le_iff₀ (by positivity)]
      nlinarith
  have lens := area_lens ts tes te _ _ hs he hann (by linarith)
    (arccos_nonneg ((ts * ts + tes * tes - te * te) / (2 * ts * tes))) (arccos_le_pi _)
    (arccos_nonneg ((te * te + tes * tes - ts * ts) / (2 * te * tes))) (arccos_le_pi _)
    (by
      rw [cA, mul_div_cancel₀ _ (by positivity)]
      ring)
    (by
      rw [cB, mul_div_cancel₀ _ (by positivity)]
      ring)
  rw [lens]
  simp only
  rw [hA, hB]
  simp only [Option.bind_some, Option.some.injEq]
  generalize arccos ((ts * ts + tes * tes - te * te) / (2 * ts * tes)) = a
  generalize arccos ((te * te + tes * tes - ts * ts) / (2 * te * tes)) = b
  rw [pow_two ts]
  congr 2
  ring

theorem cauchy (a b : V3) : -(a.norm * b.norm) ≤ a.dot b ∧ a.dot b ≤ a.norm * b.norm := by
  have ha := V3.norm_sq a
  have hb := V3.norm_sq b
  have h : a.dot b * a.dot b ≤ (a.norm * b.norm) * (a.norm * b.norm) := by
    rw [show a.norm * b.norm * (a.norm * b.norm) = (a.norm * a.norm) * (b.norm * b.norm) by ring, ha, hb]
    have := V3.dot_self_nonneg (a.cross b)
    have e : (a.cross b).dot (a.cross b) = a.dot a * b.dot b - a.dot b * a.dot b := by
      simp only [V3.dot, V3.cross]
      ring
    linarith
  exact abs_le.1 (abs_le_of_sq_le_sq (by nlinarith) (mul_nonneg (V3.norm_nonneg a) (V3.norm_nonneg b)))

/-- **C89** For a satellite outside the Earth and the Sun, with the angular radii and the separation as seen from
it, `conical_shadow` returns a number, which is the uncovered part of the solar disc. -/
theorem conical_uncovered_partial (Re Rs : ℝ) (rsat rsun : V3) (te ts tes : ℝ) (hRe : 0 < Re) (hRs : 0 < Rs)
    (hsat : 0 < rsat.norm) (hsun : 0 < (rsun.sub rsat).norm)
    (te0 : 0 ≤ te) (te1 : te ≤ π / 2) (hte : sin te = Re / rsat.norm)
    (ts0 : 0 ≤ ts) (ts1 : ts ≤ π / 2) (hts : sin ts = Rs / (rsun.sub rsat).norm)
    (tes0 : 0 ≤ tes) (tes1 : tes ≤ π)
    (htes : rsat.norm * (rsun.sub rsat).norm * cos tes = (rsat.smul (-1)).dot (rsun.sub rsat))
    (hann : ts < tes + te) :
    conicalShadow Re Rs rsat rsun = some (uncovered te ts tes) ∧ 0 ≤ uncovered te ts tes ∧ uncovered te ts tes ≤ 1 := by
  have hs : 0 < ts := by
    rcases ts0.lt_or_eq with h | h
    · exact h
    · rw [← h, sin_zero] at hts
      have : 0 < Rs / (rsun.sub rsat).norm := div_pos hRs hsun
      linarith
  have he : 0 < te := by
    rcases te0.lt_or_eq with h | h
    · exact h
    · rw [← h, sin_zero] at hte
      have : 0 < Re / rsat.norm := div_pos hRe hsat
      linarith
  refine ⟨?_, uncovered_bounds te ts tes hs⟩
  have e1 : asinQ Re rsat.norm = some te := by
    unfold asinQ
    rw [← hte, if_pos ⟨hsat.ne', neg_one_le_sin te, sin_le_one te⟩, arcsin_sin (by linarith [pi_pos]) te1]
  have e2 : asinQ Rs (rsun.sub rsat).norm = some ts := by
    unfold asinQ
    rw [← hts, if_pos ⟨hsun.ne', neg_one_le_sin ts, sin_le_one ts⟩, arcsin_sin (by linarith [pi_pos]) ts1]
  have e3 : acosQ (-(rsat.dot (rsun.sub rsat))) ((rsun.sub rsat).norm * rsat.norm) = some tes := by
    have hq : -(rsat.dot (rsun.sub rsat)) / ((rsun.sub rsat).norm * rsat.norm) = cos tes := by
      rw [div_eq_iff (by positivity)]
      have : (rsat.smul (-1)).dot (rsun.sub rsat) = -(rsat.dot (rsun.sub rsat)) := by
        simp only [V3.dot, V3.smul]
        ring
      rw [← this, ← htes]
      ring
    unfold acosQ
    rw [hq, if_pos ⟨by positivity, neg_one_le_cos tes, cos_le_one tes⟩, arccos_cos tes0 tes1]
  unfold conicalShadow
  simp only [e1, e2, e3, Option.bind_some]
  exact conical_angles te ts tes he hs tes0 hann

/-- **C89** The angles of the theorem exist for every satellite at least an Earth radius from the geocentre and a solar
radius from the Sun; where the Earth looks at least as large as the Sun the result is a number in [0, 1]. -/
theorem conical_number (Re Rs : ℝ) (rsat rsun : V3) (hRe : 0 < Re) (hRs : 0 < Rs) (hsat : Re ≤ rsat.norm)
    (hsun : Rs ≤ (rsun.sub rsat).norm) (hlarge : Rs * rsat.norm < Re * (rsun.sub rsat).norm) :
    ∃ f, conicalShadow Re Rs rsat rsun = some f ∧ 0 ≤ f ∧ f ≤ 1 := by
  have hp1 : 0 < rsat.norm := lt_of_lt_of_le hRe hsat
  have hp2 : 0 < (rsun.sub rsat).norm := lt_of_lt_of_le hRs hsun
  have a1 : Re / rsat.norm ≤ 1 := (div_le_one hp1).2 hsat
  have a2 : Rs / (rsun.sub rsat).norm ≤ 1 := (div_le_one hp2).2 hsun
  have b1 : 0 < Re / rsat.norm := div_pos hRe hp1
  have b2 : 0 < Rs / (rsun.sub rsat).norm := div_pos hRs hp2
  have hlt : Rs / (rsun.sub rsat).norm < Re / rsat.norm := by
    rw [div_lt_div_iff₀ hp2 hp1]
    exact hlarge
  have hts : arcsin (Rs / (rsun.sub rsat).norm) < arcsin (Re / rsat.norm) := arcsin_lt_arcsin (by linarith) hlt a1
  have hc := cauchy (rsat.smul (-1)) (rsun.sub rsat)
  have hn : (rsat.smul (-1)).norm = rsat.norm := by
    unfold V3.norm
    congr 1
    simp only [V3.dot, V3.smul]
    ring
  rw [hn] at hc
  have hpp : 0 < rsat.norm * (rsun.sub rsat).norm := mul_pos hp1 hp2
  have hcos : cos (arccos ((rsat.smul (-1)).dot (rsun.sub rsat) / (rsat.norm * (rsun.sub rsat).norm))) =
      (rsat.smul (-1)).dot (rsun.sub rsat) / (rsat.norm * (rsun.sub rsat).norm) := by
    apply cos_arccos
    · rw [le_div_iff₀ hpp]
      linarith [hc.1]
    · rw [div_le_iff₀ hpp]
      linarith [hc.2]
  obtain ⟨h1, h2, h3⟩ := conical_uncovered_partial Re Rs rsat rsun _ _ _ hRe hRs hp1 hp2
    (arcsin_nonneg.2 b1.le) (arcsin_le_pi_div_two _) (sin_arcsin (by linarith) a1)
    (arcsin_nonneg.2 b2.le) (arcsin_le_pi_div_two _) (sin_arcsin (by linarith) a2)
    (arccos_nonneg _) (arccos_le_pi _)
    (by rw [hcos, mul_div_cancel₀ _ hpp.ne'])
    (by linarith [arccos_nonneg ((rsat.smul (-1)).dot (rsun.sub rsat) / (rsat.norm * (rsun.sub rsat).norm))])
  exact ⟨_, h1, h2, h3⟩

/-- **C89** The result is 1 with the Sun clear of the Earth and 0 with the Sun behind it. -/
theorem conical_extremes (te ts tes : ℝ) (he : 0 < te) (hs : 0 < ts) (h0 : 0 ≤ tes) :
    (te + ts ≤ tes → uncovered te ts tes = 1) ∧ (tes ≤ te - ts → uncovered te ts tes = 0) := by
  have hp : 0 < π * ts ^ 2 := by positivity
  refine ⟨fun h => ?_, fun h => ?_⟩
  · rw [uncovered_eq te ts tes hs, area_apart ts tes te hs he (by linarith), zero_div, sub_zero]
  · rw [uncovered_eq te ts tes hs, area_inside ts tes te hs h0 h, area_disc ts hs, div_self hp.ne', sub_self]

/-- Where the Earth is seen inside the solar disc (far behind it on the axis), `conical_shadow` takes the
arc cosine of a number above 1, or of 0/0: the result is not a number, though a part of the Sun is visible. -/
theorem conical_annular_counterexample (te ts tes : ℝ) (he : 0 < te) (hs : 0 < ts) (h0 : 0 ≤ tes) (h : tes + te < ts) :
    conicalAngles te ts tes = none ∧ 0 < uncovered te ts tes := by
  constructor
  · unfold conicalAngles
    rw [if_neg (by
      intro hc
      linarith), if_neg (by
      intro hc
      linarith)]
    have : acosQ (ts * ts + tes * tes - te * te) (2 * ts * tes) = none := by
      unfold acosQ
      rw [if_neg]
      rintro ⟨h1, h2, h3⟩
      have hd : 0 < tes := by
        rcases h0.lt_or_eq with h | h
        · exact h
        · rw [← h] at h1
          simp at h1
      rw [div_le_iff₀ (by positivity)] at h3
      nlinarith
    simp only [this, Option.bind_none]
  · rw [uncovered_eq te ts tes hs]
    have hle : area (disc 0 ts ∩ disc tes te) ≤ area (disc 0 (tes + te)) := by
      apply ENNReal.toReal_mono (area_finite _ (by linarith))
      apply MeasureTheory.measure_mono
      rintro p ⟨-, hp⟩
      have hp : (p.1 - tes) ^ 2 + p.2 ^ 2 < te ^ 2 := hp
      show (p.1 - 0) ^ 2 + p.2 ^ 2 < (tes + te) ^ 2
      have : p.1 - tes < te := by nlinarith [sq_nonneg p.2]
      nlinarith
    rw [area_disc _ (by linarith)] at hle
    have hp : 0 < π * ts ^ 2 := by positivity
    have hlt : π * (tes + te) ^ 2 < π * ts ^ 2 := by
      apply mul_lt_mul_of_pos_left _ pi_pos
      nlinarith
    have : area (disc 0 ts ∩ disc tes te) / (π * ts ^ 2) < 1 := (div_lt_one hp).2 (by linarith)
    linarith

example : ∃ f, conicalShadow 1 2 ⟨-(5 / 4), 3, 0⟩ ⟨100, 0, 0⟩ = some f ∧ 0 ≤ f ∧ f ≤ 1 := by
  have h1 : V3.norm ⟨-(5 / 4), 3, 0⟩ = 13 / 4 := by
    unfold V3.norm
    rw [show V3.dot ⟨-(5 / 4), 3, 0⟩ ⟨-(5 / 4), 3, 0⟩ = ((13 : ℝ) / 4) ^ 2 by norm_num [V3.dot], sqrt_sq (by norm_num)]
  have h2 : (100 : ℝ) ≤ (V3.sub ⟨100, 0, 0⟩ ⟨-(5 / 4), 3, 0⟩).norm := by
    unfold V3.norm
    apply le_sqrt_of_sq_le
    norm_num [V3.dot, V3.sub]
  exact conical_number 1 2 _ _ one_pos two_pos (by rw [h1]; norm_num) (by linarith) (by rw [h1]; linarith)

/-! ### C90 -/

/-- How far behind the Earth a satellite is, seen from the Sun. -/
noncomputable def behind (rsat rsun : V3) : ℝ := -(rsat.dot rsun / rsun.norm)

/-- The distance of a satellite from the axis through the Sun and the geocentre. -/
noncomputable def offAxis (rsat rsun : V3) : ℝ := (rsat.cross rsun).norm / rsun.norm

/-- The penumbra: behind the Earth, in the cone that touches Sun and Earth from inside. Its apex is sunward of
the geocentre. -/
def Penumbra (Re Rs AU : ℝ) (rsat rsun : V3) : Prop :=
  0 < behind rsat rsun ∧
    offAxis rsat rsun ≤ tan (arcsin ((Rs + Re) / AU)) * (Re / ((Rs + Re) / AU) + behind rsat rsun)

/-- The umbra: behind the Earth, in the cone that touches Sun and Earth from outside. Its apex is behind the
Earth. -/
def Umbra (Re Rs AU : ℝ) (rsat rsun : V3) : Prop :=
  0 < behind rsat rsun ∧
    offAxis rsat rsun ≤ tan (arcsin ((Rs - Re) / AU)) * (Re / ((Rs - Re) / AU) - behind rsat rsun)

/-- The function in terms of the two distances: the distance behind the Earth enters with the wrong sign. -/
theorem vallado_value (Re Rs AU : ℝ) (rsat rsun : V3) (hsun : 0 < rsun.norm) :
    valladoShadow Re Rs AU rsat rsun =
      open Classical in
      if behind rsat rsun ≤ 0 then 1
      else if offAxis rsat rsun ≤ tan (arcsin ((Rs + Re) / AU)) * (Re / ((Rs + Re) / AU) - behind rsat rsun) then
        if offAxis rsat rsun ≤ tan (arcsin ((Rs - Re) / AU)) * (Re / ((Rs - Re) / AU) + behind rsat rsun) then 0
        else 1 / 2
      else 1 := by
  have hb : behind rsat rsun ≤ 0 ↔ rsat.dot rsun ≥ 0 := by
    unfold behind
    rw [neg_nonpos, le_div_iff₀ hsun, zero_mul]
  unfold valladoShadow
  simp only [hb]
  by_cases hprod : rsat.dot rsun ≥ 0
  · rw [if_pos hprod, if_pos hprod]
  rw [if_neg hprod, if_neg hprod]
  have hsat : 0 < rsat.norm := by
    rcases (V3.norm_nonneg rsat).lt_or_eq with h | h
    · exact h
    · exfalso
      have hc := cauchy rsat rsun
      rw [← h, zero_mul] at hc
      linarith [hc.1, hc.2, not_le.1 hprod]
  have hc := cauchy rsat rsun
  have h1 : rsat.norm * (rsat.dot rsun / (rsat.norm * rsun.norm)) = -behind rsat rsun := by
    unfold behind
    field_simp
  have h2 : rsat.norm * sin (arccos (rsat.dot rsun / (rsat.norm * rsun.norm))) = offAxis rsat rsun := by
    unfold offAxis
    rw [sin_arccos]
    have hx : (rsat.cross rsun).norm = √((rsat.norm * rsun.norm) ^ 2 - rsat.dot rsun ^ 2) := by
      unfold V3.norm
      congr 1
      have e : (rsat.cross rsun).dot (rsat.cross rsun) = rsat.dot rsat * rsun.dot rsun - rsat.dot rsun * rsat.dot rsun := by
        simp only [V3.dot, V3.cross]
        ring
      rw [e, mul_pow, sq_sqrt (V3.dot_self_nonneg _), sq_sqrt (V3.dot_self_nonneg _)]
      ring
    have hpp : 0 < rsat.norm * rsun.norm := mul_pos hsat hsun
    rw [hx, show 1 - (rsat.dot rsun / (rsat.norm * rsun.norm)) ^ 2 =
      ((rsat.norm * rsun.norm) ^ 2 - rsat.dot rsun ^ 2) / (rsat.norm * rsun.norm) ^ 2 by field_simp,
      sqrt_div' _ (by positivity), sqrt_sq hpp.le]
    field_simp
  rw [h1, h2, sub_neg_eq_add, ← sub_eq_add_neg]

theorem cone_tan (s : ℝ) (h0 : 0 < s) (h1 : s < 1) : 0 < tan (arcsin s) ∧ 0 < cos (arcsin s) ∧
    tan (arcsin s) * cos (arcsin s) = s := by
  have hc : 0 < cos (arcsin s) := by
    apply cos_pos_of_mem_Ioo
    exact ⟨neg_pi_div_two_lt_arcsin.2 (by linarith), arcsin_lt_pi_div_two.2 h1⟩
  have ht : tan (arcsin s) * cos (arcsin s) = s := by
    rw [tan_mul_cos hc.ne', sin_arcsin (by linarith) h1.le]
  exact ⟨(mul_pos_iff_of_pos_right hc).1 (by rw [ht]; exact h0), hc, ht⟩

/-- **C90** (partial) What is right: the values are 0, 1/2 and 1; a satellite on the sunward side is in light; a
satellite that is said to be in shadow is in the penumbra; one that is in the umbra and said to be in shadow
gets 0.  Missing: that every satellite in shadow is reported, and that 0 means umbra; see the
counterexamples. -/
theorem vallado_shadow_partial (Re Rs AU : ℝ) (rsat rsun : V3) (hRe : 0 < Re) (hRs : Re < Rs) (hAU : Rs + Re < AU)
    (hsun : 0 < rsun.norm) :
    (valladoShadow Re Rs AU rsat rsun = 0 ∨ valladoShadow Re Rs AU rsat rsun = 1 / 2 ∨
      valladoShadow Re Rs AU rsat rsun = 1) ∧
    (behind rsat rsun ≤ 0 → valladoShadow Re Rs AU rsat rsun = 1) ∧
    (valladoShadow Re Rs AU rsat rsun ≠ 1 → Penumbra Re Rs AU rsat rsun) ∧
    (Umbra Re Rs AU rsat rsun → valladoShadow Re Rs AU rsat rsun = 0 ∨ valladoShadow Re Rs AU rsat rsun = 1) := by
  rw [vallado_value Re Rs AU rsat rsun hsun]
  have hA : 0 < AU := by linarith
  have t1 := (cone_tan ((Rs + Re) / AU) (div_pos (by linarith) hA) ((div_lt_one hA).2 hAU)).1
  have t2 := (cone_tan ((Rs - Re) / AU) (div_pos (by linarith) hA) ((div_lt_one hA).2 (by linarith))).1
  unfold Penumbra Umbra
  generalize behind rsat rsun = b
  generalize offAxis rsat rsun = v
  generalize tan (arcsin ((Rs + Re) / AU)) = p at *
  generalize tan (arcsin ((Rs - Re) / AU)) = q at *
  generalize Re / ((Rs + Re) / AU) = x
  generalize Re / ((Rs - Re) / AU) = y
  refine ⟨?_, ?_, ?_, ?_⟩
  · split
    · simp
    · split
      · split <;> simp
      · simp
  · intro h
    rw [if_pos h]
  · intro h
    by_cases hb : b ≤ 0
    · rw [if_pos hb] at h
      exact absurd rfl h
    · rw [if_neg hb] at h
      by_cases hv : v ≤ p * (x - b)
      · refine ⟨not_le.1 hb, ?_⟩
        nlinarith [not_le.1 hb]
      · rw [if_neg hv] at h
        exact absurd rfl h
  · rintro ⟨hb, hv⟩
    rw [if_neg (not_le.2 hb), if_pos (show v ≤ q * (y + b) by nlinarith)]
    split <;> simp

/-- The sign error makes the penumbra vanish: no satellite an Earth radius or more behind the Earth is ever
reported in penumbra, and one that is just an Earth radius off the axis, at any distance of an Earth radius
or more behind, is in the penumbra but reported in full light. -/
theorem vallado_penumbra_counterexample (Re Rs AU : ℝ) (rsat rsun : V3) (hRe : 0 < Re) (hRs : Re < Rs)
    (hAU : Rs + Re < AU) (hsun : 0 < rsun.norm) (hb : Re ≤ behind rsat rsun) :
    valladoShadow Re Rs AU rsat rsun ≠ 1 / 2 ∧
    (offAxis rsat rsun = Re → Penumbra Re Rs AU rsat rsun ∧ valladoShadow Re Rs AU rsat rsun = 1) := by
  rw [vallado_value Re Rs AU rsat rsun hsun]
  have hA : 0 < AU := by linarith
  have s1 : 0 < (Rs + Re) / AU := div_pos (by linarith) hA
  have s2 : 0 < (Rs - Re) / AU := div_pos (by linarith) hA
  obtain ⟨t1, c1, e1⟩ := cone_tan ((Rs + Re) / AU) s1 ((div_lt_one hA).2 hAU)
  obtain ⟨t2, c2, e2⟩ := cone_tan ((Rs - Re) / AU) s2 ((div_lt_one hA).2 (by linarith))
  have n1 := cos_le_one (arcsin ((Rs + Re) / AU))
  have n2 := cos_le_one (arcsin ((Rs - Re) / AU))
  have hsc : sin (arcsin ((Rs + Re) / AU)) ^ 2 + cos (arcsin ((Rs + Re) / AU)) ^ 2 = 1 := sin_sq_add_cos_sq _
  rw [sin_arcsin (by linarith) ((div_le_one hA).2 hAU.le)] at hsc
  unfold Penumbra
  generalize behind rsat rsun = b at *
  generalize offAxis rsat rsun = v
  generalize tan (arcsin ((Rs + Re) / AU)) = p at *
  generalize tan (arcsin ((Rs - Re) / AU)) = q at *
  generalize cos (arcsin ((Rs + Re) / AU)) = c at *
  generalize cos (arcsin ((Rs - Re) / AU)) = c' at *
  generalize (Rs + Re) / AU = s at *
  generalize (Rs - Re) / AU = s' at *
  have hx : p * (Re / s) * c = Re := by
    rw [show p * (Re / s) * c = p * c * Re / s by ring, e1]
    field_simp
  have hy : q * (Re / s') * c' = Re := by
    rw [show q * (Re / s') * c' = q * c' * Re / s' by ring, e2]
    field_simp
  have hbp : 0 < b := by linarith
  -- 1 < s + c
  have hone : 1 < s + c := by nlinarith
  have hpx : p * (Re / s) < p * b + Re := by
    have : p * (Re / s) * c < (p * b + Re) * c := by
      rw [hx]
      have : s * Re ≤ s * b := by nlinarith
      nlinarith
    exact lt_of_mul_lt_mul_right this c1.le
  have hqy : Re ≤ q * (Re / s') := by
    have h0 : 0 ≤ q * (Re / s') := by positivity
    nlinarith
  have hlight : ∀ w, Re ≤ w → ¬ w ≤ p * (Re / s - b) := by
    intro w hw hc
    rw [mul_sub] at hc
    linarith
  constructor
  · rw [if_neg (not_le.2 hbp)]
    split
    · rename_i hv
      rw [if_pos]
      · norm_num
      · rw [mul_sub] at hv
        have : 0 < q * b := mul_pos t2 hbp
        nlinarith
    · norm_num
  · rintro rfl
    refine ⟨⟨hbp, ?_⟩, ?_⟩
    · have : v ≤ p * (v / s) := by
        have h0 : 0 ≤ p * (v / s) := by positivity
        nlinarith
      have : 0 < p * b := mul_pos t1 hbp
      rw [mul_add]
      linarith
    · rw [if_neg (not_le.2 hbp), if_neg (hlight v le_rfl)]

example : 0 < V3.norm ⟨4, 0, 0⟩ ∧ 1 ≤ behind ⟨-2, 1, 0⟩ ⟨4, 0, 0⟩ ∧ offAxis ⟨-2, 1, 0⟩ ⟨4, 0, 0⟩ = 1 := by
  have h4 : V3.norm ⟨4, 0, 0⟩ = 4 := by
    unfold V3.norm
    rw [show V3.dot ⟨4, 0, 0⟩ ⟨4, 0, 0⟩ = (4 : ℝ) ^ 2 by norm_num [V3.dot], sqrt_sq (by norm_num)]
  have hc : V3.norm (V3.cross ⟨-2, 1, 0⟩ ⟨4, 0, 0⟩) = 4 := by
    unfold V3.norm
    rw [show V3.dot (V3.cross ⟨-2, 1, 0⟩ ⟨4, 0, 0⟩) (V3.cross ⟨-2, 1, 0⟩ ⟨4, 0, 0⟩) = (4 : ℝ) ^ 2 by
      norm_num [V3.dot, V3.cross], sqrt_sq (by norm_num)]
  refine ⟨by rw [h4]; norm_num, ?_, ?_⟩
  · unfold behind
    rw [h4]
    norm_num [V3.dot]
  · unfold offAxis
    rw [hc, h4]
    norm_num

/-- On the axis behind the Earth, from the distance where the penumbra has its mirrored apex up to the tip
of the umbra, a satellite is in the umbra but reported in full light. -/
theorem vallado_umbra_counterexample (Re Rs AU : ℝ) (rsat rsun : V3) (hRe : 0 < Re) (hRs : Re < Rs)
    (hAU : Rs + Re < AU) (hsun : 0 < rsun.norm) (haxis : offAxis rsat rsun = 0)
    (h1 : Re / ((Rs + Re) / AU) < behind rsat rsun) (h2 : behind rsat rsun ≤ Re / ((Rs - Re) / AU)) :
    Umbra Re Rs AU rsat rsun ∧ valladoShadow Re Rs AU rsat rsun = 1 := by
  have hA : 0 < AU := by linarith
  have s1 : 0 < (Rs + Re) / AU := div_pos (by linarith) hA
  have s2 : 0 < (Rs - Re) / AU := div_pos (by linarith) hA
  obtain ⟨t1, -, -⟩ := cone_tan ((Rs + Re) / AU) s1 ((div_lt_one hA).2 hAU)
  obtain ⟨t2, -, -⟩ := cone_tan ((Rs - Re) / AU) s2 ((div_lt_one hA).2 (by linarith))
  have hb : 0 < behind rsat rsun := lt_trans (div_pos hRe s1) h1
  refine ⟨⟨hb, ?_⟩, ?_⟩
  · rw [haxis]
    exact mul_nonneg t2.le (by linarith)
  · rw [vallado_value Re Rs AU rsat rsun hsun, if_neg (not_le.2 hb), if_neg]
    rw [haxis]
    exact not_le.2 (mul_neg_of_pos_of_neg t1 (by linarith))

example : Umbra 1 3 10 ⟨-3, 0, 0⟩ ⟨10, 0, 0⟩ ∧ valladoShadow 1 3 10 ⟨-3, 0, 0⟩ ⟨10, 0, 0⟩ = 1 := by
  have h10 : V3.norm ⟨10, 0, 0⟩ = 10 := by
    unfold V3.norm
    rw [show V3.dot ⟨10, 0, 0⟩ ⟨10, 0, 0⟩ = (10 : ℝ) ^ 2 by norm_num [V3.dot], sqrt_sq (by norm_num)]
  apply vallado_umbra_counterexample 1 3 10 <;> try norm_num
  · rw [h10]
    norm_num
  · unfold offAxis V3.norm
    norm_num [V3.cross, V3.dot]
  · unfold behind
    rw [h10]
    norm_num [V3.dot]
  · unfold behind
    rw [h10]
    norm_num [V3.dot]

end Verif.Forces
