import Verif.Float.CylinderLemmas
import Verif.Float.ShadowProps
import Verif.Forces.Frames

/-
C121: the cylindrical shadow test in double arithmetic.
-/
namespace Verif.Float

open Verif.Astro (V3)
open Verif.Forces
open Real

variable {rnd : ℝ → ℝ}

/-- The vector from the axis to the satellite has the length `offAxis`. -/
theorem reject_norm (r s : V3) (hs : 0 < s.norm) :
    (r.sub ((s.smul (1 / s.norm)).smul (r.dot (s.smul (1 / s.norm))))).norm = offAxis r s := by
  have q := V3.norm_sq s
  have hsd : 0 < s.dot s := by rw [← q]; exact mul_pos hs hs
  unfold offAxis
  have e : (r.sub ((s.smul (1 / s.norm)).smul (r.dot (s.smul (1 / s.norm))))).dot
      (r.sub ((s.smul (1 / s.norm)).smul (r.dot (s.smul (1 / s.norm))))) =
      (r.cross s).dot (r.cross s) / (s.norm * s.norm) := by
    rw [eq_div_iff (mul_pos hs hs).ne']
    set n := s.norm with hn
    have hi : n * (1 / n) = 1 := by field_simp
    set k := 1 / n with hk
    have q' : n * n = s.x * s.x + s.y * s.y + s.z * s.z := q
    have hk2 : k * k * (s.x * s.x + s.y * s.y + s.z * s.z) = 1 := by
      rw [← q']; linear_combination (n * k + 1) * hi
    have key : (r.sub ((s.smul k).smul (r.dot (s.smul k)))).dot
        (r.sub ((s.smul k).smul (r.dot (s.smul k)))) =
        r.dot r - (k * k) * (r.dot s * r.dot s) := by
      simp only [V3.dot, V3.sub, V3.smul]
      linear_combination (k * k) * (r.x * s.x + r.y * s.y + r.z * s.z) ^ 2 * hk2
    have hnk : n * n * (k * k) = 1 := by linear_combination (n * k + 1) * hi
    rw [key]
    have : (r.dot r - k * k * (r.dot s * r.dot s)) * (n * n) =
        r.dot r * (n * n) - r.dot s * r.dot s := by
      linear_combination (-(r.dot s * r.dot s)) * hnk
    rw [this, q']
    simp only [V3.dot, V3.cross]
    ring
  show √_ = √_ / _
  rw [e, Real.sqrt_div' _ (mul_pos hs hs).le, Real.sqrt_mul_self hs.le]

/-- The projection and every component of the distance vector, with their errors. -/
theorem projectD_err (hr : Nearest rnd) (fused : Bool) (rsat rsun : V3)
    (hR : 2 ^ (-500 : ℤ) ≤ rsat.norm) (hS : 2 ^ (-500 : ℤ) ≤ rsun.norm) :
    |(projectD rnd fused rsat rsun).1 - -behind rsat rsun| ≤ 45 * (u * rsat.norm) ∧
    abs ((projectD rnd fused rsat rsun).2.norm - offAxis rsat rsun) ≤ 128 * (u * rsat.norm) := by
  have hn : 0 < rsun.norm := lt_of_lt_of_le (zpow_pos (by norm_num) _) hS
  have en := normD_err hr fused rsun hS
  obtain ⟨cx, cy, cz⟩ := comp_le rsun
  obtain ⟨rx, ry, rz⟩ := comp_le rsat
  have le1 : ∀ t : ℝ, |t| ≤ rsun.norm → |1 / rsun.norm * t| ≤ 1 := fun t ht => by
    rw [one_div, inv_mul_eq_div, abs_div, abs_of_pos hn]; exact (div_le_one hn).2 ht
  have ue : ∀ t : ℝ, |t| ≤ rsun.norm →
      |rnd (t / normD rnd fused rsun) - 1 / rsun.norm * t| ≤ 10 * u := fun t ht => by
    rw [one_div, inv_mul_eq_div]; exact unit_err hr hn en ht
  set w := rsun.smul (1 / rsun.norm) with hw
  have hs := proj_err hr rsat w ⟨rnd (rsun.x / normD rnd fused rsun),
    rnd (rsun.y / normD rnd fused rsun), rnd (rsun.z / normD rnd fused rsun)⟩ hR rx ry rz
    (le1 _ cx) (le1 _ cy) (le1 _ cz) (ue _ cx) (ue _ cy) (ue _ cz)
  have hb : rsat.dot w = -behind rsat rsun := by
    rw [hw, dot_smul]; unfold behind; ring
  have hsR : |rsat.dot w| ≤ rsat.norm := by
    apply abs_le_of_sq_le_sq _ (V3.norm_nonneg _)
    have h1 := unit_dot rsun hn
    rw [← hw] at h1
    rw [sq, sq, V3.norm_sq]
    have : rsat.dot w * rsat.dot w ≤ rsat.dot rsat * w.dot w := by
      simp only [V3.dot]
      nlinarith [sq_nonneg (rsat.x * w.y - rsat.y * w.x), sq_nonneg (rsat.y * w.z - rsat.z * w.y),
        sq_nonneg (rsat.z * w.x - rsat.x * w.z)]
    rw [h1, mul_one] at this
    exact this
  constructor
  · rw [← hb]; exact hs
  · rw [← reject_norm rsat rsun hn, ← hw]
    have := norm_diff (projectD rnd fused rsat rsun).2 (rsat.sub (w.smul (rsat.dot w)))
      (E := 64 * (u * rsat.norm))
      (reject_err hr hR rx (le1 _ cx) (ue _ cx) hsR hs)
      (reject_err hr hR ry (le1 _ cy) (ue _ cy) hsR hs)
      (reject_err hr hR rz (le1 _ cz) (ue _ cz) hsR hs)
    linarith

theorem offAxis_le (r s : V3) (hs : 0 < s.norm) : offAxis r s ≤ r.norm := by
  unfold offAxis
  rw [div_le_iff₀ hs]
  apply le_of_abs_le
  apply abs_le_of_sq_le_sq _ (mul_nonneg (V3.norm_nonneg _) hs.le)
  rw [mul_pow, sq, sq, sq, V3.norm_sq, V3.norm_sq, V3.norm_sq]
  simp only [V3.dot, V3.cross]
  nlinarith [sq_nonneg (r.x * s.x + r.y * s.y + r.z * s.z)]

/-- **C121 (d)** `montebruck_shadow` in double arithmetic decides as the exact cylinder outside a
margin of 150 u times the distance of the satellite (0.12 micrometres at 7000 km) about its
boundary: light on the sunlit side, light outside the cylinder, dark in the cylinder behind the
Earth. -/
theorem cylinder_margin_partial (hr : Nearest rnd) (fused : Bool) (Re : ℝ) (rsat rsun : V3)
    (hR : 2 ^ (-500 : ℤ) ≤ rsat.norm) (hS : 2 ^ (-500 : ℤ) ≤ rsun.norm) (hRe : 1 ≤ Re) :
    (behind rsat rsun < -(150 * u * rsat.norm) → montebruckShadowD rnd fused Re rsat rsun = 1) ∧
    (Re + 150 * u * rsat.norm < offAxis rsat rsun → montebruckShadowD rnd fused Re rsat rsun = 1) ∧
    (150 * u * rsat.norm < behind rsat rsun → offAxis rsat rsun < Re - 150 * u * rsat.norm →
      montebruckShadowD rnd fused Re rsat rsun = 0) := by
  have hu := u_pos
  have hu' := u_small
  obtain ⟨e1, e2⟩ := projectD_err hr fused rsat rsun hR hS
  have hn : 0 < rsun.norm := lt_of_lt_of_le (zpow_pos (by norm_num) _) hS
  have hR0 : 0 < rsat.norm := lt_of_lt_of_le (zpow_pos (by norm_num) _) hR
  have ho := offAxis_le rsat rsun hn
  have huR0 := mul_pos hu hR0
  have huR : u * rsat.norm ≤ rsat.norm / 1000000000000000 := by
    have := mul_le_mul_of_nonneg_right hu' hR0.le; linarith
  rw [abs_le] at e1 e2
  have tiny : (2 : ℝ) ^ (-500 : ℤ) ≤ 1 / 2 := by
    have : (2 : ℝ) ^ (-500 : ℤ) ≤ 2 ^ (-1 : ℤ) := zpow_le_zpow_right₀ (by norm_num) (by norm_num)
    rw [zpow_neg_one] at this; linarith
  set p := projectD rnd fused rsat rsun with hp
  have hpn : u * p.2.norm ≤ 1.1 * (u * rsat.norm) := by
    have : p.2.norm ≤ 1.1 * rsat.norm := by linarith
    have := mul_le_mul_of_nonneg_left this hu.le
    linarith
  unfold montebruckShadowD
  simp only [← hp]
  refine ⟨fun h => if_pos (Or.inl ?_), fun h => if_pos (Or.inr ?_), fun h h' => if_neg ?_⟩
  · show 0 < p.1
    linarith
  · have e3 := normD_err hr fused p.2 (by linarith)
    rw [abs_le] at e3
    show Re < _
    linarith
  · rw [not_or, not_lt, not_lt]
    refine ⟨by linarith, ?_⟩
    by_cases hc : 2 ^ (-500 : ℤ) ≤ p.2.norm
    · have := normD_le hr fused p.2 hc le_rfl
      linarith
    · have := normD_le hr fused p.2 le_rfl (not_le.1 hc).le
      have h8 : u * (2 : ℝ) ^ (-500 : ℤ) ≤ u * (1 / 2) := mul_le_mul_of_nonneg_left tiny hu.le
      linarith

/-- The margin in metres for a satellite at up to 7 200 km. -/
theorem margin_metres (R : ℝ) (hR : R ≤ 7200000) : 150 * u * R ≤ 0.00000012 := by
  have : 150 * u * R ≤ 150 * u * 7200000 := mul_le_mul_of_nonneg_left hR (by linarith [u_pos])
  refine this.trans ?_
  unfold u
  norm_num

/-- A satellite behind the Earth on the axis, where the other functions fail, is dark. -/
example (hr : Nearest rnd) (fused : Bool) :
    montebruckShadowD rnd fused 6378136.6 ⟨-7707000, 0, 0⟩ ⟨149597870700, 0, 0⟩ = 0 := by
  have n1 : (⟨-7707000, 0, 0⟩ : V3).norm = 7707000 := by
    unfold V3.norm V3.dot
    rw [show (-7707000 * -7707000 + 0 * 0 + 0 * 0 : ℝ) = 7707000 * 7707000 by norm_num,
      Real.sqrt_mul_self (by norm_num)]
  have n2 : (⟨149597870700, 0, 0⟩ : V3).norm = 149597870700 := by
    unfold V3.norm V3.dot
    rw [show (149597870700 * 149597870700 + 0 * 0 + 0 * 0 : ℝ) = 149597870700 * 149597870700 by
      norm_num, Real.sqrt_mul_self (by norm_num)]
  have hb : behind ⟨-7707000, 0, 0⟩ ⟨149597870700, 0, 0⟩ = 7707000 := by
    unfold behind; rw [n2]; unfold V3.dot; norm_num
  have ho : offAxis ⟨-7707000, 0, 0⟩ ⟨149597870700, 0, 0⟩ = 0 := by
    unfold offAxis; rw [n2]; unfold V3.cross V3.norm V3.dot; norm_num
  have t : (2 : ℝ) ^ (-500 : ℤ) ≤ 1 := by
    have : (2 : ℝ) ^ (-500 : ℤ) ≤ 2 ^ (0 : ℤ) := zpow_le_zpow_right₀ (by norm_num) (by norm_num)
    rwa [zpow_zero] at this
  have hu := u_small
  have hu0 := u_pos
  refine (cylinder_margin_partial hr fused 6378136.6 _ _ (by rw [n1]; linarith)
    (by rw [n2]; linarith) (by norm_num)).2.2 ?_ ?_
  · rw [n1, hb]; linarith
  · rw [n1, ho]; linarith

end Verif.Float
