import Verif.Filters.KalmanPyModel
import Mathlib.LinearAlgebra.Matrix.Determinant.Basic
import Mathlib.Tactic.FieldSimp
import Mathlib.Tactic.Ring
import Mathlib.Tactic.Linarith
import Mathlib.Tactic.Positivity
import Mathlib.Tactic.FinCases
import Mathlib.Algebra.Order.Archimedean.Basic

/- C143. -/
namespace Verif.Filters.KalmanPy

open Matrix

variable {K : Type} [Field K] [LinearOrder K] [IsStrictOrderedRing K]

/-! ### Specification -/

/-- A covariance matrix: symmetric and positive definite. -/
structure Cov (P : Matrix (Fin 2) (Fin 2) K) : Prop where
  symm : P 1 0 = P 0 1
  pos : 0 < P 0 0
  det : 0 < P 0 0 * P 1 1 - P 0 1 * P 0 1

/-- The quadratic form of the inverse of `P`. -/
def infoForm (P : Matrix (Fin 2) (Fin 2) K) (v : Fin 2 → K) : K :=
  (P 1 1 * v 0 ^ 2 - 2 * P 0 1 * v 0 * v 1 + P 0 0 * v 1 ^ 2) / (P 0 0 * P 1 1 - P 0 1 * P 0 1)

/-- What the fitted line `u 0 + u 1 (t - tref)` costs: distance from the a priori line plus the squared
residuals, weighted. -/
def cost (x0 : Fin 2 → K) (P0 : Matrix (Fin 2) (Fin 2) K) (tref R : K) (obs : List (K × K)) (u : Fin 2 → K) : K :=
  infoForm P0 (u - x0) + (obs.map fun o => (o.2 - (u 0 + u 1 * (o.1 - tref))) ^ 2 / R).sum

/-- `infoForm` belongs to the inverse of the matrix. -/
theorem infoForm_inverse (P : Matrix (Fin 2) (Fin 2) K) (hP : Cov P) (v : Fin 2 → K) :
    infoForm P (P *ᵥ v) = v ⬝ᵥ (P *ᵥ v) := by
  have hd := hP.det.ne'
  unfold infoForm
  simp only [Matrix.mulVec, dotProduct, Fin.sum_univ_two, hP.symm]
  rw [div_eq_iff hd]
  ring

/-! ### One observation -/

theorem entries (f : Filter K) (z t : K) (hQ : f.Q = 0) (hs : f.P 1 0 = f.P 0 1) :
    innovation f z t = z - (f.x 0 + (t - f.tref) * f.x 1) ∧
    varS f t = f.P 0 0 + 2 * f.P 0 1 * (t - f.tref) + f.P 1 1 * (t - f.tref) ^ 2 + f.R ∧
    gain f t 0 = (f.P 0 0 + f.P 0 1 * (t - f.tref)) / varS f t ∧
    gain f t 1 = (f.P 0 1 + f.P 1 1 * (t - f.tref)) / varS f t := by
  refine ⟨?_, ?_, ?_, ?_⟩
  · simp [innovation, rowH, dotProduct, Fin.sum_univ_two]
  · simp [varS, newP, rowH, hQ, dotProduct, Fin.sum_univ_two, Matrix.vecMul, hs]
    ring
  · simp [gain, newP, rowH, hQ, dotProduct, Fin.sum_univ_two, Matrix.mulVec]
    ring
  · simp [gain, newP, rowH, hQ, dotProduct, Fin.sum_univ_two, Matrix.mulVec, hs]
    ring

theorem cov_diag {P : Matrix (Fin 2) (Fin 2) K} (hP : Cov P) : 0 < P 1 1 := by
  have h1 := hP.det
  have h2 := hP.pos
  have h3 := mul_self_nonneg (P 0 1)
  by_contra h
  have : P 0 0 * P 1 1 ≤ 0 := mul_nonpos_of_nonneg_of_nonpos h2.le (not_lt.1 h)
  linarith

/-- The variance of an observation predicted from a covariance matrix is positive. -/
theorem varS_pos (f : Filter K) (t : K) (hQ : f.Q = 0) (hP : Cov f.P) (hR : 0 < f.R) : 0 < varS f t := by
  obtain ⟨-, h, -, -⟩ := entries f 0 t hQ hP.symm
  rw [h]
  have h1 := hP.det
  have h2 := hP.pos
  have h3 : 0 ≤ f.P 0 0 * (f.P 0 0 + 2 * f.P 0 1 * (t - f.tref) + f.P 1 1 * (t - f.tref) ^ 2) := by
    have e : f.P 0 0 * (f.P 0 0 + 2 * f.P 0 1 * (t - f.tref) + f.P 1 1 * (t - f.tref) ^ 2) =
      (f.P 0 0 + f.P 0 1 * (t - f.tref)) ^ 2 + (f.P 0 0 * f.P 1 1 - f.P 0 1 * f.P 0 1) * (t - f.tref) ^ 2 := by ring
    rw [e]
    positivity
  have h4 := nonneg_of_mul_nonneg_right h3 h2
  linarith

/-- The covariance after an observation, entry by entry. -/
theorem cov_entries (f : Filter K) (z t : K) (hQ : f.Q = 0) (hP : Cov f.P) (hR : 0 < f.R) :
    (update f z t).P 0 0 = ((f.P 0 0 * f.P 1 1 - f.P 0 1 * f.P 0 1) * (t - f.tref) ^ 2 + f.P 0 0 * f.R) / varS f t ∧
    (update f z t).P 0 1 = (-(f.P 0 0 * f.P 1 1 - f.P 0 1 * f.P 0 1) * (t - f.tref) + f.P 0 1 * f.R) / varS f t ∧
    (update f z t).P 1 0 = (-(f.P 0 0 * f.P 1 1 - f.P 0 1 * f.P 0 1) * (t - f.tref) + f.P 0 1 * f.R) / varS f t ∧
    (update f z t).P 1 1 = ((f.P 0 0 * f.P 1 1 - f.P 0 1 * f.P 0 1) + f.P 1 1 * f.R) / varS f t := by
  obtain ⟨-, hv, g0, g1⟩ := entries f z t hQ hP.symm
  have hS := (varS_pos f t hQ hP hR).ne'
  have e : (update f z t).P = (1 - vecMulVec (gain f t) (rowH f t)) * f.P := by
    simp [update, newP, hQ]
  rw [e]
  refine ⟨?_, ?_, ?_, ?_⟩ <;>
  · simp only [Matrix.mul_apply, Fin.sum_univ_two, Matrix.sub_apply, vecMulVec_apply, rowH, Matrix.one_apply_eq,
      Matrix.one_apply_ne (show (0 : Fin 2) ≠ 1 by decide), Matrix.one_apply_ne (show (1 : Fin 2) ≠ 0 by decide),
      Matrix.cons_val_zero, Matrix.cons_val_one, g0, g1, hP.symm]
    generalize hvv : varS f t = S at hv hS ⊢
    field_simp
    rw [hv]
    ring

/-- **C143 (a)** an observation keeps the matrix a covariance matrix, and its determinant shrinks by
`R / S`. -/
theorem update_cov (f : Filter K) (z t : K) (hQ : f.Q = 0) (hP : Cov f.P) (hR : 0 < f.R) :
    Cov (update f z t).P ∧
    (update f z t).P 0 0 * (update f z t).P 1 1 - (update f z t).P 0 1 * (update f z t).P 0 1 =
      (f.P 0 0 * f.P 1 1 - f.P 0 1 * f.P 0 1) * f.R / varS f t := by
  obtain ⟨e00, e01, e10, e11⟩ := cov_entries f z t hQ hP hR
  have hS := varS_pos f t hQ hP hR
  have hd := hP.det
  have h0 := hP.pos
  have hdet : (update f z t).P 0 0 * (update f z t).P 1 1 - (update f z t).P 0 1 * (update f z t).P 0 1 =
      (f.P 0 0 * f.P 1 1 - f.P 0 1 * f.P 0 1) * f.R / varS f t := by
    obtain ⟨-, hv, -, -⟩ := entries f z t hQ hP.symm
    rw [e00, e01, e11]
    have hS' := hS.ne'
    generalize hvv : varS f t = S at hv hS' ⊢
    field_simp
    rw [hv]
    ring
  refine ⟨⟨e10.trans e01.symm, ?_, ?_⟩, hdet⟩
  · rw [e00]
    positivity
  · rw [hdet]
    positivity

/-- The information form after an observation. -/
theorem info_update (f : Filter K) (z t : K) (hQ : f.Q = 0) (hP : Cov f.P) (hR : 0 < f.R) (v : Fin 2 → K) :
    infoForm (update f z t).P v = infoForm f.P v + (v 0 + v 1 * (t - f.tref)) ^ 2 / f.R := by
  obtain ⟨e00, e01, e10, e11⟩ := cov_entries f z t hQ hP hR
  obtain ⟨-, hdet⟩ := update_cov f z t hQ hP hR
  unfold infoForm
  rw [hdet, e00, e01, e11]
  have hS := (varS_pos f t hQ hP hR).ne'
  have hd := hP.det.ne'
  have hR' := hR.ne'
  generalize varS f t = S at hS ⊢
  generalize f.P 0 0 * f.P 1 1 - f.P 0 1 * f.P 0 1 = D at hd ⊢
  field_simp
  ring

/-- The information form about a point moved along `P h`. -/
theorem info_shift (P : Matrix (Fin 2) (Fin 2) K) (hP : Cov P) (T r : K) (v w : Fin 2 → K)
    (h0 : w 0 = v 0 - r * (P 0 0 + P 0 1 * T)) (h1 : w 1 = v 1 - r * (P 0 1 + P 1 1 * T)) :
    infoForm P w = infoForm P v - 2 * r * (v 0 + v 1 * T) + r ^ 2 * (P 0 0 + 2 * P 0 1 * T + P 1 1 * T ^ 2) := by
  have hd := hP.det.ne'
  unfold infoForm
  rw [h0, h1, div_eq_iff hd, add_mul, sub_mul, div_mul_cancel₀ _ hd]
  ring

/-- Completing the square: an observation moves the minimum to the new estimate. -/
theorem square_update (f : Filter K) (z t : K) (hQ : f.Q = 0) (hP : Cov f.P) (hR : 0 < f.R) (u : Fin 2 → K) :
    infoForm f.P (u - f.x) + (z - (u 0 + u 1 * (t - f.tref))) ^ 2 / f.R =
      infoForm (update f z t).P (u - (update f z t).x) + innovation f z t ^ 2 / varS f t := by
  obtain ⟨hi, hv, g0, g1⟩ := entries f z t hQ hP.symm
  have hx : (update f z t).x = f.x + innovation f z t • gain f t := by simp [update]
  have hS := (varS_pos f t hQ hP hR).ne'
  have hR' := hR.ne'
  rw [info_update f z t hQ hP hR, info_shift f.P hP (t - f.tref) (innovation f z t / varS f t) (u - f.x)
    (u - (update f z t).x)
    (by rw [hx]; simp only [Pi.sub_apply, Pi.add_apply, Pi.smul_apply, smul_eq_mul, g0]; ring)
    (by rw [hx]; simp only [Pi.sub_apply, Pi.add_apply, Pi.smul_apply, smul_eq_mul, g1]; ring), hx]
  have hh : f.P 0 0 + 2 * f.P 0 1 * (t - f.tref) + f.P 1 1 * (t - f.tref) ^ 2 = varS f t - f.R := by rw [hv]; ring
  have hz : z - (u 0 + u 1 * (t - f.tref)) =
      innovation f z t - ((u - f.x) 0 + (u - f.x) 1 * (t - f.tref)) := by
    rw [hi]; simp only [Pi.sub_apply]; ring
  have hw : (u - (f.x + innovation f z t • gain f t)) 0 + (u - (f.x + innovation f z t • gain f t)) 1 * (t - f.tref) =
      ((u - f.x) 0 + (u - f.x) 1 * (t - f.tref)) - innovation f z t * (varS f t - f.R) / varS f t := by
    rw [← hh]
    simp only [Pi.sub_apply, Pi.add_apply, Pi.smul_apply, smul_eq_mul, g0, g1]
    ring
  rw [hh, hz, hw]
  generalize infoForm f.P (u - f.x) = q
  generalize (u - f.x) 0 + (u - f.x) 1 * (t - f.tref) = c
  generalize innovation f z t = y
  generalize varS f t = S at hS ⊢
  generalize f.R = R at hR' ⊢
  field_simp
  ring

/-! ### All observations -/

theorem update_fields (f : Filter K) (z t : K) :
    (update f z t).tref = f.tref ∧ (update f z t).R = f.R ∧ (update f z t).Q = f.Q := ⟨rfl, rfl, rfl⟩

theorem run_cov (f : Filter K) (obs : List (K × K)) (hQ : f.Q = 0) (hP : Cov f.P) (hR : 0 < f.R) :
    Cov (run f obs).P ∧ (run f obs).tref = f.tref ∧ (run f obs).R = f.R ∧ (run f obs).Q = f.Q := by
  induction obs generalizing f with
  | nil => exact ⟨hP, rfl, rfl, rfl⟩
  | cons o os ih => exact ih (update f o.2 o.1) hQ (update_cov f o.2 o.1 hQ hP hR).1 hR

theorem run_square (f : Filter K) (obs : List (K × K)) (hQ : f.Q = 0) (hP : Cov f.P) (hR : 0 < f.R) :
    ∃ c, ∀ u, cost f.x f.P f.tref f.R obs u = infoForm (run f obs).P (u - (run f obs).x) + c := by
  induction obs generalizing f with
  | nil => exact ⟨0, fun u => by simp [cost, run]⟩
  | cons o os ih =>
    obtain ⟨c, h⟩ := ih (update f o.2 o.1) hQ (update_cov f o.2 o.1 hQ hP hR).1 hR
    refine ⟨c + innovation f o.2 o.1 ^ 2 / varS f o.1, fun u => ?_⟩
    have h2 := square_update f o.2 o.1 hQ hP hR u
    have h3 := h u
    unfold cost at h3 ⊢
    rw [List.map_cons, List.sum_cons, ← add_assoc, h2]
    change _ = infoForm (run (update f o.2 o.1) os).P (u - (run (update f o.2 o.1) os).x) + _
    rw [← add_assoc, ← h3]
    simp only [update_fields]
    ring

theorem info_pos (P : Matrix (Fin 2) (Fin 2) K) (hP : Cov P) (v : Fin 2 → K) (hv : v ≠ 0) : 0 < infoForm P v := by
  have hd := hP.det
  have h0 := hP.pos
  unfold infoForm
  refine div_pos ?_ hd
  have e : P 0 0 * (P 1 1 * v 0 ^ 2 - 2 * P 0 1 * v 0 * v 1 + P 0 0 * v 1 ^ 2) =
      (P 0 0 * v 1 - P 0 1 * v 0) ^ 2 + (P 0 0 * P 1 1 - P 0 1 * P 0 1) * v 0 ^ 2 := by ring
  have h : 0 < (P 0 0 * v 1 - P 0 1 * v 0) ^ 2 + (P 0 0 * P 1 1 - P 0 1 * P 0 1) * v 0 ^ 2 := by
    by_cases hv0 : v 0 = 0
    · have hv1 : v 1 ≠ 0 := by
        intro h1
        apply hv
        ext i
        fin_cases i
        · exact hv0
        · exact h1
      rw [hv0]
      have : P 0 0 * v 1 ≠ 0 := mul_ne_zero h0.ne' hv1
      have h2 : 0 < (P 0 0 * v 1) ^ 2 := by positivity
      nlinarith
    · have h2 : 0 < v 0 ^ 2 := by positivity
      have h3 := mul_pos hd h2
      have h4 := sq_nonneg (P 0 0 * v 1 - P 0 1 * v 0)
      linarith
  rw [← e] at h
  exact (mul_pos_iff_of_pos_left h0).1 h

/-- **C143 (b)** for any a priori line and covariance matrix, any noise and any observations, in any order
of time: the filter without process noise ends with the line that costs least (weighted squared residuals
plus the distance from the a priori line), and every other line costs more. -/
theorem least_squares (x0 : Fin 2 → K) (P0 : Matrix (Fin 2) (Fin 2) K) (tref sigma : K) (obs : List (K × K))
    (hP : Cov P0) (hs : sigma ≠ 0) (u : Fin 2 → K) (hu : u ≠ (run (Filter.init x0 P0 tref sigma 0) obs).x) :
    cost x0 P0 tref (sigma * sigma) obs (run (Filter.init x0 P0 tref sigma 0) obs).x <
      cost x0 P0 tref (sigma * sigma) obs u := by
  have hR : 0 < sigma * sigma := mul_self_pos.2 hs
  obtain ⟨c, h⟩ := run_square (Filter.init x0 P0 tref sigma 0) obs rfl hP hR
  obtain ⟨hc, -⟩ := run_cov (Filter.init x0 P0 tref sigma 0) obs rfl hP hR
  have h1 := h u
  have h2 := h (run (Filter.init x0 P0 tref sigma 0) obs).x
  rw [sub_self] at h2
  have h0 : infoForm (run (Filter.init x0 P0 tref sigma 0) obs).P 0 = 0 := by simp [infoForm]
  rw [h0] at h2
  have h3 := info_pos _ hc _ (sub_ne_zero.2 hu)
  change cost x0 P0 tref (sigma * sigma) obs _ = _ at h1 h2
  rw [h1, h2]
  linarith

/-! ### The scalar version -/

/-- Both versions hold the same. -/
def Same (f : Filter K) : Prop := f.xdeb = f.x ∧ f.Pdeb = f.P

theorem gain_same (f : Filter K) (t : K) (hQ : f.Q = 0) (hP : Cov f.P) (h : f.Pdeb = f.P) :
    (gainDeb f t).1 = gain f t 0 ∧ (gainDeb f t).2 = gain f t 1 := by
  obtain ⟨-, hv, g0, g1⟩ := entries f 0 t hQ hP.symm
  rw [g0, g1]
  unfold gainDeb
  dsimp only
  rw [h, hv]
  constructor <;> congr 1 <;> ring

theorem update_same (f : Filter K) (z t : K) (hQ : f.Q = 0) (hP : Cov f.P) (hR : 0 < f.R) (h : Same f) :
    Same (update f z t) := by
  obtain ⟨hx, hp⟩ := h
  obtain ⟨k0, k1⟩ := gain_same f t hQ hP hp
  obtain ⟨e00, e01, e10, e11⟩ := cov_entries f z t hQ hP hR
  obtain ⟨-, hv, g0, g1⟩ := entries f z t hQ hP.symm
  have hS := (varS_pos f t hQ hP hR).ne'
  have hx' : (update f z t).x = f.x + innovation f z t • gain f t := by simp [update]
  constructor
  · rw [hx']
    show ![f.xdeb 0 + (gainDeb f t).1 * innovation f z t, f.xdeb 1 + (gainDeb f t).2 * innovation f z t] = _
    rw [k0, k1, hx]
    ext i
    fin_cases i <;> simp [mul_comm]
  · show covDeb f t = _
    ext i j
    simp only [covDeb]
    rw [k0, k1, hp, g0, g1]
    generalize hvv : varS f t = S at hv hS e00 e01 e10 e11
    have hR : f.R = S - (f.P 0 0 + 2 * f.P 0 1 * (t - f.tref) + f.P 1 1 * (t - f.tref) ^ 2) := by rw [hv]; ring
    fin_cases i <;> fin_cases j
    · change _ = (update f z t).P 0 0
      rw [e00, hR]
      simp only [Fin.zero_eta, of_apply, cons_val_zero, cons_val_fin_one]
      field_simp
      ring
    · change _ = (update f z t).P 0 1
      rw [e01, hR]
      simp only [Fin.zero_eta, Fin.mk_one, of_apply, cons_val_zero, cons_val_one, cons_val_fin_one]
      field_simp
      ring
    · change _ = (update f z t).P 1 0
      rw [e10, hR]
      simp only [Fin.zero_eta, Fin.mk_one, of_apply, cons_val_zero, cons_val_one, cons_val_fin_one]
      field_simp
      ring
    · change _ = (update f z t).P 1 1
      rw [e11, hR]
      simp only [Fin.mk_one, of_apply, cons_val_one, cons_val_fin_one]
      field_simp
      ring

theorem run_same (f : Filter K) (obs : List (K × K)) (hQ : f.Q = 0) (hP : Cov f.P) (hR : 0 < f.R) (h : Same f)
    (hm : f.max0 ≤ 0 ∧ f.max1 ≤ 0) :
    Same (run f obs) ∧ (run f obs).max0 ≤ 0 ∧ (run f obs).max1 ≤ 0 := by
  induction obs generalizing f with
  | nil => exact ⟨h, hm.1, hm.2⟩
  | cons o os ih =>
    obtain ⟨k0, k1⟩ := gain_same f o.1 hQ hP h.2
    refine ih (update f o.2 o.1) hQ (update_cov f o.2 o.1 hQ hP hR).1 hR (update_same f o.2 o.1 hQ hP hR h) ⟨?_, ?_⟩
    · show (if |(gainDeb f o.1).1 - gain f o.1 0| > f.max0 then |(gainDeb f o.1).1 - gain f o.1 0| else f.max0) ≤ 0
      rw [k0, sub_self, abs_zero]
      split
      · exact le_refl _
      · exact hm.1
    · show (if |(gainDeb f o.1).2 - gain f o.1 1| > f.max1 then |(gainDeb f o.1).2 - gain f o.1 1| else f.max1) ≤ 0
      rw [k1, sub_self, abs_zero]
      split
      · exact le_refl _
      · exact hm.2

/-- **C143 (c)** without process noise the scalar version ends with the same line and covariances as the
matrix version, and the recorded differences of the gains are not above zero. -/
theorem versions_agree (x0 : Fin 2 → K) (P0 : Matrix (Fin 2) (Fin 2) K) (tref sigma : K) (obs : List (K × K))
    (hP : Cov P0) (hs : sigma ≠ 0) :
    (run (Filter.init x0 P0 tref sigma 0) obs).xdeb = (run (Filter.init x0 P0 tref sigma 0) obs).x ∧
    (run (Filter.init x0 P0 tref sigma 0) obs).Pdeb = (run (Filter.init x0 P0 tref sigma 0) obs).P ∧
    (run (Filter.init x0 P0 tref sigma 0) obs).max0 ≤ 0 ∧ (run (Filter.init x0 P0 tref sigma 0) obs).max1 ≤ 0 := by
  have hR : 0 < sigma * sigma := mul_self_pos.2 hs
  have hm : (-(1 / 10 ^ 15) : K) ≤ 0 := by
    have : (0 : K) ≤ 1 / 10 ^ 15 := by positivity
    linarith
  obtain ⟨h1, h2⟩ := run_same (Filter.init x0 P0 tref sigma 0) obs rfl hP hR ⟨rfl, rfl⟩ ⟨hm, hm⟩
  exact ⟨h1.1, h1.2, h2⟩

/-- **C143 (d)** the order of the observations does not matter for the estimate. -/
theorem order_irrelevant (x0 : Fin 2 → K) (P0 : Matrix (Fin 2) (Fin 2) K) (tref sigma : K) (obs obs' : List (K × K))
    (hp : obs.Perm obs') (hP : Cov P0) (hs : sigma ≠ 0) :
    (run (Filter.init x0 P0 tref sigma 0) obs).x = (run (Filter.init x0 P0 tref sigma 0) obs').x := by
  by_contra hne
  have hc : ∀ u, cost x0 P0 tref (sigma * sigma) obs u = cost x0 P0 tref (sigma * sigma) obs' u := by
    intro u
    unfold cost
    rw [(hp.map _).sum_eq]
  have h1 := least_squares x0 P0 tref sigma obs hP hs _ (Ne.symm hne)
  have h2 := least_squares x0 P0 tref sigma obs' hP hs _ hne
  rw [← hc, ← hc] at h2
  exact absurd h1 (not_lt.2 h2.le)

example : Cov (!![5 / 2, 0; 0, 2] : Matrix (Fin 2) (Fin 2) ℚ) :=
  ⟨rfl, by norm_num, by norm_num⟩

/-- **C143 (e)** with process noise the scalar version, which leaves it out, differs from the matrix
version. -/
theorem process_noise_counterexample :
    ∃ (Q : Matrix (Fin 2) (Fin 2) ℚ), Cov Q ∧
      (run (Filter.init ![0, 0] !![1, 0; 0, 1] 0 1 Q) [(0, 6)]).x 0 = 4 ∧
      (run (Filter.init ![0, 0] !![1, 0; 0, 1] 0 1 Q) [(0, 6)]).xdeb 0 = 3 := by
  refine ⟨!![1, 0; 0, 1], ⟨rfl, by norm_num, by norm_num⟩, by decide +kernel, by decide +kernel⟩

/-- **C143 (f)** the arrays handed over as a priori values are overwritten: a second filter made from
them starts from the estimates of the first. -/
theorem arrays_overwritten_counterexample :
    let f := run (Filter.init (![0, 0] : Fin 2 → ℚ) !![1, 0; 0, 1] 0 1 0) [(0, 6)]
    f.xdeb 0 = 3 ∧ f.Pdeb 0 0 = 1 / 2 := by
  decide +kernel

/-! ### Reproducing the line -/

theorem recreate_range (f : Filter K) (step t2 : K) (hs : 0 < step) (fuel : Nat) :
    ∀ (t1 : K) (l : List (K × K)), recreate f step fuel t1 t2 = some l →
      ∀ p ∈ l, t1 ≤ p.1 ∧ p.1 < t2 ∧ p.2 = f.x 0 + f.x 1 * (p.1 - f.tref) := by
  induction fuel with
  | zero => intro t1 l h; simp [recreate] at h
  | succ fuel ih =>
    intro t1 l h p hp
    unfold recreate at h
    split at h
    · rename_i hlt
      rw [Option.map_eq_some_iff] at h
      obtain ⟨r, hr, rfl⟩ := h
      rcases List.mem_cons.1 hp with rfl | hp
      · exact ⟨le_refl _, hlt, by dsimp only; ring⟩
      · obtain ⟨h1, h2, h3⟩ := ih (t1 + step) r hr p hp
        exact ⟨by linarith, h2, h3⟩
    · injection h with h
      subst h
      exact absurd hp (List.not_mem_nil)

/-- **C143 (g)** the line reproduced by the main program has the fitted values, all before the time of the
last observation, which is therefore never reached. -/
theorem recreate_before_end (f : Filter K) (step t1 t2 : K) (hs : 0 < step) (fuel : Nat) (l : List (K × K))
    (h : recreate f step fuel t1 t2 = some l) (p : K × K) (hp : p ∈ l) :
    t1 ≤ p.1 ∧ p.1 < t2 ∧ p.2 = f.x 0 + f.x 1 * (p.1 - f.tref) :=
  recreate_range f step t2 hs fuel t1 l h p hp

/-- It ends after about `(t2 - t1) / step` turns. -/
theorem recreate_ends (f : Filter K) (step t2 : K) (hs : 0 < step) (n : Nat) :
    ∀ t1 : K, t2 ≤ t1 + n * step → ∃ l, recreate f step (n + 1) t1 t2 = some l ∧ l.length ≤ n := by
  induction n with
  | zero =>
    intro t1 h
    refine ⟨[], ?_, le_refl _⟩
    unfold recreate
    rw [if_neg (by simpa using h)]
  | succ n ih =>
    intro t1 h
    by_cases hlt : t1 < t2
    · obtain ⟨l, hl, hlen⟩ := ih (t1 + step) (by push_cast at h; linarith)
      refine ⟨(t1, (t1 - f.tref) * f.x 1 + f.x 0) :: l, ?_, Nat.succ_le_succ hlen⟩
      conv => lhs; unfold recreate
      rw [if_pos hlt, hl]
      rfl
    · refine ⟨[], ?_, Nat.zero_le _⟩
      unfold recreate
      rw [if_neg hlt]

/-- **C143 (h)** the first observation is used twice, for the a priori line and again as an observation: for
a file with one line the estimate is the value itself with the variance 25/11, below both the a priori
variance 5/2 and the variance 25 of the observation. -/
theorem first_used_twice (t z : K) :
    ∃ f, main [(t, z)] = some f ∧ f.x 0 = z ∧ f.x 1 = 5 ∧ f.P 0 0 = 25 / 11 := by
  refine ⟨_, rfl, ?_, ?_, ?_⟩
  · simp [run, update, Filter.init, innovation, rowH, dotProduct, Fin.sum_univ_two]
  · simp [run, update, Filter.init, innovation, rowH, dotProduct, Fin.sum_univ_two]
  · have hP : Cov (!![5 / 2, 0; 0, 2] : Matrix (Fin 2) (Fin 2) K) := ⟨rfl, by norm_num, by norm_num⟩
    obtain ⟨e00, -⟩ := cov_entries (Filter.init ![z, 5] !![5 / 2, 0; 0, 2] t 5 0) z t rfl hP (by norm_num [Filter.init])
    obtain ⟨-, hv, -, -⟩ := entries (Filter.init ![z, 5] !![5 / 2, 0; 0, 2] t 5 0) z t rfl rfl
    show (update (Filter.init ![z, 5] !![5 / 2, 0; 0, 2] t 5 0) z t).P 0 0 = _
    rw [e00, hv]
    simp only [Filter.init, sub_self, of_apply, cons_val_zero, cons_val_one, cons_val_fin_one]
    norm_num

end Verif.Filters.KalmanPy
