import Verif.Gravity.Ladder
import Verif.Gravity.Props
import Mathlib.Analysis.Calculus.Deriv.Mul
import Mathlib.Algebra.BigOperators.Field
import Mathlib.Analysis.Calculus.Deriv.Inv
import Mathlib.Analysis.Calculus.Deriv.Add
import Mathlib.Analysis.SpecialFunctions.Sqrt
import Mathlib.Analysis.Complex.RealDeriv

/- C75: the computed acceleration is the gradient of the potential. -/
namespace Verif.Gravity

open Verif.Mat2D Finset Complex

/-- Differentiating the recursion along a curve. -/
theorem zc_hasDeriv (k : ℂ) (fu fub fz fr fv : ℝ → ℂ) (t : ℝ) (p q c : ℂ)
    (hz : HasDerivAt fz (dZ0 (fu t) (fub t) (fz t) (fr t) p q c * k) t)
    (hu : HasDerivAt fu (dU (fu t) (fz t) p q c * k) t)
    (hr : HasDerivAt fr (dRho (fu t) (fub t) (fz t) (fr t) p q c * k) t)
    (hv : HasDerivAt fv (dV (fu t) (fub t) (fz t) (fv t) p q c * k) t)
    (hub : fu t * fub t = fr t - fz t ^ 2) (m d : Nat) :
    HasDerivAt (fun s => zc (fu s) (fz s) (fr s) (fv s) m d)
        (dz (fu t) (fub t) (fz t) (fr t) (fv t) p q c m d * k) t ∧
    HasDerivAt (fun s => zc (fu s) (fz s) (fr s) (fv s) m (d + 1))
        (dz (fu t) (fub t) (fz t) (fr t) (fv t) p q c m (d + 1) * k) t := by
  have hsect : ∀ m, HasDerivAt (fun s => zc (fu s) (fz s) (fr s) (fv s) m 0)
      (dz (fu t) (fub t) (fz t) (fr t) (fv t) p q c m 0 * k) t := by
    intro m
    induction m with
    | zero => rw [dz_zero]; exact hv
    | succ m ih =>
      rw [dz_sect _ _ _ _ _ hub]
      have h := (hu.mul ih).const_mul (2 * (m : ℂ) + 1)
      refine HasDerivAt.congr_deriv h ?_
      ring
  induction d with
  | zero =>
    refine ⟨hsect m, ?_⟩
    rw [dz_one _ _ _ _ _ hub]
    have h := (hz.mul (hsect m)).const_mul (2 * (m : ℂ) + 1)
    refine HasDerivAt.congr_deriv (h.congr_of_eventuallyEq (Filter.Eventually.of_forall fun s => ?_)) ?_
    · simp only [zc, Pi.mul_apply]; ring
    · ring
  | succ d ih =>
    refine ⟨ih.2, ?_⟩
    rw [show d + 1 + 1 = d + 2 from rfl, dz_step _ _ _ _ _ hub]
    have h := (((hz.mul ih.2).const_mul (2 * ((m : ℂ) + d + 2) - 1)).sub
      ((hr.mul ih.1).const_mul (2 * (m : ℂ) + d + 1))).div_const ((d : ℂ) + 2)
    refine HasDerivAt.congr_deriv (h.congr_of_eventuallyEq (Filter.Eventually.of_forall fun s => ?_)) ?_
    · simp only [zc, Pi.mul_apply, Pi.sub_apply]; ring
    · ring

/-- Real and complex recursion are the same. -/
theorem sect_complex (g : Geo ℝ) (m : Nat) :
    ((sect g m).1 : ℂ) + (sect g m).2 * I = zs ((g.x0 : ℂ) + g.y0 * I) (g.v00 : ℂ) m := by
  induction m with
  | zero => simp [sect, zs]
  | succ m ih =>
    simp only [sect, zs, ← ih]
    push_cast
    linear_combination -(2 * (m : ℂ) + 1) * (g.y0 : ℂ) * (sect g m).2 * I_sq

theorem col_complex (g : Geo ℝ) (m d : Nat) :
    (((col g m d).1 : ℂ) + (col g m d).2 * I = zc ((g.x0 : ℂ) + g.y0 * I) g.z0 g.rho g.v00 m d) ∧
    (((col g m (d + 1)).1 : ℂ) + (col g m (d + 1)).2 * I = zc ((g.x0 : ℂ) + g.y0 * I) g.z0 g.rho g.v00 m (d + 1)) := by
  induction d with
  | zero =>
    refine ⟨sect_complex g m, ?_⟩
    show _ = _ * _ * zs _ _ m
    rw [← sect_complex]
    simp only [col]
    push_cast
    ring
  | succ d ih =>
    refine ⟨ih.2, ?_⟩
    show _ = (_ * _ * zc _ _ _ _ _ (d + 1) - _ * _ * zc _ _ _ _ _ d) / _
    rw [← ih.1, ← ih.2]
    simp only [col, nextInColumn]
    push_cast
    ring

theorem col_re (g : Geo ℝ) (m d : Nat) : (col g m d).1 = (zc ((g.x0 : ℂ) + g.y0 * I) g.z0 g.rho g.v00 m d).re := by
  rw [← (col_complex g m d).1]; simp

theorem col_im (g : Geo ℝ) (m d : Nat) : (col g m d).2 = (zc ((g.x0 : ℂ) + g.y0 * I) g.z0 g.rho g.v00 m d).im := by
  rw [← (col_complex g m d).1]; simp

/-- Conjugate geometry. -/
theorem zs_conj (u v : ℂ) (m : Nat) : (starRingEnd ℂ) (zs u v m) = zs (starRingEnd ℂ u) (starRingEnd ℂ v) m := by
  induction m with
  | zero => rfl
  | succ m ih =>
    show (starRingEnd ℂ) (_ * (_ * _)) = _ * (_ * _)
    rw [map_mul, map_mul, ih]
    congr 1
    simp [map_ofNat]

theorem zc_conj (u z rho v : ℂ) (m d : Nat) :
    (starRingEnd ℂ) (zc u z rho v m d) =
      zc (starRingEnd ℂ u) (starRingEnd ℂ z) (starRingEnd ℂ rho) (starRingEnd ℂ v) m d ∧
    (starRingEnd ℂ) (zc u z rho v m (d + 1)) =
      zc (starRingEnd ℂ u) (starRingEnd ℂ z) (starRingEnd ℂ rho) (starRingEnd ℂ v) m (d + 1) := by
  induction d with
  | zero =>
    refine ⟨zs_conj u v m, ?_⟩
    show (starRingEnd ℂ) (_ * _ * _) = _ * _ * _
    rw [map_mul, map_mul, zs_conj]
    congr 2
    simp [map_ofNat]
  | succ d ih =>
    refine ⟨ih.2, ?_⟩
    show (starRingEnd ℂ) ((_ * _ * _ - _ * _ * _) / _) = (_ * _ * _ - _ * _ * _) / _
    rw [map_div₀, map_sub, map_mul, map_mul, map_mul, map_mul, ih.1, ih.2]
    congr 1
    · congr 1
      · congr 2
        simp [map_ofNat]
      · congr 2
        simp [map_ofNat]
    · simp [map_ofNat]

/-- The straight line through `(x, y, z)` with direction `(a, b, c)`. -/
noncomputable def lineGeo (R x y z a b c : ℝ) (s : ℝ) : Geo ℝ :=
  Geo.ofPos R (x + s * a) (y + s * b) (z + s * c)

/-- Derivatives of the normalised coordinates along the line. -/
theorem line_deriv (R x y z a b c : ℝ) (hR : R ≠ 0) (hr : x * x + y * y + z * z ≠ 0) :
    let g := Geo.ofPos R x y z
    let e := a * g.x0 + b * g.y0 + c * g.z0
    HasDerivAt (fun s => (lineGeo R x y z a b c s).x0) ((a * g.rho - 2 * g.x0 * e) / R) 0 ∧
    HasDerivAt (fun s => (lineGeo R x y z a b c s).y0) ((b * g.rho - 2 * g.y0 * e) / R) 0 ∧
    HasDerivAt (fun s => (lineGeo R x y z a b c s).z0) ((c * g.rho - 2 * g.z0 * e) / R) 0 ∧
    HasDerivAt (fun s => (lineGeo R x y z a b c s).rho) ((-2 * g.rho * e) / R) 0 ∧
    HasDerivAt (fun s => (lineGeo R x y z a b c s).v00) ((-e * g.v00) / R) 0 := by
  intro g e
  have hlin : ∀ x a : ℝ, HasDerivAt (fun s => x + s * a) a 0 := by
    intro x a
    have := ((hasDerivAt_id (0 : ℝ)).mul_const a).const_add x
    simpa using this
  have hx := hlin x a
  have hy := hlin y b
  have hz := hlin z c
  have hr2 : HasDerivAt (fun s => (x + s * a) * (x + s * a) + (y + s * b) * (y + s * b) + (z + s * c) * (z + s * c))
      (2 * (a * x + b * y + c * z)) 0 := by
    refine (((hx.mul hx).add (hy.mul hy)).add (hz.mul hz)).congr_deriv ?_
    ring
  have hpos : 0 < x * x + y * y + z * z := by
    refine lt_of_le_of_ne ?_ (Ne.symm hr)
    nlinarith [mul_self_nonneg x, mul_self_nonneg y, mul_self_nonneg z]
  have hval : (x + 0 * a) * (x + 0 * a) + (y + 0 * b) * (y + 0 * b) + (z + 0 * c) * (z + 0 * c) =
      x * x + y * y + z * z := by simp
  have hdiv : ∀ (f : ℝ → ℝ) (f' : ℝ), HasDerivAt f f' 0 →
      HasDerivAt (fun s => f s / ((x + s * a) * (x + s * a) + (y + s * b) * (y + s * b) + (z + s * c) * (z + s * c)))
        ((f' * (x * x + y * y + z * z) - f 0 * (2 * (a * x + b * y + c * z))) / (x * x + y * y + z * z) ^ 2) 0 := by
    intro f f' hf
    have h := hf.div hr2 (by rw [hval]; exact hr)
    refine h.congr_deriv ?_
    simp
  have hG : g = ⟨R * x / (x * x + y * y + z * z), R * y / (x * x + y * y + z * z), R * z / (x * x + y * y + z * z),
    R * R / (x * x + y * y + z * z), R / Real.sqrt (x * x + y * y + z * z)⟩ := rfl
  have key : ∀ x' a' : ℝ, (R * a' * (x * x + y * y + z * z) - R * x' * (2 * (a * x + b * y + c * z))) /
      (x * x + y * y + z * z) ^ 2 = (a' * g.rho - 2 * (R * x' / (x * x + y * y + z * z)) * e) / R := by
    intro x' a'
    simp only [e, hG]
    generalize x * x + y * y + z * z = w at hr
    field_simp
  refine ⟨?_, ?_, ?_, ?_, ?_⟩
  · refine (hdiv _ _ (hx.const_mul R)).congr_deriv ?_
    have := key x a
    simpa [hG] using this
  · refine (hdiv _ _ (hy.const_mul R)).congr_deriv ?_
    have := key y b
    simpa [hG] using this
  · refine (hdiv _ _ (hz.const_mul R)).congr_deriv ?_
    have := key z c
    simpa [hG] using this
  · refine (hdiv _ _ (hasDerivAt_const (0 : ℝ) (R * R))).congr_deriv ?_
    simp only [e, hG]
    generalize x * x + y * y + z * z = w at hr
    field_simp
    ring
  · have hs := hr2.sqrt (by rw [hval]; exact hr)
    have h := (hasDerivAt_const (0 : ℝ) R).div hs (by
      rw [hval]; exact (Real.sqrt_pos.2 hpos).ne')
    refine h.congr_deriv ?_
    have hsq : Real.sqrt (x * x + y * y + z * z) ^ 2 = x * x + y * y + z * z := Real.sq_sqrt hpos.le
    have hs0 : Real.sqrt (x * x + y * y + z * z) ≠ 0 := (Real.sqrt_pos.2 hpos).ne'
    simp only [e, hG, hval]
    simp only [zero_mul, add_zero]
    generalize hq : Real.sqrt (x * x + y * y + z * z) = q at *
    rw [← hsq] at *
    field_simp
    ring

theorem lineGeo_zero (R x y z a b c : ℝ) : lineGeo R x y z a b c 0 = Geo.ofPos R x y z := by
  simp [lineGeo]

theorem ofPos_rho (R x y z : ℝ) (hr : x * x + y * y + z * z ≠ 0) :
    (Geo.ofPos R x y z).x0 ^ 2 + (Geo.ofPos R x y z).y0 ^ 2 + (Geo.ofPos R x y z).z0 ^ 2 = (Geo.ofPos R x y z).rho := by
  simp only [Geo.ofPos]
  generalize hw : x * x + y * y + z * z = w at *
  field_simp
  linear_combination R ^ 2 * hw

/-- `u`, and `Z_{m+d, m}`, at a geometry. -/
noncomputable def gu (g : Geo ℝ) : ℂ := (g.x0 : ℂ) + g.y0 * I
noncomputable def gub (g : Geo ℝ) : ℂ := (g.x0 : ℂ) - g.y0 * I
noncomputable def gz (g : Geo ℝ) (m d : Nat) : ℂ := zc (gu g) g.z0 g.rho g.v00 m d

theorem gz_eq (g : Geo ℝ) (m d : Nat) : gz g m d = ((col g m d).1 : ℂ) + (col g m d).2 * I :=
  ((col_complex g m d).1).symm

theorem gz_conj (g : Geo ℝ) (m d : Nat) :
    zc (gub g) g.z0 g.rho g.v00 m d = ((col g m d).1 : ℂ) - (col g m d).2 * I := by
  have h := (zc_conj (gu g) g.z0 g.rho g.v00 m d).1
  have e : (starRingEnd ℂ) (gu g) = gub g := by
    simp [gu, gub, sub_eq_add_neg]
  rw [e, Complex.conj_ofReal, Complex.conj_ofReal, Complex.conj_ofReal] at h
  rw [← h]
  have h2 := gz_eq g m d
  unfold gz at h2
  rw [h2]
  simp [sub_eq_add_neg]

theorem gz_deriv (R x y z a b c : ℝ) (hR : R ≠ 0) (hr : x * x + y * y + z * z ≠ 0) (m d : Nat) :
    HasDerivAt (fun s => gz (lineGeo R x y z a b c s) m d)
      (dz (gu (Geo.ofPos R x y z)) (gub (Geo.ofPos R x y z)) (Geo.ofPos R x y z).z0 (Geo.ofPos R x y z).rho
        (Geo.ofPos R x y z).v00 (((a : ℂ) - b * I) / 2) (((a : ℂ) + b * I) / 2) c m d * (1 / R)) 0 := by
  obtain ⟨hx, hy, hz, hrho, hv⟩ := line_deriv R x y z a b c hR hr
  have hq := ofPos_rho R x y z hr
  have hRc : (R : ℂ) ≠ 0 := by exact_mod_cast hR
  have h0 := lineGeo_zero R x y z a b c
  have hqc : ((Geo.ofPos R x y z).x0 : ℂ) ^ 2 + (Geo.ofPos R x y z).y0 ^ 2 + (Geo.ofPos R x y z).z0 ^ 2 =
      (Geo.ofPos R x y z).rho := by exact_mod_cast hq
  have h := (zc_hasDeriv (1 / (R : ℂ)) (fun s => gu (lineGeo R x y z a b c s))
    (fun s => gub (lineGeo R x y z a b c s))
    (fun s => ((lineGeo R x y z a b c s).z0 : ℂ)) (fun s => ((lineGeo R x y z a b c s).rho : ℂ))
    (fun s => ((lineGeo R x y z a b c s).v00 : ℂ)) 0 (((a : ℂ) - b * I) / 2) (((a : ℂ) + b * I) / 2) c
    ?_ ?_ ?_ ?_ ?_ m d).1
  · simp only [h0] at h
    exact h
  · refine hz.ofReal_comp.congr_deriv ?_
    simp only [h0, dZ0, gu, gub]
    push_cast
    rw [div_eq_mul_one_div]
    congr 1
    linear_combination (-2 * (Geo.ofPos R x y z).z0 * (b : ℂ) * (Geo.ofPos R x y z).y0) * I_sq
  · refine (hx.ofReal_comp.add (hy.ofReal_comp.mul_const I)).congr_deriv ?_
    simp only [h0, dU, gu]
    push_cast
    have hab : ∀ A B : ℂ, A / R + B / R * I = (A + B * I) * (1 / R) := fun A B => by ring
    rw [hab]
    congr 1
    linear_combination (-(a : ℂ) - b * I) * hqc + ((a : ℂ) * (Geo.ofPos R x y z).y0 ^ 2
      - 2 * b * (Geo.ofPos R x y z).x0 * (Geo.ofPos R x y z).y0 - b * (Geo.ofPos R x y z).y0 ^ 2 * I) * I_sq
  · refine hrho.ofReal_comp.congr_deriv ?_
    simp only [h0, dRho, gu, gub]
    push_cast
    rw [div_eq_mul_one_div]
    congr 1
    linear_combination (-2 * (Geo.ofPos R x y z).rho * (b : ℂ) * (Geo.ofPos R x y z).y0) * I_sq
  · refine hv.ofReal_comp.congr_deriv ?_
    simp only [h0, dV, gu, gub]
    push_cast
    rw [div_eq_mul_one_div]
    congr 1
    linear_combination (-(Geo.ofPos R x y z).v00 * (b : ℂ) * (Geo.ofPos R x y z).y0) * I_sq
  · simp only [h0, gu, gub]
    linear_combination hqc - ((Geo.ofPos R x y z).y0 : ℂ) ^ 2 * I_sq

/-- Real and imaginary part of a derivative. -/
theorem hasDeriv_parts (f : ℝ → ℂ) (v w : ℝ → ℝ) (f' : ℂ) (t : ℝ) (h : HasDerivAt f f' t)
    (he : ∀ s, f s = (v s : ℂ) + w s * I) : HasDerivAt v f'.re t ∧ HasDerivAt w f'.im t := by
  have h1 := Complex.reCLM.hasFDerivAt.comp_hasDerivAt t h
  have h2 := Complex.imCLM.hasFDerivAt.comp_hasDerivAt t h
  refine ⟨h1.congr_of_eventuallyEq (Filter.Eventually.of_forall fun s => ?_),
    h2.congr_of_eventuallyEq (Filter.Eventually.of_forall fun s => ?_)⟩
  · simp [he]
  · simp [he]

/-- Derivative of a zonal harmonic, degree `d`. -/
theorem zonal_deriv (R x y z a b c : ℝ) (hR : R ≠ 0) (hr : x * x + y * y + z * z ≠ 0) (d : Nat) :
    HasDerivAt (fun s => (col (lineGeo R x y z a b c s) 0 d).1)
      ((-(a * (col (Geo.ofPos R x y z) 1 d).1 + b * (col (Geo.ofPos R x y z) 1 d).2)
        - c * (d + 1) * (col (Geo.ofPos R x y z) 0 (d + 1)).1) / R) 0 := by
  have h := gz_deriv R x y z a b c hR hr 0 d
  refine (hasDeriv_parts _ _ (fun s => (col (lineGeo R x y z a b c s) 0 d).2) _ _ h
    (fun s => gz_eq _ _ _)).1.congr_deriv ?_
  have e1 := gz_eq (Geo.ofPos R x y z) 1 d
  have e2 := gz_eq (Geo.ofPos R x y z) 0 (d + 1)
  have e3 := gz_conj (Geo.ofPos R x y z) 1 d
  have e4 := (col_zero_snd (Geo.ofPos R x y z) d).2
  unfold gz at e1 e2
  simp only [dz, down, e1, e2, e3, e4, Nat.zero_add]
  generalize (col (Geo.ofPos R x y z) 1 d).1 = v1
  generalize (col (Geo.ofPos R x y z) 1 d).2 = w1
  generalize (col (Geo.ofPos R x y z) 0 (d + 1)).1 = v0
  rw [show (1 / (R : ℂ)) = ((1 / R : ℝ) : ℂ) from by push_cast; rfl, Complex.re_mul_ofReal]
  refine Eq.trans ?_ (div_eq_mul_one_div _ R).symm
  congr 1
  simp
  ring

/-- Derivative of the harmonic of degree `k + 1 + d`, order `k + 1`. -/
theorem tess_deriv (R x y z a b c : ℝ) (hR : R ≠ 0) (hr : x * x + y * y + z * z ≠ 0) (k d : Nat) :
    HasDerivAt (fun s => (col (lineGeo R x y z a b c s) (k + 1) d).1)
      ((-(a * (col (Geo.ofPos R x y z) (k + 2) d).1 + b * (col (Geo.ofPos R x y z) (k + 2) d).2) / 2
        + (d + 1) * (d + 2) * (a * (col (Geo.ofPos R x y z) k (d + 2)).1 - b * (col (Geo.ofPos R x y z) k (d + 2)).2) / 2
        - c * (d + 1) * (col (Geo.ofPos R x y z) (k + 1) (d + 1)).1) / R) 0 ∧
    HasDerivAt (fun s => (col (lineGeo R x y z a b c s) (k + 1) d).2)
      ((-(a * (col (Geo.ofPos R x y z) (k + 2) d).2 - b * (col (Geo.ofPos R x y z) (k + 2) d).1) / 2
        + (d + 1) * (d + 2) * (a * (col (Geo.ofPos R x y z) k (d + 2)).2 + b * (col (Geo.ofPos R x y z) k (d + 2)).1) / 2
        - c * (d + 1) * (col (Geo.ofPos R x y z) (k + 1) (d + 1)).2) / R) 0 := by
  have h := gz_deriv R x y z a b c hR hr (k + 1) d
  obtain ⟨h1, h2⟩ := hasDeriv_parts _ (fun s => (col (lineGeo R x y z a b c s) (k + 1) d).1)
    (fun s => (col (lineGeo R x y z a b c s) (k + 1) d).2) _ _ h (fun s => gz_eq _ _ _)
  have e1 := gz_eq (Geo.ofPos R x y z) (k + 2) d
  have e2 := gz_eq (Geo.ofPos R x y z) (k + 1) (d + 1)
  have e3 := gz_eq (Geo.ofPos R x y z) k (d + 2)
  unfold gz at e1 e2 e3
  have hR' : (1 / (R : ℂ)) = ((1 / R : ℝ) : ℂ) := by push_cast; rfl
  constructor
  · refine h1.congr_deriv ?_
    simp only [dz, down, e1, e2, e3]
    rw [hR', Complex.re_mul_ofReal]
    refine Eq.trans ?_ (div_eq_mul_one_div _ R).symm
    congr 1
    simp
    ring
  · refine h2.congr_deriv ?_
    simp only [dz, down, e1, e2, e3]
    rw [hR', Complex.im_mul_ofReal]
    refine Eq.trans ?_ (div_eq_mul_one_div _ R).symm
    congr 1
    simp
    ring

/-- The gravity potential (degree and order as in the acceleration). -/
noncomputable def potential (degree order : Nat) (Re GM : ℝ) (C S : Nat → Nat → ℝ) (g : Geo ℝ) : ℝ :=
  GM / Re * (∑ i ∈ range (degree + 1), C i 0 * specV g i 0 +
    tessSum degree order (fun i j => C i j * specV g i j + S i j * specW g i j))

theorem tessSum_deriv (degree order : Nat) (f : ℝ → Nat → Nat → ℝ) (f' : Nat → Nat → ℝ) (t : ℝ)
    (h : ∀ i j, 1 ≤ j → j ≤ i → HasDerivAt (fun s => f s i j) (f' i j) t) :
    HasDerivAt (fun s => tessSum degree order (f s)) (tessSum degree order f') t := by
  unfold tessSum
  refine HasDerivAt.fun_sum fun i _ => HasDerivAt.fun_sum fun j hj => h _ _ (by omega) ?_
  have := mem_range.1 hj
  omega

/-- **C75** for every degree, order ≤ degree, coefficients and position off the centre, the program's
acceleration is the gradient of the potential: its product with any direction is the derivative of the
potential in that direction. -/
theorem accel_is_gradient (degree order rows cols : Nat) (Re GM x y z : ℝ) (hR : Re ≠ 0)
    (hr : x * x + y * y + z * z ≠ 0) (V W : Mat ℝ) (C S : Nat → Nat → ℝ) (hA : Arrays rows cols V W)
    (ho : order ≤ degree) (hrow : degree + 2 ≤ rows) (hcol : order + 2 ≤ cols) :
    ∃ V' W' acc, lagrange (Geo.ofPos Re x y z) (degree + 1) (order + 1) V W = some (0, V', W') ∧
      accel degree order Re GM V' W' C S = some acc ∧
      ∀ a b c : ℝ, HasDerivAt
        (fun s => potential degree order Re GM C S (Geo.ofPos Re (x + s * a) (y + s * b) (z + s * c)))
        (a * acc.1 + b * acc.2.1 + c * acc.2.2) 0 := by
  obtain ⟨V', W', e, -, hV, hW⟩ := wrapper_accel_safe (Geo.ofPos Re x y z) degree order rows cols V W hA ho hrow hcol
  refine ⟨V', W', _, e, accel_eq degree order Re GM V' W' C S _ _ hV hW, ?_⟩
  intro a b c
  have hz : HasDerivAt (fun s => ∑ i ∈ range (degree + 1), C i 0 * specV (lineGeo Re x y z a b c s) i 0)
      (∑ i ∈ range (degree + 1), (a * tx0 C (specV (Geo.ofPos Re x y z)) i + b * ty0 C (specW (Geo.ofPos Re x y z)) i
        + c * tz0 C (specV (Geo.ofPos Re x y z)) i) / Re) 0 := by
    refine HasDerivAt.fun_sum fun i _ => ?_
    refine ((zonal_deriv Re x y z a b c hR hr i).const_mul (C i 0)).congr_deriv ?_
    simp only [tx0, ty0, tz0, specV, specW, Nat.add_sub_cancel, Nat.sub_zero]
    push_cast
    ring
  have ht : HasDerivAt (fun s => tessSum degree order
        (fun i j => C i j * specV (lineGeo Re x y z a b c s) i j + S i j * specW (lineGeo Re x y z a b c s) i j))
      (tessSum degree order (fun i j => (a * tx1 C S (specV (Geo.ofPos Re x y z)) (specW (Geo.ofPos Re x y z)) i j
        + b * ty1 C S (specV (Geo.ofPos Re x y z)) (specW (Geo.ofPos Re x y z)) i j
        + c * tz1 C S (specV (Geo.ofPos Re x y z)) (specW (Geo.ofPos Re x y z)) i j) / Re)) 0 := by
    refine tessSum_deriv _ _ _ _ _ fun i j hj hji => ?_
    obtain ⟨k, rfl⟩ : ∃ k, j = k + 1 := ⟨j - 1, by omega⟩
    obtain ⟨d, rfl⟩ : ∃ d, i = k + 1 + d := ⟨i - (k + 1), by omega⟩
    obtain ⟨h1, h2⟩ := tess_deriv Re x y z a b c hR hr k d
    have q1 : k + 1 + d - (k + 1) = d := by omega
    have q2 : k + 1 + d + 1 - (k + 1 + 1) = d := by omega
    have q3 : k + 1 + d + 1 - k = d + 2 := by omega
    have q4 : k + 1 + d + 1 - (k + 1) = d + 1 := by omega
    simp only [specV, specW, tx1, ty1, tz1, fac2, Nat.add_sub_cancel, q1, q2, q3, q4]
    refine ((h1.const_mul (C (k + 1 + d) (k + 1))).add (h2.const_mul (S (k + 1 + d) (k + 1)))).congr_deriv ?_
    push_cast
    ring
  refine ((hz.add ht).const_mul (GM / Re)).congr_deriv ?_
  have e1 : (∑ i ∈ range (degree + 1), (a * tx0 C (specV (Geo.ofPos Re x y z)) i + b * ty0 C (specW (Geo.ofPos Re x y z)) i
        + c * tz0 C (specV (Geo.ofPos Re x y z)) i) / Re) =
      (a * ∑ i ∈ range (degree + 1), tx0 C (specV (Geo.ofPos Re x y z)) i +
       b * ∑ i ∈ range (degree + 1), ty0 C (specW (Geo.ofPos Re x y z)) i +
       c * ∑ i ∈ range (degree + 1), tz0 C (specV (Geo.ofPos Re x y z)) i) / Re := by
    rw [← sum_div, sum_add_distrib, sum_add_distrib, mul_sum, mul_sum, mul_sum]
  have e2 : tessSum degree order (fun i j => (a * tx1 C S (specV (Geo.ofPos Re x y z)) (specW (Geo.ofPos Re x y z)) i j
        + b * ty1 C S (specV (Geo.ofPos Re x y z)) (specW (Geo.ofPos Re x y z)) i j
        + c * tz1 C S (specV (Geo.ofPos Re x y z)) (specW (Geo.ofPos Re x y z)) i j) / Re) =
      (a * tessSum degree order (tx1 C S (specV (Geo.ofPos Re x y z)) (specW (Geo.ofPos Re x y z))) +
       b * tessSum degree order (ty1 C S (specV (Geo.ofPos Re x y z)) (specW (Geo.ofPos Re x y z))) +
       c * tessSum degree order (tz1 C S (specV (Geo.ofPos Re x y z)) (specW (Geo.ofPos Re x y z)))) / Re := by
    unfold tessSum
    simp only [← sum_div, sum_add_distrib, mul_sum]
  rw [e1, e2]
  dsimp only
  field_simp
  ring

end Verif.Gravity
