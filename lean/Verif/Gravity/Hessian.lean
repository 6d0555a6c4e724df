import Verif.Gravity.Gradient

/- C54, the values: which entries of the partials are derivatives of the acceleration. -/
namespace Verif.Gravity

open Verif.Mat2D Finset

/-- What the order-1 terms should add to `xz` and `yz`, and the code leaves out. -/
noncomputable def miss (C S v w : Nat → Nat → ℝ) (i : Nat) : Par ℝ :=
  ⟨0, 0,
   (i : ℝ) / 2 * (C i 1 * v (i + 2) 2 + S i 1 * w (i + 2) 2) +
     (i : ℝ) * (i + 1) * (i + 2) / 2 * (-C i 1 * v (i + 2) 0 - S i 1 * w (i + 2) 0),
   (i : ℝ) / 2 * (C i 1 * w (i + 2) 2 - S i 1 * v (i + 2) 2) +
     (i : ℝ) * (i + 1) * (i + 2) / 2 * (C i 1 * w (i + 2) 0 - S i 1 * v (i + 2) 0), 0⟩

/-- Derivative of the vector `(X, Y, Z)` in direction `(a, b, c)` when the Jacobian is the symmetric
trace-free matrix of `p`. -/
def Par.applyX (p : Par ℝ) (a b c : ℝ) : ℝ := a * p.xx + b * p.xy + c * p.xz
def Par.applyY (p : Par ℝ) (a b c : ℝ) : ℝ := a * p.xy + b * -(p.xx + p.zz) + c * p.yz
def Par.applyZ (p : Par ℝ) (a b c : ℝ) : ℝ := a * p.xz + b * p.yz + c * p.zz

section
variable (R x y z a b c : ℝ) (hR : R ≠ 0) (hr : x * x + y * y + z * z ≠ 0) (C S : Nat → Nat → ℝ)
include hR hr

theorem zonal_term_deriv (i : Nat) :
    HasDerivAt (fun s => tx0 C (specV (lineGeo R x y z a b c s)) i)
      ((p0 C (specV (Geo.ofPos R x y z)) (specW (Geo.ofPos R x y z)) i).applyX a b c / R) 0 ∧
    HasDerivAt (fun s => ty0 C (specW (lineGeo R x y z a b c s)) i)
      ((p0 C (specV (Geo.ofPos R x y z)) (specW (Geo.ofPos R x y z)) i).applyY a b c / R) 0 ∧
    HasDerivAt (fun s => tz0 C (specV (lineGeo R x y z a b c s)) i)
      ((p0 C (specV (Geo.ofPos R x y z)) (specW (Geo.ofPos R x y z)) i).applyZ a b c / R) 0 := by
  obtain ⟨h1, h2⟩ := tess_deriv R x y z a b c hR hr 0 i
  have h3 := zonal_deriv R x y z a b c hR hr (i + 1)
  have w0 := (col_zero_snd (Geo.ofPos R x y z) (i + 1)).2
  have q2 : i + 2 - 1 = i + 1 := rfl
  simp only [tx0, ty0, tz0, p0, Par.applyX, Par.applyY, Par.applyZ, specV, specW, Nat.add_sub_cancel, Nat.sub_zero, q2]
  refine ⟨(h1.const_mul (-C i 0)).congr_deriv ?_, (h2.const_mul (-C i 0)).congr_deriv ?_,
    (h3.const_mul (-((i + 1 : Nat) : ℝ) * C i 0)).congr_deriv ?_⟩
  · simp only [w0, Nat.zero_add]; push_cast; ring
  · simp only [w0, Nat.zero_add]; push_cast; ring
  · push_cast; ring

theorem order1_term_deriv (d : Nat) :
    HasDerivAt (fun s => tx1 C S (specV (lineGeo R x y z a b c s)) (specW (lineGeo R x y z a b c s)) (d + 1) 1)
      (((p1 C S (specV (Geo.ofPos R x y z)) (specW (Geo.ofPos R x y z)) (d + 1)).add
        (miss C S (specV (Geo.ofPos R x y z)) (specW (Geo.ofPos R x y z)) (d + 1))).applyX a b c / R) 0 ∧
    HasDerivAt (fun s => ty1 C S (specV (lineGeo R x y z a b c s)) (specW (lineGeo R x y z a b c s)) (d + 1) 1)
      (((p1 C S (specV (Geo.ofPos R x y z)) (specW (Geo.ofPos R x y z)) (d + 1)).add
        (miss C S (specV (Geo.ofPos R x y z)) (specW (Geo.ofPos R x y z)) (d + 1))).applyY a b c / R) 0 ∧
    HasDerivAt (fun s => tz1 C S (specV (lineGeo R x y z a b c s)) (specW (lineGeo R x y z a b c s)) (d + 1) 1)
      (((p1 C S (specV (Geo.ofPos R x y z)) (specW (Geo.ofPos R x y z)) (d + 1)).add
        (miss C S (specV (Geo.ofPos R x y z)) (specW (Geo.ofPos R x y z)) (d + 1))).applyZ a b c / R) 0 := by
  obtain ⟨v2, w2⟩ := tess_deriv R x y z a b c hR hr 1 d
  obtain ⟨v1, w1⟩ := tess_deriv R x y z a b c hR hr 0 (d + 1)
  have v0 := zonal_deriv R x y z a b c hR hr (d + 2)
  have wz : ∀ s, (col (lineGeo R x y z a b c s) 0 (d + 2)).2 = 0 := fun s => (col_zero_snd _ (d + 1)).2
  have wz' : ∀ n, (col (Geo.ofPos R x y z) 0 n).2 = 0 := fun n => (col_zero_snd _ n).1
  have q1 : d + 1 + 1 - (1 + 1) = d := rfl
  have q2 : d + 1 + 1 - 1 = d + 1 := rfl
  have q3 : d + 1 + 2 - 3 = d := rfl
  have q4 : d + 1 + 2 - 1 = d + 2 := rfl
  have q5 : d + 1 + 2 - 2 = d + 1 := rfl
  have q6 : d + 1 - 1 + 1 = d + 1 := rfl
  have q7 : d + 1 - 1 + 2 = d + 2 := rfl
  simp only [tx1, ty1, tz1, fac2, p1, miss, Par.add, Par.applyX, Par.applyY, Par.applyZ, specV, specW,
    Nat.sub_self, Nat.sub_zero, q1, q2, q3, q4, q5, q6, q7, wz, wz']
  refine ⟨((((v2.const_mul (-C (d + 1) 1)).sub (w2.const_mul (S (d + 1) 1))).const_mul (1 / 2)).add
      (((v0.const_mul (C (d + 1) 1)).add_const (S (d + 1) 1 * 0)).const_mul _)).congr_deriv ?_,
    ((((w2.const_mul (-C (d + 1) 1)).add (v2.const_mul (S (d + 1) 1))).const_mul (1 / 2)).add
      (((v0.const_mul (S (d + 1) 1)).const_add (-C (d + 1) 1 * 0)).const_mul _)).congr_deriv ?_,
    (((v1.const_mul (-C (d + 1) 1)).sub (w1.const_mul (S (d + 1) 1))).const_mul _).congr_deriv ?_⟩
  · push_cast; ring
  · push_cast; ring
  · simp only [wz', Nat.zero_add]; push_cast; ring

theorem higher_term_deriv (k d : Nat) :
    HasDerivAt (fun s => tx1 C S (specV (lineGeo R x y z a b c s)) (specW (lineGeo R x y z a b c s)) (k + 2 + d) (k + 2))
      ((p2 C S (specV (Geo.ofPos R x y z)) (specW (Geo.ofPos R x y z)) (k + 2 + d) (k + 2)).applyX a b c / R) 0 ∧
    HasDerivAt (fun s => ty1 C S (specV (lineGeo R x y z a b c s)) (specW (lineGeo R x y z a b c s)) (k + 2 + d) (k + 2))
      ((p2 C S (specV (Geo.ofPos R x y z)) (specW (Geo.ofPos R x y z)) (k + 2 + d) (k + 2)).applyY a b c / R) 0 ∧
    HasDerivAt (fun s => tz1 C S (specV (lineGeo R x y z a b c s)) (specW (lineGeo R x y z a b c s)) (k + 2 + d) (k + 2))
      ((p2 C S (specV (Geo.ofPos R x y z)) (specW (Geo.ofPos R x y z)) (k + 2 + d) (k + 2)).applyZ a b c / R) 0 := by
  obtain ⟨vp, wp⟩ := tess_deriv R x y z a b c hR hr (k + 2) d
  obtain ⟨v0, w0⟩ := tess_deriv R x y z a b c hR hr (k + 1) (d + 1)
  obtain ⟨vm, wm⟩ := tess_deriv R x y z a b c hR hr k (d + 2)
  have q1 : k + 2 + d + 1 - (k + 2 + 1) = d := by omega
  have q2 : k + 2 + d + 1 - (k + 2 - 1) = d + 2 := by omega
  have q3 : k + 2 + d + 1 - (k + 2) = d + 1 := by omega
  have q4 : k + 2 + d - (k + 2) = d := by omega
  have q5 : k + 2 + d + 2 - (k + 2 + 2) = d := by omega
  have q6 : k + 2 + d + 2 - (k + 2) = d + 2 := by omega
  have q7 : k + 2 + d + 2 - (k + 2 - 2) = d + 4 := by omega
  have q8 : k + 2 + d + 2 - (k + 2 + 1) = d + 1 := by omega
  have q9 : k + 2 + d + 2 - (k + 2 - 1) = d + 3 := by omega
  have q10 : k + 2 - 1 = k + 1 := rfl
  have q11 : k + 2 - 2 = k := rfl
  have q12 : ((k + 2 + d : Nat) : ℝ) - ((k + 2 : Nat) : ℝ) = d := by push_cast; ring
  simp only [tx1, ty1, tz1, fac2, p2, Par.applyX, Par.applyY, Par.applyZ, specV, specW,
    q1, q2, q3, q4, q5, q6, q7, q8, q9, q12]
  simp only [q10, q11]
  generalize C (k + 2 + d) (k + 2) = c1
  generalize S (k + 2 + d) (k + 2) = s1
  refine ⟨((((vp.const_mul (-c1)).sub (wp.const_mul s1)).const_mul (1 / 2)).add
      (((vm.const_mul c1).add (wm.const_mul s1)).const_mul _)).congr_deriv ?_,
    ((((wp.const_mul (-c1)).add (vp.const_mul s1)).const_mul (1 / 2)).add
      (((wm.const_mul (-c1)).add (vm.const_mul s1)).const_mul _)).congr_deriv ?_,
    (((v0.const_mul (-c1)).sub (w0.const_mul s1)).const_mul _).congr_deriv ?_⟩
  · push_cast; ring
  · push_cast; ring
  · push_cast; ring

end

/-! ### Sums -/

/-- The acceleration at a geometry, as sums (what the program computes, see `accel_eq`). -/
noncomputable def accAt (degree order : Nat) (Re GM : ℝ) (C S : Nat → Nat → ℝ) (g : Geo ℝ) : ℝ × ℝ × ℝ :=
  ((∑ i ∈ range (degree + 1), tx0 C (specV g) i + tessSum degree order (tx1 C S (specV g) (specW g))) * (GM / (Re * Re)),
   (∑ i ∈ range (degree + 1), ty0 C (specW g) i + tessSum degree order (ty1 C S (specV g) (specW g))) * (GM / (Re * Re)),
   (∑ i ∈ range (degree + 1), tz0 C (specV g) i + tessSum degree order (tz1 C S (specV g) (specW g))) * (GM / (Re * Re)))

/-- Orders 1 and above, with the order-1 terms complete. -/
noncomputable def pfull (C S v w : Nat → Nat → ℝ) (i j : Nat) : Par ℝ :=
  if j = 1 then (p1 C S v w i).add (miss C S v w i) else p2 C S v w i j

theorem psum_apply (t : Nat → Par ℝ) (a b c : ℝ) (n : Nat) :
    (psum t n).applyX a b c = ∑ i ∈ range n, (t i).applyX a b c ∧
    (psum t n).applyY a b c = ∑ i ∈ range n, (t i).applyY a b c ∧
    (psum t n).applyZ a b c = ∑ i ∈ range n, (t i).applyZ a b c := by
  induction n with
  | zero => simp [psum, Par.zero, Par.applyX, Par.applyY, Par.applyZ]
  | succ n ih =>
    rw [sum_range_succ, sum_range_succ, sum_range_succ, ← ih.1, ← ih.2.1, ← ih.2.2]
    simp only [psum, Par.add, Par.applyX, Par.applyY, Par.applyZ]
    refine ⟨by ring, by ring, by ring⟩

theorem add_apply (p q : Par ℝ) (a b c : ℝ) :
    (p.add q).applyX a b c = p.applyX a b c + q.applyX a b c ∧
    (p.add q).applyY a b c = p.applyY a b c + q.applyY a b c ∧
    (p.add q).applyZ a b c = p.applyZ a b c + q.applyZ a b c := by
  simp only [Par.add, Par.applyX, Par.applyY, Par.applyZ]
  refine ⟨by ring, by ring, by ring⟩

/-- Splitting off order 1. -/
theorem tessSum_split (degree order : Nat) (ho : 1 ≤ order) (t : Nat → Nat → ℝ) :
    tessSum degree order t = ∑ i ∈ range degree, t (i + 1) 1 +
      ∑ i ∈ range degree, ∑ j ∈ range (min (i + 1) order - 1), t (i + 1) (j + 2) := by
  unfold tessSum
  rw [← sum_add_distrib]
  refine sum_congr rfl fun i _ => ?_
  obtain ⟨r, hr⟩ : ∃ r, min (i + 1) order = r + 1 := ⟨min (i + 1) order - 1, by omega⟩
  rw [hr, sum_range_succ', add_comm]
  rfl

/-- The full (correct) matrix of partials: the code's plus the missing order-1 terms. -/
noncomputable def parFull (C S v w : Nat → Nat → ℝ) (degree order : Nat) : Par ℝ :=
  (parTotal C S v w degree order).add (psum (fun i => miss C S v w (i + 1)) degree)

theorem parFull_apply (C S v w : Nat → Nat → ℝ) (degree order : Nat) (ho : 1 ≤ order) (a b c : ℝ) :
    (parFull C S v w degree order).applyX a b c = ∑ i ∈ range (degree + 1), (p0 C v w i).applyX a b c +
      tessSum degree order (fun i j => (pfull C S v w i j).applyX a b c) ∧
    (parFull C S v w degree order).applyY a b c = ∑ i ∈ range (degree + 1), (p0 C v w i).applyY a b c +
      tessSum degree order (fun i j => (pfull C S v w i j).applyY a b c) ∧
    (parFull C S v w degree order).applyZ a b c = ∑ i ∈ range (degree + 1), (p0 C v w i).applyZ a b c +
      tessSum degree order (fun i j => (pfull C S v w i j).applyZ a b c) := by
  have hf1 : ∀ i, pfull C S v w (i + 1) 1 = (p1 C S v w (i + 1)).add (miss C S v w (i + 1)) := fun i => if_pos rfl
  have hf2 : ∀ i j, pfull C S v w (i + 1) (j + 2) = p2 C S v w (i + 1) (j + 2) := fun i j => if_neg (by omega)
  unfold parFull parTotal
  rw [tessSum_split degree order ho, tessSum_split degree order ho, tessSum_split degree order ho]
  simp only [hf1, hf2, (add_apply _ _ a b c).1, (add_apply _ _ a b c).2.1, (add_apply _ _ a b c).2.2,
    (psum_apply _ a b c _).1, (psum_apply _ a b c _).2.1, (psum_apply _ a b c _).2.2, rowSum, sum_add_distrib]
  refine ⟨by ring, by ring, by ring⟩

/-- **C54 (b)** the acceleration is differentiable with the symmetric, trace-free Jacobian `parFull`. -/
theorem accAt_deriv (degree order : Nat) (ho : 1 ≤ order) (Re GM x y z : ℝ) (hR : Re ≠ 0)
    (hr : x * x + y * y + z * z ≠ 0) (C S : Nat → Nat → ℝ) (a b c : ℝ) :
    let J := parFull C S (specV (Geo.ofPos Re x y z)) (specW (Geo.ofPos Re x y z)) degree order
    HasDerivAt (fun s => (accAt degree order Re GM C S (lineGeo Re x y z a b c s)).1)
      (J.applyX a b c * (GM / Re / Re / Re)) 0 ∧
    HasDerivAt (fun s => (accAt degree order Re GM C S (lineGeo Re x y z a b c s)).2.1)
      (J.applyY a b c * (GM / Re / Re / Re)) 0 ∧
    HasDerivAt (fun s => (accAt degree order Re GM C S (lineGeo Re x y z a b c s)).2.2)
      (J.applyZ a b c * (GM / Re / Re / Re)) 0 := by
  intro J
  have hterm : ∀ i j, 1 ≤ j → j ≤ i →
      HasDerivAt (fun s => tx1 C S (specV (lineGeo Re x y z a b c s)) (specW (lineGeo Re x y z a b c s)) i j)
        ((pfull C S (specV (Geo.ofPos Re x y z)) (specW (Geo.ofPos Re x y z)) i j).applyX a b c / Re) 0 ∧
      HasDerivAt (fun s => ty1 C S (specV (lineGeo Re x y z a b c s)) (specW (lineGeo Re x y z a b c s)) i j)
        ((pfull C S (specV (Geo.ofPos Re x y z)) (specW (Geo.ofPos Re x y z)) i j).applyY a b c / Re) 0 ∧
      HasDerivAt (fun s => tz1 C S (specV (lineGeo Re x y z a b c s)) (specW (lineGeo Re x y z a b c s)) i j)
        ((pfull C S (specV (Geo.ofPos Re x y z)) (specW (Geo.ofPos Re x y z)) i j).applyZ a b c / Re) 0 := by
    intro i j hj hji
    by_cases h1 : j = 1
    · subst h1
      obtain ⟨d, rfl⟩ : ∃ d, i = d + 1 := ⟨i - 1, by omega⟩
      unfold pfull
      rw [if_pos rfl]
      exact order1_term_deriv Re x y z a b c hR hr C S d
    · obtain ⟨k, rfl⟩ : ∃ k, j = k + 2 := ⟨j - 2, by omega⟩
      obtain ⟨d, rfl⟩ : ∃ d, i = k + 2 + d := ⟨i - (k + 2), by omega⟩
      unfold pfull
      rw [if_neg h1]
      exact higher_term_deriv Re x y z a b c hR hr C S k d
  have hz := zonal_term_deriv Re x y z a b c hR hr C
  have htx := tessSum_deriv degree order _ _ 0 (fun i j h1 h2 => (hterm i j h1 h2).1)
  have hty := tessSum_deriv degree order _ _ 0 (fun i j h1 h2 => (hterm i j h1 h2).2.1)
  have htz := tessSum_deriv degree order _ _ 0 (fun i j h1 h2 => (hterm i j h1 h2).2.2)
  have hzx : HasDerivAt (fun s => ∑ i ∈ range (degree + 1), tx0 C (specV (lineGeo Re x y z a b c s)) i) _ 0 :=
    HasDerivAt.fun_sum fun i _ => (hz i).1
  have hzy : HasDerivAt (fun s => ∑ i ∈ range (degree + 1), ty0 C (specW (lineGeo Re x y z a b c s)) i) _ 0 :=
    HasDerivAt.fun_sum fun i _ => (hz i).2.1
  have hzz : HasDerivAt (fun s => ∑ i ∈ range (degree + 1), tz0 C (specV (lineGeo Re x y z a b c s)) i) _ 0 :=
    HasDerivAt.fun_sum fun i _ => (hz i).2.2
  obtain ⟨ex, ey, ez⟩ := parFull_apply C S (specV (Geo.ofPos Re x y z)) (specW (Geo.ofPos Re x y z)) degree order ho a b c
  have hdiv : ∀ t : Nat → Nat → ℝ, tessSum degree order (fun i j => t i j / Re) = tessSum degree order t / Re := by
    intro t; unfold tessSum; simp only [sum_div]
  refine ⟨((hzx.add htx).mul_const _).congr_deriv ?_, ((hzy.add hty).mul_const _).congr_deriv ?_,
    ((hzz.add htz).mul_const _).congr_deriv ?_⟩
  · simp only [J]; rw [ex, hdiv, ← sum_div]; field_simp
  · simp only [J]; rw [ey, hdiv, ← sum_div]; field_simp
  · simp only [J]; rw [ez, hdiv, ← sum_div]; field_simp

theorem psum_miss_xx (C S v w : Nat → Nat → ℝ) (n : Nat) :
    (psum (fun i => miss C S v w (i + 1)) n).xx = 0 ∧ (psum (fun i => miss C S v w (i + 1)) n).xy = 0 ∧
    (psum (fun i => miss C S v w (i + 1)) n).zz = 0 := by
  induction n with
  | zero => exact ⟨rfl, rfl, rfl⟩
  | succ n ih =>
    show _ + (0 : ℝ) = 0 ∧ _ + (0 : ℝ) = 0 ∧ _ + (0 : ℝ) = 0
    rw [ih.1, ih.2.1, ih.2.2]
    exact ⟨add_zero _, add_zero _, add_zero _⟩

/-- **C54 (c)** what the program returns, entry by entry: the diagonal and `∂ax/∂y` are derivatives of
the acceleration; `∂ax/∂z` and `∂ay/∂z` are so up to the missing order-1 sums.  Missing: the upper
triangle (see `partials_upper`) and those two sums. -/
theorem partials_entries_partial (degree order : Nat) (ho1 : 1 ≤ order) (ho : order ≤ degree) (Re GM x y z : ℝ)
    (hR : Re ≠ 0) (hr : x * x + y * y + z * z ≠ 0) (V W : Mat ℝ) (C S : Nat → Nat → ℝ) (inp : Mat33 ℝ)
    (hA : Arrays (degree + 3) (order + 3) V W) :
    ∃ V' W' out, lagrange (Geo.ofPos Re x y z) (degree + 2) (order + 2) V W = some (0, V', W') ∧
      accelPartials degree order Re GM V' W' C S inp =
        some (accAt degree order Re GM C S (Geo.ofPos Re x y z), out) ∧
      HasDerivAt (fun s => (accAt degree order Re GM C S (Geo.ofPos Re (x + s) y z)).1) (out 0 0) 0 ∧
      HasDerivAt (fun s => (accAt degree order Re GM C S (Geo.ofPos Re x (y + s) z)).1) (out 1 0) 0 ∧
      HasDerivAt (fun s => (accAt degree order Re GM C S (Geo.ofPos Re (x + s) y z)).2.1) (out 1 0) 0 ∧
      HasDerivAt (fun s => (accAt degree order Re GM C S (Geo.ofPos Re x (y + s) z)).2.1) (out 1 1) 0 ∧
      HasDerivAt (fun s => (accAt degree order Re GM C S (Geo.ofPos Re x y (z + s))).2.2) (out 2 2) 0 ∧
      HasDerivAt (fun s => (accAt degree order Re GM C S (Geo.ofPos Re x y (z + s))).1)
        (out 2 0 + (psum (fun i => miss C S (specV (Geo.ofPos Re x y z)) (specW (Geo.ofPos Re x y z)) (i + 1)) degree).xz
          * (GM / Re / Re / Re)) 0 ∧
      HasDerivAt (fun s => (accAt degree order Re GM C S (Geo.ofPos Re x y (z + s))).2.1)
        (out 2 1 + (psum (fun i => miss C S (specV (Geo.ofPos Re x y z)) (specW (Geo.ofPos Re x y z)) (i + 1)) degree).yz
          * (GM / Re / Re / Re)) 0 := by
  obtain ⟨V', W', e, -, hV, hW⟩ := wrapper_partials_safe (Geo.ofPos Re x y z) degree order _ _ V W hA ho rfl rfl
  refine ⟨V', W', _, e, accelPartials_eq degree order ho1 Re GM V' W' C S _ _ inp hV hW, ?_⟩
  have dx := accAt_deriv degree order ho1 Re GM x y z hR hr C S 1 0 0
  have dy := accAt_deriv degree order ho1 Re GM x y z hR hr C S 0 1 0
  have dzz := accAt_deriv degree order ho1 Re GM x y z hR hr C S 0 0 1
  obtain ⟨m1, m2, m3⟩ := psum_miss_xx C S (specV (Geo.ofPos Re x y z)) (specW (Geo.ofPos Re x y z)) degree
  simp only [lineGeo, mul_one, mul_zero, add_zero, parFull, Par.applyX, Par.applyY, Par.applyZ,
    show ∀ p q : Par ℝ, (p.add q).xx = p.xx + q.xx from fun _ _ => rfl,
    show ∀ p q : Par ℝ, (p.add q).xy = p.xy + q.xy from fun _ _ => rfl,
    show ∀ p q : Par ℝ, (p.add q).xz = p.xz + q.xz from fun _ _ => rfl,
    show ∀ p q : Par ℝ, (p.add q).yz = p.yz + q.yz from fun _ _ => rfl,
    show ∀ p q : Par ℝ, (p.add q).zz = p.zz + q.zz from fun _ _ => rfl, m1, m2, m3, one_mul, zero_mul, zero_add]
    at dx dy dzz
  refine ⟨dx.1, dy.1, dx.2.1, dy.2.1, dzz.2.2, ?_, ?_⟩
  · exact dzz.1.congr_deriv (add_mul _ _ _)
  · exact dzz.2.1.congr_deriv (add_mul _ _ _)

/-- With no order-1 coefficients nothing is missing: the whole lower triangle is right. -/
theorem partials_lower_no_order1 (C S v w : Nat → Nat → ℝ) (degree : Nat) (h : ∀ i, C i 1 = 0 ∧ S i 1 = 0) :
    (psum (fun i => miss C S v w (i + 1)) degree).xz = 0 ∧ (psum (fun i => miss C S v w (i + 1)) degree).yz = 0 := by
  induction degree with
  | zero => exact ⟨rfl, rfl⟩
  | succ n ih =>
    have e : miss C S v w (n + 1) = Par.zero := by
      simp only [miss, (h _).1, (h _).2, Par.zero]
      congr 1 <;> ring
    show _ + (miss C S v w (n + 1)).xz = 0 ∧ _ + (miss C S v w (n + 1)).yz = 0
    rw [ih.1, ih.2, e]
    exact ⟨add_zero _, add_zero _⟩

/-- … and with order-1 coefficients `∂ax/∂z` is wrong: degree 1, `C11 = 1`, at `(0, 0, R)` the missing
term is `-3` (so the returned entry is off by `3 GM / R³`). -/
theorem partials_order1_counterexample :
    (psum (fun i => miss (fun _ j => if j = 1 then 1 else 0) (fun _ _ => 0)
      (specV (Geo.ofPos 1 0 0 1)) (specW (Geo.ofPos 1 0 0 1)) (i + 1)) 1).xz = -3 := by
  simp only [psum, Par.add, Par.zero, miss, specV, specW, col, sect, nextInColumn, Geo.ofPos]
  norm_num [col, sect]

example : ∃ V' W' acc, lagrange (Geo.ofPos 1 3 0 4) 3 3 ⟨⟨4, 4⟩, List.replicate 10 0⟩ ⟨⟨4, 4⟩, List.replicate 10 0⟩ =
      some (0, V', W') ∧ accel 2 2 1 1 V' W' (fun _ _ => 1) (fun _ _ => 1) = some acc ∧
      ∀ a b c : ℝ, HasDerivAt
        (fun s => potential 2 2 1 1 (fun _ _ => 1) (fun _ _ => 1) (Geo.ofPos 1 (3 + s * a) (0 + s * b) (4 + s * c)))
        (a * acc.1 + b * acc.2.1 + c * acc.2.2) 0 :=
  accel_is_gradient 2 2 4 4 1 1 3 0 4 one_ne_zero (by norm_num) _ _ _ _ ⟨rfl, rfl, rfl, rfl⟩ (le_refl _) (le_refl _)
    (le_refl _)

end Verif.Gravity
