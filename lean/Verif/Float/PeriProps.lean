import Verif.Float.PeriModel
import Verif.Float.FrameProps

/-
C184: the perifocal matrix in double arithmetic.
-/
namespace Verif.Float.Peri

open Real
open Verif.Astro (V3 M3)
open Verif.Float.State
open Verif.Float.Frame (NrV NrM mulVec_err mulVecD)
open Verif.Orbit (p2eMatrix matT)

variable {rnd sn cs : ℝ → ℝ}

/-- A product of a sine or cosine with another. -/
theorem two_nr (hr : Nearest rnd) {p q p' q' : ℝ} (hp : Nr 1 t 1 p p') (hq : Nr 1 t 1 q q') :
    Nr 1 (11 * t) 1 (rnd (p * q)) (p' * q') :=
  ((hp.mul hq unit_one (by unfold t; norm_num)).round hr unit_one (by unfold t; norm_num) (by norm_num)).weaken unit_one
    (by unfold t; norm_num) (by norm_num)

/-- **C184** Every entry of the computed matrix is that of the matrix written in the code, up to eleven units, `1.4e-15`. -/
theorem p2e_nr (hr : Nearest rnd) (hl : LibM sn cs) (fl : ℕ → Bool) (O o i : ℝ) :
    NrM (11 * t) (p2eD rnd sn cs fl O o i) (p2eMatrix O o i) := by
  obtain ⟨cO, sO⟩ := trig hl O
  obtain ⟨ci, si⟩ := trig hl i
  have hx := row_nr hr hl fl O o i .x
  have hy := row_nr hr hl fl O o i .y
  exact ⟨⟨hx.1, hx.2, two_nr hr sO si⟩, ⟨hy.1, hy.2, two_nr hr cO.neg si⟩,
    ⟨two_nr hr sO si, two_nr hr cO si, ci.weaken unit_one (by unfold t; norm_num) le_rfl⟩⟩

/-- **C184** From perifocal to equatorial coordinates and, with the transposed matrix, back: every component is that of the
exact product up to `6e-15` of the largest component of the vector. -/
theorem convert_error (hr : Nearest rnd) (hl : LibM sn cs) (fl : ℕ → Bool) (f g : ℕ → ℕ → Bool) (O o i : ℝ) {s s' : ℝ}
    {y : V3 × V3} (hs : State.Unit s) (hs' : State.Unit s') (h1 : ∀ w : Ax, |w.of y.1| ≤ s)
    (h2 : ∀ w : Ax, |w.of y.2| ≤ s') (w : Ax) :
    (|w.of (toEquatorialD rnd sn cs fl f g O o i y).1 - w.of ((p2eMatrix O o i).mulVec y.1)| ≤ 6 / 10 ^ 15 * s ∧
      |w.of (toEquatorialD rnd sn cs fl f g O o i y).2 - w.of ((p2eMatrix O o i).mulVec y.2)| ≤ 6 / 10 ^ 15 * s') ∧
    (|w.of (toPerifocalD rnd sn cs fl f g O o i y).1 - w.of ((p2eMatrix O o i).transpose.mulVec y.1)| ≤ 6 / 10 ^ 15 * s ∧
      |w.of (toPerifocalD rnd sn cs fl f g O o i y).2 - w.of ((p2eMatrix O o i).transpose.mulVec y.2)| ≤ 6 / 10 ^ 15 * s') := by
  have k : ∀ {s : ℝ} {v : V3}, (∀ w : Ax, |w.of v| ≤ s) → NrV s 0 v v := fun h =>
    ⟨⟨by simp, by rw [one_mul]; exact h .x⟩, ⟨by simp, by rw [one_mul]; exact h .y⟩,
      ⟨by simp, by rw [one_mul]; exact h .z⟩⟩
  have m := p2e_nr hr hl fl O o i
  have b : 3 * 0 + 3003 / 1000 * (11 * t) + 81 / 10 * t ≤ 6 / 10 ^ 15 := by unfold t; norm_num
  have d : 11 * t ≤ 1 / 10000 := by unfold t; norm_num
  have z : (0 : ℝ) ≤ 1 / 10000 := by norm_num
  exact ⟨⟨(mulVec_err hr f hs m (k h1) d z w).trans (mul_le_mul_of_nonneg_right b hs.pos.le),
      (mulVec_err hr g hs' m (k h2) d z w).trans (mul_le_mul_of_nonneg_right b hs'.pos.le)⟩,
    (mulVec_err hr f hs m.transpose (k h1) d z w).trans (mul_le_mul_of_nonneg_right b hs.pos.le),
    (mulVec_err hr g hs' m.transpose (k h2) d z w).trans (mul_le_mul_of_nonneg_right b hs'.pos.le)⟩

/-- **C184** The last row uses the node where the argument of perigee belongs (C48).  With doubles the entries are wrong by the
differences of the sines and of the cosines, times the sine of the inclination, up to `1.4e-15`: for every orbit. -/
theorem last_row_error (hr : Nearest rnd) (hl : LibM sn cs) (fl : ℕ → Bool) (O o i : ℝ) :
    |((p2eD rnd sn cs fl O o i).r2.x - (matT O o i).r2.x) - (sin O - sin o) * sin i| ≤ 14 / 10 ^ 16 ∧
      |((p2eD rnd sn cs fl O o i).r2.y - (matT O o i).r2.y) - (cos O - cos o) * sin i| ≤ 14 / 10 ^ 16 := by
  have m := (p2e_nr hr hl fl O o i).r2
  have b : 11 * t * 1 ≤ 14 / 10 ^ 16 := by unfold t; norm_num
  constructor
  · refine le_trans (le_of_eq ?_) (m.x.err.trans b)
    congr 1
    simp only [p2eMatrix, matT]; ring
  · refine le_trans (le_of_eq ?_) (m.y.err.trans b)
    congr 1
    simp only [p2eMatrix, matT]; ring

/-- The double next to a right angle. -/
theorem right_angle (hr : Nearest rnd) : |rnd (π / 2) - π / 2| ≤ 1 / 10 ^ 15 :=
  (round_err hr (x := π / 2) 1 (by norm_num) (by
    rw [abs_of_pos (by positivity)]
    have := pi_lt_four
    norm_num
    linarith)).trans (by norm_num)

/-- **C184, counterexample to the rotation** In a polar orbit with the node at 90 degrees and the perigee in the node (the
angles being the doubles next to the right angle), the perigee direction that the functions give is not of unit length: the
squared length of the first column is 2 up to `1e-14`, for every rounding to nearest and every choice of fused products. -/
theorem not_rotation_counterexample (hr : Nearest rnd) (hl : LibM sn cs) (fl : ℕ → Bool) :
    let c := (p2eD rnd sn cs fl (rnd (π / 2)) 0 (rnd (π / 2))).transpose.r0
    |c.dot c - 2| ≤ 1 / 10 ^ 14 := by
  have q := right_angle hr
  generalize rnd (π / 2) = O at *
  have m := (p2e_nr hr hl fl O 0 O).transpose.r0
  intro c
  have b : 11 * t * 1 ≤ 14 / 10 ^ 16 := by unfold t; norm_num
  have e : (p2eMatrix O 0 O).transpose.r0 = ⟨cos O, sin O, sin O * sin O⟩ := by
    simp [p2eMatrix, M3.transpose]
  rw [e] at m
  have hx := m.x.err.trans b
  have hy := m.y.err.trans b
  have hz := m.z.err.trans b
  change |c.x - cos O| ≤ _ at hx
  change |c.y - sin O| ≤ _ at hy
  change |c.z - sin O * sin O| ≤ _ at hz
  have k1 : |cos O| ≤ 1 / 10 ^ 15 := by
    have := Real.abs_cos_sub_cos_le O (π / 2)
    rw [cos_pi_div_two, sub_zero] at this
    linarith
  have k2 : |sin O - 1| ≤ 1 / 10 ^ 15 := by
    have := Real.abs_sin_sub_sin_le O (π / 2)
    rw [sin_pi_div_two] at this
    linarith
  have k3 : |sin O * sin O - 1| ≤ 1 / 10 ^ 15 * (1 / 10 ^ 15) := by
    rw [show sin O * sin O - 1 = -(cos O * cos O) by linarith [sin_sq_add_cos_sq O, sq (sin O), sq (cos O)], abs_neg, abs_mul]
    exact mul_le_mul k1 k1 (abs_nonneg _) (by norm_num)
  generalize sin O * sin O = z at *
  generalize sin O = y at *
  generalize cos O = x at *
  rw [abs_le] at hx hy hz k1 k2 k3 ⊢
  have cx : |c.x| ≤ 3 / 10 ^ 15 := abs_le.2 ⟨by linarith, by linarith⟩
  have cy : |c.y - 1| ≤ 24 / 10 ^ 16 := abs_le.2 ⟨by linarith, by linarith⟩
  have cz : |c.z - 1| ≤ 15 / 10 ^ 16 := abs_le.2 ⟨by linarith, by linarith⟩
  have sx := mul_le_mul cx cx (abs_nonneg _) (by norm_num)
  have sy := mul_le_mul cy cy (abs_nonneg _) (by norm_num)
  have sz := mul_le_mul cz cz (abs_nonneg _) (by norm_num)
  rw [abs_mul_abs_self] at sx sy sz
  rw [abs_le] at cy cz
  have nx := mul_self_nonneg c.x
  have ny := mul_self_nonneg (c.y - 1)
  have nz := mul_self_nonneg (c.z - 1)
  unfold V3.dot
  rw [show c.x * c.x + c.y * c.y + c.z * c.z - 2 = c.x * c.x + (c.y - 1) * (c.y - 1) + (c.z - 1) * (c.z - 1) +
    2 * (c.y - 1) + 2 * (c.z - 1) by ring]
  constructor <;> linarith

/-- **C184 (partial)** When node and argument of perigee have the same sine and cosine the computed matrix is the rotation up
to `1.4e-15`. -/
theorem rotation_partial (hr : Nearest rnd) (hl : LibM sn cs) (fl : ℕ → Bool) {O o : ℝ} (i : ℝ) (hs : sin O = sin o)
    (hc : cos O = cos o) : NrM (11 * t) (p2eD rnd sn cs fl O o i) (matT O o i) := by
  have h := p2e_nr hr hl fl O o i
  have e : p2eMatrix O o i = matT O o i := by unfold p2eMatrix matT; simp only [hs, hc]
  rwa [e] at h

/-! ### Examples -/

example (fl : ℕ → Bool) :
    ((p2eD rnd64 (fun x => rnd64 (sin x)) (fun x => rnd64 (cos x)) fl (rnd64 (π / 2)) 0 (rnd64 (π / 2))).transpose.r0).norm ≠ 1 := by
  intro h
  have k := not_rotation_counterexample rnd64_nearest (libM_rnd rnd64_nearest) fl
  simp only at k
  rw [← V3.norm_sq, h] at k
  norm_num at k

/-- A position at 7700 km, velocity 7 km/s. -/
example (fl : ℕ → Bool) (f g : ℕ → ℕ → Bool) :
    |(toEquatorialD rnd64 (fun x => rnd64 (sin x)) (fun x => rnd64 (cos x)) fl f g 1 2 3
      (⟨7700000, -5, 0⟩, ⟨1, 7000, 0⟩)).1.z - ((p2eMatrix 1 2 3).mulVec ⟨7700000, -5, 0⟩).z| ≤ 5 / 10 ^ 8 := by
  have h := (convert_error rnd64_nearest (libM_rnd rnd64_nearest) fl f g 1 2 3 (s := 7700000) (s' := 7000)
    (y := (⟨7700000, -5, 0⟩, ⟨1, 7000, 0⟩)) (by unfold State.Unit; norm_num) (by unfold State.Unit; norm_num)
    (by intro w; cases w <;> simp only [Ax.of] <;> norm_num) (by intro w; cases w <;> simp only [Ax.of] <;> norm_num) .z).1.1
  exact h.trans (by norm_num)

/-- An orbit whose node and argument of perigee differ by a revolution. -/
example (fl : ℕ → Bool) (i : ℝ) :
    NrM (11 * t) (p2eD rnd64 (fun x => rnd64 (sin x)) (fun x => rnd64 (cos x)) fl 1 (1 + 2 * π) i) (matT 1 (1 + 2 * π) i) :=
  rotation_partial rnd64_nearest (libM_rnd rnd64_nearest) fl i (sin_add_two_pi 1).symm (cos_add_two_pi 1).symm

end Verif.Float.Peri
