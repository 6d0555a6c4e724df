import Mathlib.Data.Real.Sqrt
import Mathlib.Analysis.SpecialFunctions.Trigonometric.Basic
import Mathlib.Tactic.Ring
import Mathlib.Tactic.LinearCombination
import Mathlib.Tactic.Linarith

/-
Three-component vectors and 3x3 matrices over the reals.  They stand for `dso::Vector3`,
`dso::Mat3x3` (matvec) and the fixed-size Eigen types; these libraries are outside the repository
and their operations are taken to be the textbook ones.
-/
namespace Verif.Astro

open Real

@[ext] structure V3 where
  x : ℝ
  y : ℝ
  z : ℝ

namespace V3

def add (a b : V3) : V3 := ⟨a.x + b.x, a.y + b.y, a.z + b.z⟩
def sub (a b : V3) : V3 := ⟨a.x - b.x, a.y - b.y, a.z - b.z⟩
def smul (k : ℝ) (a : V3) : V3 := ⟨k * a.x, k * a.y, k * a.z⟩
def dot (a b : V3) : ℝ := a.x * b.x + a.y * b.y + a.z * b.z
def cross (a b : V3) : V3 :=
  ⟨a.y * b.z - a.z * b.y, a.z * b.x - a.x * b.z, a.x * b.y - a.y * b.x⟩
noncomputable def norm (a : V3) : ℝ := √(dot a a)

theorem dot_self_nonneg (a : V3) : 0 ≤ dot a a := by
  unfold dot
  nlinarith [mul_self_nonneg a.x, mul_self_nonneg a.y, mul_self_nonneg a.z]

theorem norm_nonneg (a : V3) : 0 ≤ norm a := Real.sqrt_nonneg _

theorem norm_sq (a : V3) : norm a * norm a = dot a a := Real.mul_self_sqrt (dot_self_nonneg a)

theorem norm_pos (a : V3) (h : a ≠ ⟨0, 0, 0⟩) : 0 < norm a := by
  apply Real.sqrt_pos.2
  rcases lt_or_eq_of_le (dot_self_nonneg a) with h1 | h1
  · exact h1
  · exfalso
    apply h
    unfold dot at h1
    have hx := mul_self_nonneg a.x
    have hy := mul_self_nonneg a.y
    have hz := mul_self_nonneg a.z
    ext
    · exact mul_self_eq_zero.1 (by linarith)
    · exact mul_self_eq_zero.1 (by linarith)
    · exact mul_self_eq_zero.1 (by linarith)

theorem cross_smul (k : ℝ) (a b : V3) : cross a (smul k b) = smul k (cross a b) := by
  ext <;> simp [cross, smul] <;> ring

end V3

/-- A matrix by its rows. -/
@[ext] structure M3 where
  r0 : V3
  r1 : V3
  r2 : V3

namespace M3

def mulVec (m : M3) (v : V3) : V3 := ⟨m.r0.dot v, m.r1.dot v, m.r2.dot v⟩
def transpose (m : M3) : M3 :=
  ⟨⟨m.r0.x, m.r1.x, m.r2.x⟩, ⟨m.r0.y, m.r1.y, m.r2.y⟩, ⟨m.r0.z, m.r1.z, m.r2.z⟩⟩
def mul (a b : M3) : M3 :=
  ⟨b.transpose.mulVec a.r0, b.transpose.mulVec a.r1, b.transpose.mulVec a.r2⟩
def one : M3 := ⟨⟨1, 0, 0⟩, ⟨0, 1, 0⟩, ⟨0, 0, 1⟩⟩
def add (a b : M3) : M3 := ⟨a.r0.add b.r0, a.r1.add b.r1, a.r2.add b.r2⟩
def smul (k : ℝ) (a : M3) : M3 := ⟨a.r0.smul k, a.r1.smul k, a.r2.smul k⟩
/-- `a b^T`. -/
def outer (a b : V3) : M3 := ⟨b.smul a.x, b.smul a.y, b.smul a.z⟩

theorem mul_mulVec (a b : M3) (v : V3) : (mul a b).mulVec v = a.mulVec (b.mulVec v) := by
  ext <;> simp [mul, mulVec, transpose, V3.dot] <;> ring

theorem one_mulVec (v : V3) : one.mulVec v = v := by
  ext <;> simp [one, mulVec, V3.dot]

theorem mul_assoc (a b c : M3) : mul (mul a b) c = mul a (mul b c) := by
  ext <;> simp [mul, mulVec, transpose, V3.dot] <;> ring

theorem mul_one (a : M3) : mul a one = a := by
  ext <;> simp [mul, mulVec, transpose, V3.dot, one]

theorem one_mul (a : M3) : mul one a = a := by
  ext <;> simp [mul, mulVec, transpose, V3.dot, one]

theorem transpose_mul (a b : M3) : (mul a b).transpose = mul b.transpose a.transpose := by
  ext <;> simp [mul, mulVec, transpose, V3.dot] <;> ring

theorem transpose_transpose (a : M3) : a.transpose.transpose = a := rfl

theorem mulVec_add (m : M3) (a b : V3) : m.mulVec (a.add b) = (m.mulVec a).add (m.mulVec b) := by
  ext <;> simp [mulVec, V3.dot, V3.add] <;> ring

theorem mulVec_smul (m : M3) (k : ℝ) (a : V3) : m.mulVec (a.smul k) = (m.mulVec a).smul k := by
  ext <;> simp [mulVec, V3.dot, V3.smul] <;> ring

theorem dot_mulVec (m : M3) (a b : V3) : (m.mulVec a).dot b = a.dot (m.transpose.mulVec b) := by
  simp [mulVec, V3.dot, transpose]
  ring

/-- Columns of unit length and at right angles. -/
def Orthogonal (m : M3) : Prop := mul m.transpose m = one

theorem Orthogonal.dot {m : M3} (h : Orthogonal m) (a b : V3) : (m.mulVec a).dot (m.mulVec b) = a.dot b := by
  rw [dot_mulVec, ← mul_mulVec, h, one_mulVec]

theorem Orthogonal.mul {a b : M3} (ha : Orthogonal a) (hb : Orthogonal b) : Orthogonal (mul a b) := by
  unfold Orthogonal at *
  rw [transpose_mul, mul_assoc, ← mul_assoc a.transpose, ha, one_mul, hb]

/-- A proper rotation: lengths, angles and orientation preserved. -/
structure Rotation (m : M3) : Prop where
  orth : Orthogonal m
  cross : ∀ a b, (m.mulVec a).cross (m.mulVec b) = m.mulVec (a.cross b)

theorem Rotation.mul {a b : M3} (ha : Rotation a) (hb : Rotation b) : Rotation (mul a b) := by
  refine ⟨ha.orth.mul hb.orth, fun x y => ?_⟩
  rw [mul_mulVec, mul_mulVec, ha.cross, hb.cross, mul_mulVec]

/-- `Eigen::AngleAxisd(t, UnitZ)`. -/
noncomputable def rotZ (t : ℝ) : M3 := ⟨⟨cos t, -sin t, 0⟩, ⟨sin t, cos t, 0⟩, ⟨0, 0, 1⟩⟩
/-- `Eigen::AngleAxisd(t, UnitX)`. -/
noncomputable def rotX (t : ℝ) : M3 := ⟨⟨1, 0, 0⟩, ⟨0, cos t, -sin t⟩, ⟨0, sin t, cos t⟩⟩

theorem rotZ_rotation (t : ℝ) : Rotation (rotZ t) := by
  have h := sin_sq_add_cos_sq t
  constructor
  · unfold Orthogonal
    ext <;> simp [M3.mul, mulVec, transpose, V3.dot, rotZ, one] <;> first | linear_combination h | ring
  · intro a b
    ext <;> simp [mulVec, V3.dot, V3.cross, rotZ]
    · ring
    · ring
    · linear_combination (a.x * b.y - a.y * b.x) * h

theorem rotX_rotation (t : ℝ) : Rotation (rotX t) := by
  have h := sin_sq_add_cos_sq t
  constructor
  · unfold Orthogonal
    ext <;> simp [M3.mul, mulVec, transpose, V3.dot, rotX, one] <;> first | linear_combination h | ring
  · intro a b
    ext <;> simp [mulVec, V3.dot, V3.cross, rotX]
    · linear_combination (a.y * b.z - a.z * b.y) * h
    · ring
    · ring

theorem rotZ_transpose (t : ℝ) : (rotZ (-t)).transpose = rotZ t := by
  simp [transpose, rotZ]

theorem rotX_transpose (t : ℝ) : (rotX (-t)).transpose = rotX t := by
  simp [transpose, rotX]

end M3

end Verif.Astro
