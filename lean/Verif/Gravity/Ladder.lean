import Verif.Gravity.Spec
import Mathlib.Algebra.CharZero.Defs
import Mathlib.Data.Nat.Cast.Field
import Mathlib.Tactic.Ring
import Mathlib.Tactic.LinearCombination
import Mathlib.Tactic.FieldSimp

/-
Algebra of the solid harmonics in complex form: `Z = V + iW`, `u = x0 + i y0`, `ub` its conjugate.
Ladder identities between neighbouring columns, and the "formal derivative" identities used in
`Gradient.lean`.
-/
namespace Verif.Gravity

variable {F : Type} [Field F] [CharZero F]

/-- Complex form of `sect`. -/
def zs (u v : F) : Nat → F
  | 0 => v
  | m + 1 => (2 * (m : F) + 1) * (u * zs u v m)

/-- Complex form of `col`. -/
def zc (u z rho v : F) (m : Nat) : Nat → F
  | 0 => zs u v m
  | 1 => (2 * (m : F) + 1) * z * zs u v m
  | d + 2 => ((2 * ((m : F) + d + 2) - 1) * z * zc u z rho v m (d + 1)
      - (2 * (m : F) + d + 1) * rho * zc u z rho v m d) / ((d : F) + 2)

variable (u ub z rho v : F)

theorem cast_ne (d k : Nat) : ((d : F) + ((k + 1 : Nat) : F)) ≠ 0 := by
  have : (((d + (k + 1) : Nat)) : F) ≠ 0 := Nat.cast_ne_zero.2 (by omega)
  push_cast at this ⊢
  exact this

theorem d2 (d : Nat) : ((d : F) + 2) ≠ 0 := by
  have := cast_ne (F := F) d 1; push_cast at this; exact this

/-- The recursion without division. -/
theorem zc_rec (m d : Nat) : ((d : F) + 2) * zc u z rho v m (d + 2) =
    (2 * (m : F) + 2 * d + 3) * z * zc u z rho v m (d + 1) - (2 * (m : F) + d + 1) * rho * zc u z rho v m d := by
  have h := d2 (F := F) d
  show _ * (_ / _) = _
  field_simp
  ring

theorem zc_one (m : Nat) : zc u z rho v m 1 = (2 * (m : F) + 1) * z * zc u z rho v m 0 := rfl

theorem zc_sect (m : Nat) : zc u z rho v (m + 1) 0 = (2 * (m : F) + 1) * (u * zc u z rho v m 0) := rfl

/-- Identities `A` and `B` between columns `m` and `m + 1`. -/
theorem ladder (m d : Nat) :
    ((d : F) + 2) * (u * zc u z rho v m (d + 2)) = z * zc u z rho v (m + 1) (d + 1) - rho * zc u z rho v (m + 1) d ∧
    (2 * (m : F) + d + 2) * (u * zc u z rho v m (d + 1)) = zc u z rho v (m + 1) (d + 1) - z * zc u z rho v (m + 1) d := by
  induction d with
  | zero =>
    have r := zc_rec u z rho v m 0
    have h1 := zc_one u z rho v m
    have h2 := zc_one u z rho v (m + 1)
    have h3 := zc_sect u z rho v m
    push_cast at r h2 ⊢
    simp only [zero_add] at r ⊢
    constructor
    · linear_combination u * r + (2 * (m : F) + 3) * z * u * h1 - z * h2 +
        (-(2 * (m : F) + 3) * z ^ 2 + rho) * h3
    · linear_combination (2 * (m : F) + 2) * u * h1 - h2 - (2 * (m : F) + 2) * z * h3
  | succ d ih =>
    obtain ⟨hA, hB⟩ := ih
    have r := zc_rec u z rho v (m + 1) d
    have r' := zc_rec u z rho v m (d + 1)
    have n2 := d2 (F := F) d
    push_cast at r r' ⊢
    have hB' : (2 * (m : F) + (d + 1) + 2) * (u * zc u z rho v m (d + 1 + 1)) =
        zc u z rho v (m + 1) (d + 1 + 1) - z * zc u z rho v (m + 1) (d + 1) := by
      refine mul_left_cancel₀ n2 ?_
      linear_combination (2 * (m : F) + d + 3) * hA - r
    refine ⟨?_, hB'⟩
    linear_combination u * r' + z * hA + z * hB' - rho * hB

/-- Identity `D`: from column `m + 1` down to column `m`. -/
theorem ladderDown (hu : u * ub = rho - z ^ 2) (m d : Nat) :
    (ub * zc u z rho v (m + 1) d = -((d : F) + 1) * z * zc u z rho v m (d + 1) + (2 * (m : F) + d + 1) * rho * zc u z rho v m d) ∧
    (ub * zc u z rho v (m + 1) (d + 1) = -((d : F) + 2) * z * zc u z rho v m (d + 2) + (2 * (m : F) + d + 2) * rho * zc u z rho v m (d + 1)) := by
  induction d with
  | zero =>
    have r := zc_rec u z rho v m 0
    have h1 := zc_one u z rho v m
    have h2 := zc_one u z rho v (m + 1)
    have h3 := zc_sect u z rho v m
    push_cast at r h2 ⊢
    simp only [zero_add] at r h2 ⊢
    constructor
    · linear_combination ub * h3 + z * h1 + (2 * (m : F) + 1) * zc u z rho v m 0 * hu
    · linear_combination ub * h2 + (2 * (m : F) + 3) * z * ub * h3 + z * r +
        ((2 * (m : F) + 3) * z ^ 2 - (2 * (m : F) + 2) * rho) * h1 +
        (2 * (m : F) + 3) * z * (2 * (m : F) + 1) * zc u z rho v m 0 * hu
  | succ d ih =>
    obtain ⟨h0, h1⟩ := ih
    refine ⟨?_, ?_⟩
    · push_cast; linear_combination h1
    have r := zc_rec u z rho v (m + 1) d
    have r1 := zc_rec u z rho v m (d + 1)
    have r0 := zc_rec u z rho v m d
    have n2 := d2 (F := F) d
    push_cast at r r1 r0 ⊢
    refine mul_left_cancel₀ n2 ?_
    linear_combination ub * r + (2 * (m : F) + 2 * d + 5) * z * h1 - (2 * (m : F) + d + 3) * rho * h0 +
      (d + 2) * z * r1 - (2 * (m : F) + d + 3) * rho * r0

/-- Down-neighbour appearing in the derivative: `(n-m+1)(n-m+2) Z_{n+1,m-1}`, and for `m = 0` minus the
conjugate of `Z_{n+1,1}`. -/
def down (m d : Nat) : F :=
  match m with
  | 0 => -zc ub z rho v 1 d
  | k + 1 => ((d : F) + 1) * (d + 2) * zc u z rho v k (d + 2)

theorem zs_zero (u' : F) : zs u v 0 = zs u' v 0 := rfl

theorem zc_zero (u' : F) (d : Nat) : zc u z rho v 0 d = zc u' z rho v 0 d ∧
    zc u z rho v 0 (d + 1) = zc u' z rho v 0 (d + 1) := by
  induction d with
  | zero => exact ⟨rfl, rfl⟩
  | succ d ih =>
    refine ⟨ih.2, ?_⟩
    show _ / _ = _ / _
    rw [ih.1, ih.2]

/-- Derivative of `Z_{n,m}`, `n = m + d`, in the direction `(a, b, c)`, times `R`; `p = (a - ib)/2`,
`q = (a + ib)/2`. -/
def dz (p q c : F) (m d : Nat) : F :=
  p * -zc u z rho v (m + 1) d + q * down u ub z rho v m d - c * ((d : F) + 1) * zc u z rho v m (d + 1)

/-- Derivatives of the ingredients, times `R`. -/
def dZ0 (p q c : F) : F := -2 * z * (p * u + q * ub + c * z) + c * rho
def dU (p q c : F) : F := p * (-2 * u ^ 2) + q * (2 * z ^ 2) + c * (-2 * z * u)
def dRho (p q c : F) : F := -2 * rho * (p * u + q * ub + c * z)
def dV (p q c : F) : F := -(p * u + q * ub + c * z) * v

theorem dz_zero (p q c : F) : dz u ub z rho v p q c 0 0 = dV u ub z v p q c := by
  simp only [dz, down, dV, zc, zs]
  push_cast
  ring

theorem dz_sect (hu : u * ub = rho - z ^ 2) (p q c : F) (m : Nat) :
    dz u ub z rho v p q c (m + 1) 0 = (2 * (m : F) + 1) *
      (dU u z p q c * zc u z rho v m 0 + u * dz u ub z rho v p q c m 0) := by
  have h1 := zc_one u z rho v m
  have h1' := zc_one u z rho v (m + 1)
  have h3 := zc_sect u z rho v m
  have h3' := zc_sect u z rho v (m + 1)
  have r := zc_rec u z rho v m 0
  cases m with
  | zero =>
    have e : zc ub z rho v 1 0 = ub * v := by simp [zc, zs]
    have e0 : zc u z rho v 0 0 = v := rfl
    push_cast at h1 h1' h3 h3' r
    simp only [zero_add, mul_zero, one_mul] at h1 h1' h3 h3' r
    simp only [dz, down, dU, e]
    push_cast
    simp only [zero_add, mul_zero, one_mul]
    rw [e0] at *
    linear_combination -p * h3' + (-2 * p * u - 3 * c * z) * h3 + q * r + 3 * q * z * h1 - c * h1' + c * u * h1 + q * v * hu
  | succ k =>
    have l := (ladder u z rho v k 0).1
    push_cast at h1 h1' h3 h3' r l
    simp only [zero_add] at h1 h1' h3 h3' r l
    simp only [dz, down, dU]
    push_cast
    simp only [zero_add]
    linear_combination -p * h3' - (2 * p * u) * h3 + q * r + q * (2 * (k : F) + 5) * z * h1 - c * h1' + c * u * (2 * (k : F) + 3) * h1 - c * (2 * (k : F) + 5) * z * h3 - (2 * (k : F) + 3) * q * (l + z * h1)

theorem dz_one (hu : u * ub = rho - z ^ 2) (p q c : F) (m : Nat) :
    dz u ub z rho v p q c m 1 = (2 * (m : F) + 1) *
      (dZ0 u ub z rho p q c * zc u z rho v m 0 + z * dz u ub z rho v p q c m 0) := by
  have h1 := zc_one u z rho v m
  have h1' := zc_one u z rho v (m + 1)
  have h3 := zc_sect u z rho v m
  have r := zc_rec u z rho v m 0
  cases m with
  | zero =>
    have e : zc ub z rho v 1 0 = ub * v := by simp [zc, zs]
    have e1 := zc_one ub z rho v 1
    have e0 : zc u z rho v 0 0 = v := rfl
    push_cast at h1 h1' h3 r e1
    simp only [zero_add, mul_zero, one_mul] at h1 h1' h3 r
    simp only [dz, down, dZ0]
    push_cast
    simp only [zero_add, mul_zero, one_mul]
    rw [e0] at *
    linear_combination p * (-h1' - 2 * z * h3) + c * (-r - 2 * z * h1) + q * (-e1 - 2 * z * e)
  | succ k =>
    have h1k := zc_one u z rho v k
    have r1 := zc_rec u z rho v k 1
    have r0 := zc_rec u z rho v k 0
    have hD := (ladderDown u ub z rho v hu k 0).1
    push_cast at h1 h1' h3 r h1k r1 r0 hD
    simp only [zero_add] at h1 h1' h3 r h1k r1 r0 hD
    simp only [dz, down, dZ0]
    push_cast
    simp only [zero_add]
    linear_combination p * (-h1' - 2 * z * h3) + c * (-r - 2 * z * h1) +
      q * (2 * r1 + 2 * (2 * (k : F) + 3) * z * hD + 2 * z * r0 - 2 * (2 * (k : F) + 2) * rho * h1k)

theorem dz_step (hu : u * ub = rho - z ^ 2) (p q c : F) (m d : Nat) :
    dz u ub z rho v p q c m (d + 2) =
      ((2 * ((m : F) + d + 2) - 1) * (dZ0 u ub z rho p q c * zc u z rho v m (d + 1) + z * dz u ub z rho v p q c m (d + 1))
        - (2 * (m : F) + d + 1) * (dRho u ub z rho p q c * zc u z rho v m d + rho * dz u ub z rho v p q c m d)) / ((d : F) + 2) := by
  rw [eq_div_iff (d2 d)]
  have r := zc_rec u z rho v m d
  have r' := zc_rec u z rho v (m + 1) d
  have rn := zc_rec u z rho v m (d + 1)
  have hA := (ladder u z rho v m d).1
  cases m with
  | zero =>
    have rb := zc_rec ub z rho v 0 d
    have rb' := zc_rec ub z rho v 1 d
    have hAb := (ladder ub z rho v 0 d).1
    rw [← (zc_zero u z rho v ub d).1, ← (zc_zero u z rho v ub d).2, ← (zc_zero u z rho v ub (d + 1)).2] at rb
    rw [← (zc_zero u z rho v ub (d + 1)).2] at hAb
    push_cast at r r' rn rb rb'
    simp only [zero_add, mul_zero] at r r' rn rb rb' hA hAb
    simp only [dz, down, dZ0, dRho]
    push_cast
    simp only [zero_add, mul_zero]
    linear_combination p * (-r' - 2 * u * r + 2 * hA) + c * (-(d + 2) * rn - 2 * z * r) +
      q * (-rb' - 2 * ub * rb + 2 * hAb)
  | succ k =>
    have ry := zc_rec u z rho v k (d + 2)
    have hD := (ladderDown u ub z rho v hu k (d + 1)).2
    push_cast at r r' rn ry hD hA
    simp only [dz, down, dZ0, dRho]
    push_cast
    linear_combination p * (-r' - 2 * u * r + 2 * hA) + c * (-(d + 2) * rn - 2 * z * r) +
      q * ((d + 2) * (d + 3) * ry - 2 * ub * r + 2 * (d + 2) * hD)

end Verif.Gravity
