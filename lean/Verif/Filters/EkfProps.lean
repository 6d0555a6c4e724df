import Verif.Filters.EkfModel
import Mathlib.Tactic.Ring
import Mathlib.Tactic.FieldSimp
import Mathlib.Tactic.Linarith
import Mathlib.Tactic.Positivity
import Mathlib.Tactic.NormNum

/-! C35, C36: the Kalman filter keeps a valid covariance. -/
namespace Verif.Filters

open Matrix

/-! ### Specification -/

/-- Symmetric positive semidefinite. -/
def Psd {n : Nat} (M : Matrix (Fin n) (Fin n) ℝ) : Prop :=
  (∀ i j, M i j = M j i) ∧ ∀ v : Fin n → ℝ, 0 ≤ v ⬝ᵥ (M *ᵥ v)

/-- `A` is not larger than `B`. -/
def NotLarger {n : Nat} (A B : Matrix (Fin n) (Fin n) ℝ) : Prop :=
  ∀ v : Fin n → ℝ, v ⬝ᵥ (A *ᵥ v) ≤ v ⬝ᵥ (B *ᵥ v)

/-! ### Lemmas -/

theorem Psd.transpose {n : Nat} {M : Matrix (Fin n) (Fin n) ℝ} (h : Psd M) : Mᵀ = M := by
  ext i j; exact h.1 j i

theorem quad_conj {n : Nat} (A P : Matrix (Fin n) (Fin n) ℝ) (v : Fin n → ℝ) :
    v ⬝ᵥ ((A * P * Aᵀ) *ᵥ v) = (Aᵀ *ᵥ v) ⬝ᵥ (P *ᵥ (Aᵀ *ᵥ v)) := by
  rw [← Matrix.mulVec_mulVec, ← Matrix.mulVec_mulVec, Matrix.dotProduct_mulVec, ← Matrix.mulVec_transpose]

theorem psd_conj {n : Nat} (A P : Matrix (Fin n) (Fin n) ℝ) (h : Psd P) : Psd (A * P * Aᵀ) := by
  refine ⟨fun i j => ?_, fun v => ?_⟩
  · have : (A * P * Aᵀ)ᵀ = A * P * Aᵀ := by
      rw [Matrix.transpose_mul, Matrix.transpose_mul, Matrix.transpose_transpose, h.transpose,
        Matrix.mul_assoc]
    have h2 := congrFun (congrFun this j) i
    rw [Matrix.transpose_apply] at h2
    exact h2
  · rw [quad_conj]
    exact h.2 _

theorem psd_add {n : Nat} {A B : Matrix (Fin n) (Fin n) ℝ} (hA : Psd A) (hB : Psd B) : Psd (A + B) := by
  refine ⟨fun i j => by rw [Matrix.add_apply, Matrix.add_apply, hA.1 i j, hB.1 i j], fun v => ?_⟩
  rw [Matrix.add_mulVec, dotProduct_add]
  exact add_nonneg (hA.2 v) (hB.2 v)

theorem quad_outer2 {n : Nat} (a b v w : Fin n → ℝ) :
    v ⬝ᵥ (vecMulVec a b *ᵥ w) = (v ⬝ᵥ a) * (b ⬝ᵥ w) := by
  have : vecMulVec a b *ᵥ w = fun i => a i * (b ⬝ᵥ w) := by
    ext i
    simp only [Matrix.mulVec, dotProduct, vecMulVec_apply]
    rw [Finset.mul_sum]
    exact Finset.sum_congr rfl fun j _ => by ring
  rw [this]
  simp only [dotProduct]
  rw [Finset.sum_mul]
  exact Finset.sum_congr rfl fun j _ => by ring

theorem quad_outer {n : Nat} (a v : Fin n → ℝ) : v ⬝ᵥ (vecMulVec a a *ᵥ v) = (a ⬝ᵥ v) ^ 2 := by
  rw [quad_outer2, dotProduct_comm v a, pow_two]

theorem psd_outer {n : Nat} (a : Fin n → ℝ) : Psd (vecMulVec a a) := by
  refine ⟨fun i j => by rw [vecMulVec_apply, vecMulVec_apply, mul_comm], fun v => ?_⟩
  rw [quad_outer]
  exact sq_nonneg _

/-- Entries of the covariance after an observation. -/
theorem joseph_entry {n : Nat} (P : Matrix (Fin n) (Fin n) ℝ) (hP : Psd P) (H : Fin n → ℝ) (sigma : ℝ)
    (hs : 0 < sigma) (i j : Fin n) :
    let s := sigma * sigma + H ⬝ᵥ (P *ᵥ H)
    let K : Fin n → ℝ := fun i => (P *ᵥ H) i / s
    ((1 - vecMulVec K H) * P * (1 - vecMulVec K H)ᵀ +
      vecMulVec (fun i => K i * sigma) (fun i => K i * sigma) : Matrix (Fin n) (Fin n) ℝ) i j =
      P i j - (P *ᵥ H) i * (P *ᵥ H) j / s := by
  intro s K
  have hspos : 0 < s := add_pos_of_pos_of_nonneg (mul_pos hs hs) (hP.2 H)
  set u := P *ᵥ H with hu
  have huP : H ᵥ* P = u := by
    rw [hu, ← Matrix.mulVec_transpose, hP.transpose]
  have h1 : vecMulVec K H * P = vecMulVec K u := by
    rw [Matrix.vecMulVec_mul, huP]
  have h2 : P * vecMulVec H K = vecMulVec u K := by
    rw [Matrix.mul_vecMulVec]
  have h3 : vecMulVec K u * vecMulVec H K = (H ⬝ᵥ u) • vecMulVec K K := by
    rw [Matrix.vecMulVec_mul_vecMulVec, dotProduct_comm]
    ext a b
    simp [vecMulVec_apply]
    try ring
  have hexp : (1 - vecMulVec K H) * P * (1 - vecMulVec K H)ᵀ =
      P - vecMulVec K u - vecMulVec u K + (H ⬝ᵥ u) • vecMulVec K K := by
    rw [Matrix.transpose_sub, Matrix.transpose_one, Matrix.transpose_vecMulVec, Matrix.sub_mul,
      Matrix.one_mul, h1, Matrix.mul_sub, Matrix.mul_one, Matrix.sub_mul, h2, h3]
    abel
  rw [hexp]
  simp only [Matrix.add_apply, Matrix.sub_apply, Matrix.smul_apply, vecMulVec_apply, smul_eq_mul]
  have hd : H ⬝ᵥ u = s - sigma * sigma := by simp only [s]; ring
  rw [hd]
  simp only [K]
  field_simp
  ring

theorem update_entry {T : Type} {n : Nat} (f : Ekf T n) (hP : Psd f.P) (z g sigma : ℝ) (H : Fin n → ℝ)
    (hs : 0 < sigma) (i j : Fin n) :
    (f.observationUpdate z g sigma H).P i j =
      f.P i j - (f.P *ᵥ H) i * (f.P *ᵥ H) j / (sigma * sigma + H ⬝ᵥ (f.P *ᵥ H)) :=
  joseph_entry f.P hP H sigma hs i j

/-! ### C35 -/

/-- **C35 (a)** After an observation the covariance is symmetric positive semidefinite. -/
theorem observation_psd {T : Type} {n : Nat} (f : Ekf T n) (hP : Psd f.P) (z g sigma : ℝ)
    (H : Fin n → ℝ) : Psd (f.observationUpdate z g sigma H).P :=
  psd_add (psd_conj _ _ hP) (psd_outer _)

/-- **C35 (b)** It is not larger than the prior one. -/
theorem observation_not_larger {T : Type} {n : Nat} (f : Ekf T n) (hP : Psd f.P) (z g sigma : ℝ)
    (H : Fin n → ℝ) (hs : 0 < sigma) : NotLarger (f.observationUpdate z g sigma H).P f.P := by
  intro v
  set s := sigma * sigma + H ⬝ᵥ (f.P *ᵥ H) with hsd
  have hspos : 0 < s := add_pos_of_pos_of_nonneg (mul_pos hs hs) (hP.2 H)
  have hmat : (f.observationUpdate z g sigma H).P =
      f.P - s⁻¹ • vecMulVec (f.P *ᵥ H) (f.P *ᵥ H) := by
    ext i j
    rw [update_entry f hP z g sigma H hs i j]
    simp only [Matrix.sub_apply, Matrix.smul_apply, vecMulVec_apply, smul_eq_mul, ← hsd]
    rw [div_eq_inv_mul]
  rw [hmat, Matrix.sub_mulVec, dotProduct_sub, Matrix.smul_mulVec, dotProduct_smul, quad_outer]
  have : 0 ≤ s⁻¹ • ((f.P *ᵥ H) ⬝ᵥ v) ^ 2 := by
    rw [smul_eq_mul]; positivity
  linarith

/-- **C35 (c)** It is the textbook `(I - K Hᵀ) P` with the gain `K = P H / (σ² + Hᵀ P H)`. -/
theorem observation_textbook {T : Type} {n : Nat} (f : Ekf T n) (hP : Psd f.P) (z g sigma : ℝ)
    (H : Fin n → ℝ) (hs : 0 < sigma) :
    (f.observationUpdate z g sigma H).P =
        (1 - vecMulVec (f.observationUpdate z g sigma H).K H) * f.P ∧
      (f.observationUpdate z g sigma H).K =
        (sigma ^ 2 + H ⬝ᵥ (f.P *ᵥ H))⁻¹ • (f.P *ᵥ H) ∧
      (f.observationUpdate z g sigma H).x =
        f.x + (z - g) • (f.observationUpdate z g sigma H).K := by
  refine ⟨?_, ?_, ?_⟩
  · ext i j
    rw [update_entry f hP z g sigma H hs i j, Matrix.sub_mul, Matrix.one_mul, Matrix.vecMulVec_mul,
      ← Matrix.mulVec_transpose, hP.transpose]
    simp only [Ekf.observationUpdate, Matrix.sub_apply, vecMulVec_apply]
    ring
  · ext i
    simp only [Ekf.observationUpdate, Pi.smul_apply, smul_eq_mul]
    rw [div_eq_inv_mul, pow_two]
  · ext i
    simp only [Ekf.observationUpdate, Pi.add_apply, Pi.smul_apply, smul_eq_mul]
    ring

/-- **C35 (d)** After the update the variance of
the observed combination is `σ² (HᵀPH) / (σ² + HᵀPH)`, below both `σ²` and the prior variance. -/
theorem observation_variance {T : Type} {n : Nat} (f : Ekf T n) (hP : Psd f.P) (z g sigma : ℝ)
    (H : Fin n → ℝ) (hs : 0 < sigma) :
    H ⬝ᵥ ((f.observationUpdate z g sigma H).P *ᵥ H) =
      sigma ^ 2 * (H ⬝ᵥ (f.P *ᵥ H)) / (sigma ^ 2 + H ⬝ᵥ (f.P *ᵥ H)) := by
  set d := H ⬝ᵥ (f.P *ᵥ H) with hd
  have hspos : 0 < sigma ^ 2 + d := by
    have := hP.2 H
    rw [← hd] at this
    positivity
  rw [(observation_textbook f hP z g sigma H hs).1, Matrix.sub_mul, Matrix.one_mul, Matrix.vecMulVec_mul,
    ← Matrix.mulVec_transpose, hP.transpose, Matrix.sub_mulVec, dotProduct_sub, ← hd,
    (observation_textbook f hP z g sigma H hs).2.1, ← hd]
  rw [quad_outer2, dotProduct_smul, dotProduct_comm (f.P *ᵥ H) H, ← hd, smul_eq_mul]
  field_simp
  ring

/-! ### C36 -/

/-- **C36** A time update keeps the covariance symmetric positive semidefinite, with any transition
matrix, and with any symmetric positive semidefinite process noise. -/
theorem time_psd {T : Type} {n : Nat} (f : Ekf T n) (hP : Psd f.P) (tk : T) (xk : Fin n → ℝ)
    (phi Q : Matrix (Fin n) (Fin n) ℝ) (hQ : Psd Q) :
    Psd (f.timeUpdate tk xk phi).P ∧ Psd (f.timeUpdateQ tk xk phi Q).P :=
  ⟨psd_conj phi f.P hP, psd_add (psd_conj phi f.P hP) hQ⟩

/-- The variance of a combination `v` of the parameters after the time update is the prior variance
of the combination `φᵀ v`. -/
theorem time_variance {T : Type} {n : Nat} (f : Ekf T n) (tk : T) (xk : Fin n → ℝ)
    (phi : Matrix (Fin n) (Fin n) ℝ) (v : Fin n → ℝ) :
    v ⬝ᵥ ((f.timeUpdate tk xk phi).P *ᵥ v) = (phiᵀ *ᵥ v) ⬝ᵥ (f.P *ᵥ (phiᵀ *ᵥ v)) :=
  quad_conj phi f.P v

/-- The operations of the filter. -/
inductive Op (T : Type) (n : Nat) where
  | time (tk : T) (xk : Fin n → ℝ) (phi : Matrix (Fin n) (Fin n) ℝ)
  | obs (z g sigma : ℝ) (H : Fin n → ℝ)

noncomputable def Op.run {T : Type} {n : Nat} (f : Ekf T n) : Op T n → Ekf T n
  | .time tk xk phi => f.timeUpdate tk xk phi
  | .obs z g sigma H => f.observationUpdate z g sigma H

theorem psd_one (n : Nat) : Psd (1 : Matrix (Fin n) (Fin n) ℝ) := by
  refine ⟨fun i j => by simp only [Matrix.one_apply, eq_comm], fun v => ?_⟩
  rw [Matrix.one_mulVec]
  exact Finset.sum_nonneg fun i _ => mul_self_nonneg _

/-- **C35, C36 together** Whatever the sequence of updates of a new filter, its covariance is
symmetric positive semidefinite. -/
theorem filter_psd {T : Type} (tmin : T) (n : Nat) (ops : List (Op T n)) :
    Psd (ops.foldl Op.run (Ekf.new tmin n)).P := by
  suffices h : ∀ f : Ekf T n, Psd f.P → Psd (ops.foldl Op.run f).P from h _ (psd_one n)
  induction ops with
  | nil => exact fun f hf => hf
  | cons o ops ih =>
    intro f hf
    refine ih _ ?_
    cases o with
    | time tk xk phi => exact psd_conj phi f.P hf
    | obs z g sigma H => exact observation_psd f hf z g sigma H

/-- A concrete instance: one parameter with variance 1, observed with sigma 1, gets variance 1/2. -/
example : Psd (Ekf.new (T := Unit) () 1).P ∧
    ((Ekf.new (T := Unit) () 1).observationUpdate 3 1 1 (fun _ => 1)).P 0 0 = 1 / 2 := by
  refine ⟨psd_one 1, ?_⟩
  rw [update_entry _ (psd_one 1) 3 1 1 _ (by norm_num)]
  simp [Ekf.new, dotProduct]
  norm_num

end Verif.Filters
