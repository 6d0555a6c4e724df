import Verif.Filters.EkfProps
import Mathlib.LinearAlgebra.Matrix.NonsingularInverse
import Mathlib.Tactic.LinearCombination
import Mathlib.Tactic.FinCases

/-! C107: processing observations one by one is least squares. -/
namespace Verif.Filters

open Matrix

/-! ### Specification -/

/-- A linear observation: partials, observed value, standard deviation. -/
structure LinObs (n : Nat) where
  H : Fin n → ℝ
  z : ℝ
  sigma : ℝ

/-- Normal matrix of the observations together with the a priori information (estimates zero, variance one). -/
noncomputable def normal {n : Nat} (obs : List (LinObs n)) : Matrix (Fin n) (Fin n) ℝ :=
  1 + (obs.map fun o => (o.sigma ^ 2)⁻¹ • vecMulVec o.H o.H).sum

/-- Right-hand side of the normal equations. -/
noncomputable def normalRhs {n : Nat} (obs : List (LinObs n)) : Fin n → ℝ :=
  (obs.map fun o => (o.z / o.sigma ^ 2) • o.H).sum

/-- What is minimised: the squares of the parameters and of the weighted residuals. -/
noncomputable def cost {n : Nat} (obs : List (LinObs n)) (y : Fin n → ℝ) : ℝ :=
  y ⬝ᵥ y + (obs.map fun o => ((o.z - o.H ⬝ᵥ y) / o.sigma) ^ 2).sum

/-- The filter fed with one linear observation: the value computed from the estimates is `H x`. -/
noncomputable def feed {T : Type} {n : Nat} (f : Ekf T n) (o : LinObs n) : Ekf T n :=
  f.observationUpdate o.z (o.H ⬝ᵥ f.x) o.sigma o.H

/-! ### Proof -/

theorem outer_mulVec {n : Nat} (a b v : Fin n → ℝ) : vecMulVec a b *ᵥ v = (b ⬝ᵥ v) • a := by
  ext i
  simp only [Matrix.mulVec, dotProduct, vecMulVec_apply, Pi.smul_apply, smul_eq_mul, Finset.sum_mul]
  exact Finset.sum_congr rfl fun j _ => by ring

theorem feed_info {T : Type} {n : Nat} (f : Ekf T n) (o : LinObs n) (hs : 0 < o.sigma) (hP : Psd f.P)
    (L : Matrix (Fin n) (Fin n) ℝ) (b : Fin n → ℝ) (hL : L * f.P = 1) (hb : L *ᵥ f.x = b) :
    (L + (o.sigma ^ 2)⁻¹ • vecMulVec o.H o.H) * (feed f o).P = 1 ∧
    (L + (o.sigma ^ 2)⁻¹ • vecMulVec o.H o.H) *ᵥ (feed f o).x = b + (o.z / o.sigma ^ 2) • o.H := by
  obtain ⟨H, z, sigma⟩ := o
  have hs2 : (sigma ^ 2 : ℝ) ≠ 0 := pow_ne_zero 2 hs.ne'
  have hd0 : 0 ≤ H ⬝ᵥ (f.P *ᵥ H) := hP.2 H
  have hS : (sigma ^ 2 + H ⬝ᵥ (f.P *ᵥ H) : ℝ) ≠ 0 := by positivity
  obtain ⟨t1, t2, t3⟩ := observation_textbook f hP z (H ⬝ᵥ f.x) sigma H hs
  have hLP : ∀ v, L *ᵥ (f.P *ᵥ v) = v := fun v => by rw [Matrix.mulVec_mulVec, hL, Matrix.one_mulVec]
  set d := H ⬝ᵥ (f.P *ᵥ H) with hd
  constructor
  · show (L + (sigma ^ 2)⁻¹ • vecMulVec H H) * (f.observationUpdate z (H ⬝ᵥ f.x) sigma H).P = 1
    rw [t1, t2]
    apply Matrix.mulVec_injective
    ext1 v
    rw [← Matrix.mulVec_mulVec, ← Matrix.mulVec_mulVec, Matrix.sub_mulVec, Matrix.one_mulVec, outer_mulVec,
      Matrix.add_mulVec, Matrix.mulVec_sub, Matrix.mulVec_smul, Matrix.mulVec_smul, hLP, hLP, Matrix.smul_mulVec,
      outer_mulVec, dotProduct_sub, dotProduct_smul, dotProduct_smul, Matrix.one_mulVec, ← hd]
    ext i
    simp only [Pi.add_apply, Pi.sub_apply, Pi.smul_apply, smul_eq_mul]
    field_simp
    ring
  · show (L + (sigma ^ 2)⁻¹ • vecMulVec H H) *ᵥ (f.observationUpdate z (H ⬝ᵥ f.x) sigma H).x = _
    rw [t3, t2]
    rw [Matrix.add_mulVec, Matrix.mulVec_add, Matrix.mulVec_smul, Matrix.mulVec_smul, hLP, hb, Matrix.smul_mulVec,
      outer_mulVec, dotProduct_add, dotProduct_smul, dotProduct_smul, ← hd]
    ext i
    simp only [Pi.add_apply, Pi.smul_apply, smul_eq_mul]
    field_simp
    ring

theorem run_info {T : Type} {n : Nat} (obs : List (LinObs n)) (hs : ∀ o ∈ obs, 0 < o.sigma) (f : Ekf T n)
    (hP : Psd f.P) (L : Matrix (Fin n) (Fin n) ℝ) (b : Fin n → ℝ) (hL : L * f.P = 1) (hb : L *ᵥ f.x = b) :
    (L + (obs.map fun o => (o.sigma ^ 2)⁻¹ • vecMulVec o.H o.H).sum) * (obs.foldl feed f).P = 1 ∧
    (L + (obs.map fun o => (o.sigma ^ 2)⁻¹ • vecMulVec o.H o.H).sum) *ᵥ (obs.foldl feed f).x =
      b + (obs.map fun o => (o.z / o.sigma ^ 2) • o.H).sum := by
  induction obs generalizing f L b with
  | nil => simpa using ⟨hL, hb⟩
  | cons o obs ih =>
    obtain ⟨h1, h2⟩ := feed_info f o (hs o (List.mem_cons_self ..)) hP L b hL hb
    have := ih (fun o ho => hs o (List.mem_cons_of_mem _ ho)) (feed f o) (observation_psd f hP _ _ _ _) _ _ h1 h2
    simpa only [List.map_cons, List.sum_cons, List.foldl_cons, add_assoc] using this

/-- **C107 (a)** A new filter fed with any number of linear observations holds the solution of the normal equations, and
the inverse of the normal matrix as covariance. -/
theorem batch_normal {T : Type} (tmin : T) (n : Nat) (obs : List (LinObs n)) (hs : ∀ o ∈ obs, 0 < o.sigma) :
    normal obs * (obs.foldl feed (Ekf.new tmin n)).P = 1 ∧
    normal obs *ᵥ (obs.foldl feed (Ekf.new tmin n)).x = normalRhs obs := by
  have h := run_info obs hs (Ekf.new tmin n) (psd_one n) 1 0 (by simp [Ekf.new]) (by simp [Ekf.new])
  simpa [normal, normalRhs] using h

/-- The normal equations characterise the solution. -/
theorem normal_unique {n : Nat} (obs : List (LinObs n)) (P : Matrix (Fin n) (Fin n) ℝ) (h : normal obs * P = 1)
    (x y : Fin n → ℝ) (hxy : normal obs *ᵥ x = normal obs *ᵥ y) : x = y := by
  have h' : P * normal obs = 1 := mul_eq_one_comm.1 h
  have := congrArg (P *ᵥ ·) hxy
  simpa [Matrix.mulVec_mulVec, h'] using this

/-- **C107 (b)** The order of the observations does not matter. -/
theorem batch_perm {T : Type} (tmin : T) (n : Nat) (obs obs' : List (LinObs n)) (hp : obs.Perm obs')
    (hs : ∀ o ∈ obs, 0 < o.sigma) :
    (obs.foldl feed (Ekf.new tmin n)).x = (obs'.foldl feed (Ekf.new tmin n)).x ∧
    (obs.foldl feed (Ekf.new tmin n)).P = (obs'.foldl feed (Ekf.new tmin n)).P := by
  have hN : normal obs = normal obs' := by
    unfold normal
    rw [(hp.map _).sum_eq]
  have hr : normalRhs obs = normalRhs obs' := (hp.map _).sum_eq
  obtain ⟨a1, a2⟩ := batch_normal tmin n obs hs
  obtain ⟨b1, b2⟩ := batch_normal tmin n obs' (fun o ho => hs o (hp.mem_iff.2 ho))
  refine ⟨normal_unique obs _ a1 _ _ (by rw [a2, hN, b2, hr]), ?_⟩
  rw [← hN] at b1
  have h' := mul_eq_one_comm.1 a1
  calc (obs.foldl feed (Ekf.new tmin n)).P = (obs.foldl feed (Ekf.new tmin n)).P *
        (normal obs * (obs'.foldl feed (Ekf.new tmin n)).P) := by rw [b1, mul_one]
    _ = _ := by rw [← mul_assoc, h', one_mul]

theorem cost_expand {n : Nat} (obs : List (LinObs n)) (hs : ∀ o ∈ obs, 0 < o.sigma) (x v : Fin n → ℝ) :
    cost obs (x + v) = cost obs x + 2 * (v ⬝ᵥ (normal obs *ᵥ x - normalRhs obs)) + v ⬝ᵥ v +
      (obs.map fun o => (o.H ⬝ᵥ v / o.sigma) ^ 2).sum := by
  have hx : cost obs (x + v) - cost obs x = 2 * (v ⬝ᵥ x) + v ⬝ᵥ v +
      ((obs.map fun o => ((o.z - o.H ⬝ᵥ (x + v)) / o.sigma) ^ 2).sum -
        (obs.map fun o => ((o.z - o.H ⬝ᵥ x) / o.sigma) ^ 2).sum) := by
    unfold cost
    rw [add_dotProduct, dotProduct_add, dotProduct_add, dotProduct_comm x v]
    ring
  have hn : v ⬝ᵥ (normal obs *ᵥ x - normalRhs obs) = v ⬝ᵥ x +
      (v ⬝ᵥ ((obs.map fun o => (o.sigma ^ 2)⁻¹ • vecMulVec o.H o.H).sum *ᵥ x) -
        v ⬝ᵥ (obs.map fun o => (o.z / o.sigma ^ 2) • o.H).sum) := by
    unfold normal normalRhs
    rw [dotProduct_sub, Matrix.add_mulVec, Matrix.one_mulVec, dotProduct_add]
    ring
  have key : ((obs.map fun o => ((o.z - o.H ⬝ᵥ (x + v)) / o.sigma) ^ 2).sum -
        (obs.map fun o => ((o.z - o.H ⬝ᵥ x) / o.sigma) ^ 2).sum) =
      2 * (v ⬝ᵥ ((obs.map fun o => (o.sigma ^ 2)⁻¹ • vecMulVec o.H o.H).sum *ᵥ x) -
        v ⬝ᵥ (obs.map fun o => (o.z / o.sigma ^ 2) • o.H).sum) +
      (obs.map fun o => (o.H ⬝ᵥ v / o.sigma) ^ 2).sum := by
    clear hx hn
    induction obs with
    | nil => simp
    | cons o obs ih =>
      have ih := ih fun o ho => hs o (List.mem_cons_of_mem _ ho)
      have ho : o.sigma ≠ 0 := (hs o (List.mem_cons_self ..)).ne'
      simp only [List.map_cons, List.sum_cons, Matrix.add_mulVec, dotProduct_add, Matrix.smul_mulVec, outer_mulVec,
        dotProduct_smul, smul_eq_mul] at ih ⊢
      have e1 : v ⬝ᵥ o.H = o.H ⬝ᵥ v := dotProduct_comm _ _
      have e2 : ((o.z - (o.H ⬝ᵥ x + o.H ⬝ᵥ v)) / o.sigma) ^ 2 - ((o.z - o.H ⬝ᵥ x) / o.sigma) ^ 2 =
          2 * ((o.sigma ^ 2)⁻¹ * (o.H ⬝ᵥ x * (o.H ⬝ᵥ v)) - o.z / o.sigma ^ 2 * (o.H ⬝ᵥ v)) +
            (o.H ⬝ᵥ v / o.sigma) ^ 2 := by
        field_simp
        ring
      rw [e1]
      linear_combination ih + e2
  linear_combination hx + key - 2 * hn

/-- **C107 (c)** The estimates minimise the sum of the squares of the parameters and of the weighted residuals, and they
alone do. -/
theorem batch_least_squares {T : Type} (tmin : T) (n : Nat) (obs : List (LinObs n)) (hs : ∀ o ∈ obs, 0 < o.sigma)
    (y : Fin n → ℝ) (hy : y ≠ (obs.foldl feed (Ekf.new tmin n)).x) :
    cost obs (obs.foldl feed (Ekf.new tmin n)).x < cost obs y := by
  obtain ⟨-, h2⟩ := batch_normal tmin n obs hs
  generalize (obs.foldl feed (Ekf.new tmin n)).x = x at h2 hy
  have h := cost_expand obs hs x (y - x)
  rw [h2, sub_self, dotProduct_zero, add_sub_cancel] at h
  have h3 : 0 ≤ (obs.map fun o => (o.H ⬝ᵥ (y - x) / o.sigma) ^ 2).sum :=
    List.sum_nonneg fun a ha => by
      obtain ⟨o, -, rfl⟩ := List.mem_map.1 ha
      positivity
  have h4 : 0 < (y - x) ⬝ᵥ (y - x) := by
    have h0 : y - x ≠ 0 := sub_ne_zero.2 hy
    obtain ⟨i, hi⟩ := Function.ne_iff.1 h0
    exact Finset.sum_pos' (fun j _ => mul_self_nonneg _) ⟨i, Finset.mem_univ _, mul_self_pos.2 hi⟩
  linarith

/-- A concrete instance: one parameter observed as 3 and as 6 with deviation 1 is estimated as (0 + 3 + 6) / 3. -/
example : (([⟨fun _ => 1, 3, 1⟩, ⟨fun _ => 1, 6, 1⟩] : List (LinObs 1)).foldl feed (Ekf.new () 1)).x = fun _ => 3 := by
  have hs : ∀ o ∈ ([⟨fun _ => 1, 3, 1⟩, ⟨fun _ => 1, 6, 1⟩] : List (LinObs 1)), 0 < o.sigma := by simp
  obtain ⟨h1, h2⟩ := batch_normal () 1 _ hs
  refine normal_unique _ _ h1 _ _ (h2.trans ?_)
  ext i
  fin_cases i
  simp [normal, normalRhs, Matrix.mulVec, dotProduct, Matrix.one_apply, vecMulVec_apply]
  norm_num

end Verif.Filters
