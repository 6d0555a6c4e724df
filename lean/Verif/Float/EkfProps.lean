import Verif.Float.EkfModel
import Verif.Filters.EkfProps
import Mathlib.Data.Rat.Floor
import Mathlib.Algebra.BigOperators.Fin
import Mathlib.Algebra.Order.BigOperators.Group.Finset
import Mathlib.Tactic.Positivity
import Mathlib.Tactic.Linarith
import Mathlib.Tactic.FinCases

/-
C162: the Kalman filter in double arithmetic, in every order of the sums and with every choice of
fused operations.  With one parameter no variance ever becomes negative; with any number of
parameters a variance falls below zero by at most a small multiple of the rounding unit; it does
fall below zero, from a proper prior with two observations.
-/
namespace Verif.Float

open Finset

section general

variable {K : Type} [Field K] [LinearOrder K] [IsStrictOrderedRing K] {rnd : K → K}

/-- A covariance matrix: no combination of the parameters has a negative variance. -/
def Proper {n : Nat} (P : Fin n → Fin n → K) : Prop :=
  (∀ i j, P i j = P j i) ∧ ∀ v : Fin n → K, 0 ≤ ∑ i, ∑ j, v i * P i j * v j

/-- The state of the filter after any sequence of updates: what the covariance can be.  A matrix
of process noise has no negative variances. -/
inductive Reach (rnd : K → K) {n : Nat} (P0 : Fin n → Fin n → K) : (Fin n → Fin n → K) → Prop
  | start : Reach rnd P0 P0
  | obs {P P' : Fin n → Fin n → K} {x H G x' : Fin n → K} {z g sigma : K} : Reach rnd P0 P →
      ObsD rnd x P z g sigma H G x' P' → Reach rnd P0 P'
  | time {P P' phi : Fin n → Fin n → K} {Q : Option (Fin n → Fin n → K)} : Reach rnd P0 P →
      (∀ q ∈ Q, ∀ i, 0 ≤ q i i) → TimeD rnd P phi Q P' → Reach rnd P0 P'

theorem DotC.isDouble (h : Nearest rnd) {l : List (K × K)} {v : K} (hd : DotC rnd l v) :
    IsDouble v := by
  induction hd with
  | nil => exact isDouble_zero
  | prod a b => exact h.mem _
  | add _ _ _ _ => exact h.mem _
  | fma a b _ => exact h.mem _
  | perm _ _ ih => exact ih

/-- A single product is rounded once. -/
theorem DotC.single {l : List (K × K)} {v : K} (hd : DotC rnd l v) :
    ∀ a b : K, (l = [] → v = 0) ∧ (l = [(a, b)] → v = rnd (a * b)) := by
  induction hd with
  | nil => intro a b; exact ⟨fun _ => rfl, fun h => (by cases h)⟩
  | prod c d => intro a b; exact ⟨fun h => (by cases h), fun h => (by cases h; rfl)⟩
  | @add l m x y hl hm _ _ _ _ =>
    intro a b
    refine ⟨fun h => absurd (List.append_eq_nil_iff.1 h).1 hl, fun h => ?_⟩
    have := congrArg List.length h
    have h1 := List.length_pos_of_ne_nil hl
    have h2 := List.length_pos_of_ne_nil hm
    simp only [List.length_append, List.length_cons, List.length_nil] at this
    omega
  | @fma l x c d _ ih =>
    intro a b
    refine ⟨fun h => absurd (List.append_eq_nil_iff.1 h).2 (by simp), fun h => ?_⟩
    have h0 : l = [] := by
      have := congrArg List.length h
      simp only [List.length_append, List.length_cons, List.length_nil] at this
      exact List.length_eq_zero_iff.1 (by omega)
    subst h0
    rw [(ih a b).1 rfl]
    simp only [List.nil_append, List.cons.injEq, Prod.mk.injEq, and_true] at h
    rw [h.1, h.2, zero_add]
  | perm hp _ ih =>
    intro a b
    refine ⟨fun h => (ih a b).1 ?_, fun h => (ih a b).2 ?_⟩
    · subst h; exact hp.eq_nil
    · subst h; exact hp.eq_singleton

theorem MulAdd.nonneg (h : Nearest rnd) {c a b v : K} (hc : 0 ≤ c) (hab : 0 ≤ a * b)
    (hv : MulAdd rnd c a b v) : 0 ≤ v := by
  rcases hv with rfl | rfl
  · exact h.nonneg (add_nonneg hc (h.nonneg hab))
  · exact h.nonneg (add_nonneg hc hab)

/-- One parameter: the product from both sides keeps the sign. -/
theorem sandwich_one (h : Nearest rnd) {A P N : Fin 1 → Fin 1 → K} (hs : Sandwich rnd A P N)
    (hP : 0 ≤ P 0 0) : 0 ≤ N 0 0 := by
  have hM := ((hs.hM 0 0).single (A 0 0) (P 0 0)).2 (by simp)
  have hN := ((hs.hN 0 0).single (hs.M 0 0) (A 0 0)).2 (by simp)
  rw [hN, hM]
  rcases le_total 0 (A 0 0) with ha | ha
  · exact h.nonneg (mul_nonneg (h.nonneg (mul_nonneg ha hP)) ha)
  · exact h.nonneg (mul_nonneg_of_nonpos_of_nonpos
      (h.nonpos (mul_nonpos_of_nonpos_of_nonneg ha hP)) ha)

/-- **C162 (a)** One parameter: after any sequence of observation and time updates the variance is
not negative, for any standard deviations, designs and transitions. -/
theorem variance_scalar (h : Nearest rnd) (P0 : Fin 1 → Fin 1 → K) (h0 : 0 ≤ P0 0 0)
    (P : Fin 1 → Fin 1 → K) (hr : Reach rnd P0 P) : 0 ≤ P 0 0 := by
  induction hr with
  | start => exact h0
  | obs _ hu ih =>
    exact (hu.hP 0 0).nonneg h (sandwich_one h hu.hN ih) (mul_self_nonneg _)
  | @time P P' phi Q _ hq hu ih =>
    rw [hu.hP 0 0]
    cases Q with
    | none => exact sandwich_one h hu.hN ih
    | some Q => exact h.nonneg (add_nonneg (sandwich_one h hu.hN ih) (hq Q rfl 0))

/-- **C162 (b)** A measurement that agrees with its prediction leaves the state as it is, to the
last bit; any other moves each parameter in the direction of its gain or not at all. -/
theorem state_direction (h : Nearest rnd) {n : Nat} {x H G x' : Fin n → K}
    {P P' : Fin n → Fin n → K} {z g sigma : K} (hx : ∀ i, IsDouble (x i))
    (hu : ObsD rnd x P z g sigma H G x' P') (i : Fin n) :
    (z = g → x' i = x i) ∧ (0 ≤ G i * (z - g) → x i ≤ x' i) ∧
      (G i * (z - g) ≤ 0 → x' i ≤ x i) := by
  have up : ∀ t : K, 0 ≤ t → x i ≤ rnd (x i + t) := fun t ht => h.ge_of_ge (hx i) (by linarith)
  have dn : ∀ t : K, t ≤ 0 → rnd (x i + t) ≤ x i := fun t ht => h.le_of_le (hx i) (by linarith)
  have sg : (0 ≤ G i * (z - g) → 0 ≤ G i * rnd (z - g)) ∧
      (G i * (z - g) ≤ 0 → G i * rnd (z - g) ≤ 0) := by
    rcases lt_trichotomy (z - g) 0 with hz | hz | hz
    · have := h.nonpos hz.le
      constructor
      · intro hg
        exact mul_nonneg_of_nonpos_of_nonpos
          (by by_contra hc; push Not at hc; nlinarith [mul_neg_of_pos_of_neg hc hz]) this
      · intro hg
        exact mul_nonpos_of_nonneg_of_nonpos
          (by by_contra hc; push Not at hc; nlinarith [mul_pos_of_neg_of_neg hc hz]) this
    · rw [hz, h.zero]; simp
    · have := h.nonneg hz.le
      constructor
      · intro hg
        exact mul_nonneg (by by_contra hc; push Not at hc; nlinarith [mul_neg_of_neg_of_pos hc hz]) this
      · intro hg
        exact mul_nonpos_of_nonpos_of_nonneg
          (by by_contra hc; push Not at hc; nlinarith [mul_pos hc hz]) this
  refine ⟨fun e => ?_, fun hp => ?_, fun hp => ?_⟩
  · rcases hu.hx i with e' | e' <;> rw [e', e, sub_self, h.zero, mul_zero] <;>
      simp [h.zero, h.exact (hx i)]
  · rcases hu.hx i with e' | e' <;> rw [e']
    · exact up _ (h.nonneg (sg.1 hp))
    · exact up _ (sg.1 hp)
  · rcases hu.hx i with e' | e' <;> rw [e']
    · exact dn _ (h.nonpos (sg.2 hp))
    · exact dn _ (sg.2 hp)

end general

section bound

variable {K : Type} [Field K] [LinearOrder K] [IsStrictOrderedRing K] [FloorRing K] {rnd : K → K}

/-- The rounding unit and half of the smallest positive double. -/
abbrev un : K := 2 ^ (-53 : ℤ)
/-- see `un` -/
abbrev eta : K := 2 ^ (-1074 : ℤ) / 2

theorem un_pos : (0 : K) < un := zpow_pos (by norm_num) _
theorem eta_pos : (0 : K) < eta := div_pos (zpow_pos (by norm_num) _) (by norm_num)

/-- The error of one rounding, including numbers near zero. -/
theorem Nearest.err_both (h : Nearest rnd) (x : K) : |rnd x - x| ≤ un * |x| + eta := by
  rcases le_total ((2 : K) ^ (-1022 : ℤ)) |x| with hx | hx
  · exact (h.rel hx).trans (le_add_of_nonneg_right eta_pos.le)
  · have h2 : |x| ≤ (2 : K) ^ (-1074 + 53 : ℤ) :=
      hx.trans (zpow_le_zpow_right₀ (by norm_num) (by norm_num))
    exact (h.err (-1074) (by norm_num) h2).trans
      (le_add_of_nonneg_left (mul_nonneg un_pos.le (abs_nonneg _)))

/-- Exact sum of the products. -/
def dotX (l : List (K × K)) : K := (l.map fun p => p.1 * p.2).sum
/-- Sum of the sizes of the products. -/
def dotS (l : List (K × K)) : K := (l.map fun p => |p.1 * p.2|).sum

theorem dotS_nonneg (l : List (K × K)) : 0 ≤ dotS l :=
  List.sum_nonneg (by simp only [List.mem_map]; rintro _ ⟨p, _, rfl⟩; exact abs_nonneg _)

theorem abs_dotX (l : List (K × K)) : |dotX l| ≤ dotS l := by
  induction l with
  | nil => simp [dotX, dotS]
  | cons p l ih =>
    simp only [dotX, dotS, List.map_cons, List.sum_cons] at ih ⊢
    exact (abs_add_le _ _).trans (by linarith)

/-- The factor `(1 + u)^n`. -/
abbrev gam (n : ℕ) : K := (1 + un) ^ n

theorem gam_one_le (n : ℕ) : (1 : K) ≤ gam n := one_le_pow₀ (by linarith [un_pos (K := K)])

theorem gam_mono {m n : ℕ} (h : m ≤ n) : (gam m : K) ≤ gam n :=
  pow_le_pow_right₀ (by linarith [un_pos (K := K)]) h

theorem gam_succ (n : ℕ) : (gam (n + 1) : K) = gam n * (1 + un) := pow_succ _ _

/-- One more rounding on top of values with known errors. -/
theorem round_step (h : Nearest rnd) {x y s t c : K} {n : ℕ} (hc : 0 ≤ c)
    (hy : |y| ≤ s) (hx : |x - y| ≤ (gam n - 1) * s + c * gam n) (ht : t = rnd x) :
    |t - y| ≤ (gam (n + 1) - 1) * s + (c + eta) * gam (n + 1) := by
  subst ht
  have h1 := h.err_both x
  have h2 : |x| ≤ |x - y| + |y| := by
    have := abs_add_le (x - y) y
    rwa [sub_add_cancel] at this
  have h3 : |rnd x - y| ≤ |rnd x - x| + |x - y| := by
    have := abs_add_le (rnd x - x) (x - y)
    rwa [sub_add_sub_cancel] at this
  have u0 := un_pos (K := K)
  have e0 := eta_pos (K := K)
  have g1 := gam_one_le (K := K) n
  have g2 := gam_one_le (K := K) (n + 1)
  have h4 : un * |x| ≤ un * ((gam n - 1) * s + c * gam n + s) :=
    mul_le_mul_of_nonneg_left (by linarith) u0.le
  have h5 : eta ≤ eta * gam (n + 1) := le_mul_of_one_le_right e0.le g2
  rw [gam_succ] at h5 ⊢
  nlinarith

/-- The error of a sum of products, however it is evaluated. -/
theorem dot_err (h : Nearest rnd) {l : List (K × K)} {v : K} (hd : DotC rnd l v) :
    |v - dotX l| ≤ (gam l.length - 1) * dotS l +
      ((2 * l.length - 1 : ℕ) : K) * eta * gam l.length := by
  have e0 := eta_pos (K := K)
  have u0 := un_pos (K := K)
  induction hd with
  | nil => simp [dotX, dotS]
  | prod a b =>
    have := round_step (K := K) (x := a * b) (n := 0) (c := 0) (s := |a * b|) (y := a * b) h le_rfl le_rfl
      (by simp) rfl
    simpa [dotX, dotS] using this
  | @add l m x y hl hm _ _ ihl ihm =>
    have l1 := List.length_pos_of_ne_nil hl
    have l2 := List.length_pos_of_ne_nil hm
    obtain ⟨k, hk⟩ : ∃ k, (l ++ m).length = k + 1 := ⟨l.length + m.length - 1, by
      simp only [List.length_append]; omega⟩
    have hk' : l.length + m.length = k + 1 := by rw [← hk, List.length_append]
    have hX : dotX (l ++ m) = dotX l + dotX m := by simp [dotX]
    have hS : dotS (l ++ m) = dotS l + dotS m := by simp [dotS]
    have s1 := dotS_nonneg l
    have s2 := dotS_nonneg m
    have gl : (gam l.length : K) ≤ gam k := gam_mono (by omega)
    have gm : (gam m.length : K) ≤ gam k := gam_mono (by omega)
    have cast : ((2 * (l ++ m).length - 1 : ℕ) : K) =
        ((2 * l.length - 1 : ℕ) : K) + ((2 * m.length - 1 : ℕ) : K) + 1 := by
      rw [← Nat.cast_add, ← Nat.cast_add_one]
      congr 1
      simp only [List.length_append]; omega
    have key : |(x + y) - dotX (l ++ m)| ≤ (gam k - 1) * dotS (l ++ m) +
        ((((2 * l.length - 1 : ℕ) : K) + ((2 * m.length - 1 : ℕ) : K)) * eta) * gam k := by
      have h3 : |(x + y) - dotX (l ++ m)| ≤ |x - dotX l| + |y - dotX m| := by
        rw [hX, show x + y - (dotX l + dotX m) = (x - dotX l) + (y - dotX m) by ring]
        exact abs_add_le _ _
      have a1 : (gam l.length - 1) * dotS l ≤ (gam k - 1) * dotS l :=
        mul_le_mul_of_nonneg_right (by linarith) s1
      have a2 : (gam m.length - 1) * dotS m ≤ (gam k - 1) * dotS m :=
        mul_le_mul_of_nonneg_right (by linarith) s2
      have b1 : ((2 * l.length - 1 : ℕ) : K) * eta * gam l.length ≤
          ((2 * l.length - 1 : ℕ) : K) * eta * gam k :=
        mul_le_mul_of_nonneg_left gl (mul_nonneg (Nat.cast_nonneg _) e0.le)
      have b2 : ((2 * m.length - 1 : ℕ) : K) * eta * gam m.length ≤
          ((2 * m.length - 1 : ℕ) : K) * eta * gam k :=
        mul_le_mul_of_nonneg_left gm (mul_nonneg (Nat.cast_nonneg _) e0.le)
      rw [hS]
      linarith
    have := round_step h (mul_nonneg (add_nonneg (Nat.cast_nonneg _) (Nat.cast_nonneg _)) e0.le)
      (abs_dotX (l ++ m)) key rfl
    rw [cast, hk]
    linarith [this, add_mul (((2 * l.length - 1 : ℕ) : K) + ((2 * m.length - 1 : ℕ) : K)) 1 eta]
  | @fma l x a b _ ih =>
    have hX : dotX (l ++ [(a, b)]) = dotX l + a * b := by simp [dotX]
    have hS : dotS (l ++ [(a, b)]) = dotS l + |a * b| := by simp [dotS]
    have key : |(x + a * b) - dotX (l ++ [(a, b)])| ≤ (gam l.length - 1) * dotS (l ++ [(a, b)]) +
        (((2 * l.length - 1 : ℕ) : K) * eta) * gam l.length := by
      rw [hX, hS, show x + a * b - (dotX l + a * b) = x - dotX l by ring]
      have : 0 ≤ (gam l.length - 1) * |a * b| :=
        mul_nonneg (by linarith [gam_one_le (K := K) l.length]) (abs_nonneg _)
      linarith
    have := round_step h (mul_nonneg (Nat.cast_nonneg _) e0.le)
      (abs_dotX (l ++ [(a, b)])) key rfl
    have hlen : (l ++ [(a, b)]).length = l.length + 1 := by simp
    rw [hlen]
    refine this.trans ?_
    have g := gam_one_le (K := K) (l.length + 1)
    have cast : ((2 * l.length - 1 : ℕ) : K) + 1 ≤ ((2 * (l.length + 1) - 1 : ℕ) : K) := by
      exact_mod_cast (by omega : 2 * l.length - 1 + 1 ≤ 2 * (l.length + 1) - 1)
    have : (((2 * l.length - 1 : ℕ) : K) * eta + eta) * gam (l.length + 1) ≤
        ((2 * (l.length + 1) - 1 : ℕ) : K) * eta * gam (l.length + 1) := by
      apply mul_le_mul_of_nonneg_right _ (by linarith)
      have := mul_le_mul_of_nonneg_right cast e0.le
      linarith
    linarith
  | @perm l m x hp _ ih =>
    have hX : dotX m = dotX l := ((hp.map _).sum_eq).symm
    have hS : dotS m = dotS l := ((hp.map _).sum_eq).symm
    rw [hX, hS, ← hp.length_eq]
    exact ih

theorem dotX_ofFn {n : Nat} (a b : Fin n → K) :
    dotX (List.ofFn fun k => (a k, b k)) = ∑ k, a k * b k := by
  simp only [dotX, List.map_ofFn, Function.comp_def, List.sum_ofFn]

theorem dotS_ofFn {n : Nat} (a b : Fin n → K) :
    dotS (List.ofFn fun k => (a k, b k)) = ∑ k, |a k| * |b k| := by
  simp only [dotS, List.map_ofFn, Function.comp_def, List.sum_ofFn, abs_mul]

/-- The error of `A * P * A.transpose()`, however it is evaluated. -/
theorem sandwich_err (h : Nearest rnd) {n : Nat} {A P N : Fin n → Fin n → K}
    (hs : Sandwich rnd A P N) (i j : Fin n) :
    |N i j - ∑ k, (∑ l, A i l * P l k) * A j k| ≤
      (gam n * gam n - 1) * (∑ k, (∑ l, |A i l| * |P l k|) * |A j k|) +
        (((2 * n - 1 : ℕ) : K) * eta * gam n) * (gam n * (∑ k, |A j k|) + 1) := by
  set c : K := ((2 * n - 1 : ℕ) : K) * eta * gam n with hc
  have g1 := gam_one_le (K := K) n
  have c0 : 0 ≤ c := mul_nonneg (mul_nonneg (Nat.cast_nonneg _) eta_pos.le) (by linarith)
  have hM : ∀ k, |hs.M i k - ∑ l, A i l * P l k| ≤
      (gam n - 1) * (∑ l, |A i l| * |P l k|) + c := by
    intro k
    have := dot_err h (hs.hM i k)
    rwa [List.length_ofFn, dotX_ofFn, dotS_ofFn] at this
  have hN : |N i j - ∑ k, hs.M i k * A j k| ≤
      (gam n - 1) * (∑ k, |hs.M i k| * |A j k|) + c := by
    have := dot_err h (hs.hN i j)
    rwa [List.length_ofFn, dotX_ofFn, dotS_ofFn] at this
  have hMa : ∀ k, |hs.M i k| ≤ gam n * (∑ l, |A i l| * |P l k|) + c := by
    intro k
    have h1 : |∑ l, A i l * P l k| ≤ ∑ l, |A i l| * |P l k| := by
      refine (abs_sum_le_sum_abs _ _).trans (sum_le_sum fun l _ => (abs_mul _ _).le)
    have h2 : |hs.M i k| ≤ |hs.M i k - ∑ l, A i l * P l k| + |∑ l, A i l * P l k| := by
      have := abs_add_le (hs.M i k - ∑ l, A i l * P l k) (∑ l, A i l * P l k)
      rwa [sub_add_cancel] at this
    linarith [hM k]
  have e1 : |∑ k, hs.M i k * A j k - ∑ k, (∑ l, A i l * P l k) * A j k| ≤
      ∑ k, ((gam n - 1) * (∑ l, |A i l| * |P l k|) + c) * |A j k| := by
    rw [← sum_sub_distrib]
    refine (abs_sum_le_sum_abs _ _).trans (sum_le_sum fun k _ => ?_)
    rw [← sub_mul, abs_mul]
    exact mul_le_mul_of_nonneg_right (hM k) (abs_nonneg _)
  have e2 : ∑ k, |hs.M i k| * |A j k| ≤
      ∑ k, (gam n * (∑ l, |A i l| * |P l k|) + c) * |A j k| :=
    sum_le_sum fun k _ => mul_le_mul_of_nonneg_right (hMa k) (abs_nonneg _)
  have s1 : ∑ k, ((gam n - 1) * (∑ l, |A i l| * |P l k|) + c) * |A j k| =
      (gam n - 1) * (∑ k, (∑ l, |A i l| * |P l k|) * |A j k|) + c * ∑ k, |A j k| := by
    rw [mul_sum, mul_sum, ← sum_add_distrib]
    exact sum_congr rfl fun k _ => by ring
  have s2 : ∑ k, (gam n * (∑ l, |A i l| * |P l k|) + c) * |A j k| =
      gam n * (∑ k, (∑ l, |A i l| * |P l k|) * |A j k|) + c * ∑ k, |A j k| := by
    rw [mul_sum, mul_sum, ← sum_add_distrib]
    exact sum_congr rfl fun k _ => by ring
  rw [s1] at e1
  rw [s2] at e2
  have e3 : (gam n - 1) * (∑ k, |hs.M i k| * |A j k|) ≤ (gam n - 1) *
      (gam n * (∑ k, (∑ l, |A i l| * |P l k|) * |A j k|) + c * ∑ k, |A j k|) :=
    mul_le_mul_of_nonneg_left e2 (by linarith)
  have e4 : |N i j - ∑ k, (∑ l, A i l * P l k) * A j k| ≤ |N i j - ∑ k, hs.M i k * A j k| +
      |∑ k, hs.M i k * A j k - ∑ k, (∑ l, A i l * P l k) * A j k| := by
    have := abs_add_le (N i j - ∑ k, hs.M i k * A j k)
      (∑ k, hs.M i k * A j k - ∑ k, (∑ l, A i l * P l k) * A j k)
    rwa [sub_add_sub_cancel] at this
  refine e4.trans ?_
  have : (gam n - 1) * (gam n * (∑ k, (∑ l, |A i l| * |P l k|) * |A j k|) + c * ∑ k, |A j k|) + c +
      ((gam n - 1) * (∑ k, (∑ l, |A i l| * |P l k|) * |A j k|) + c * ∑ k, |A j k|) =
      (gam n * gam n - 1) * (∑ k, (∑ l, |A i l| * |P l k|) * |A j k|) +
        c * (gam n * (∑ k, |A j k|) + 1) := by ring
  linarith

/-- By how much a variance may fall below zero: the rounding unit times the sizes of the terms. -/
def floorOf {n : Nat} (A P : Fin n → Fin n → K) (i : Fin n) : K :=
  ((1 + 2 ^ (-53 : ℤ)) ^ (2 * n) - 1) * (∑ k, ∑ l, |A i l| * |P l k| * |A i k|) +
    ((2 * n - 1 : ℕ) : K) * 2 ^ (-1075 : ℤ) * (1 + 2 ^ (-53 : ℤ)) ^ n *
      ((1 + 2 ^ (-53 : ℤ)) ^ n * (∑ k, |A i k|) + 1)

theorem sandwich_floor (h : Nearest rnd) {n : Nat} {A P N : Fin n → Fin n → K} (hP : Proper P)
    (hs : Sandwich rnd A P N) (i : Fin n) : -floorOf A P i ≤ N i i := by
  have h1 := sandwich_err h hs i i
  have h2 : 0 ≤ ∑ k, (∑ l, A i l * P l k) * A i k := by
    have := hP.2 (A i)
    rw [sum_comm] at this
    simpa only [sum_mul] using this
  have e : ((2 : K) ^ (-1075 : ℤ)) = eta := by
    rw [show (-1075 : ℤ) = -1074 - 1 by norm_num, zpow_sub₀ (by norm_num)]; norm_num
  have e' : floorOf A P i = (gam n * gam n - 1) * (∑ k, (∑ l, |A i l| * |P l k|) * |A i k|) +
        (((2 * n - 1 : ℕ) : K) * eta * gam n) * (gam n * (∑ k, |A i k|) + 1) := by
    unfold floorOf
    rw [e, two_mul, pow_add]
    simp only [sum_mul]
  rw [e']
  have := (abs_le.1 h1).1
  linarith

/-- **C162 (c)** Any number of parameters: from a proper covariance matrix, an observation update
gives variances that fall below zero by no more than about `2 n` rounding units of the sizes of the
terms that are added (and a multiple of the smallest double), in every order of the sums.  `hu.A`
is the computed matrix `ImKG`.  Missing for the full statement: that variances are not negative,
see `negative_variance_counterexample`. -/
theorem variance_floor_partial (h : Nearest rnd) {n : Nat} {x H G x' : Fin n → K}
    {P P' : Fin n → Fin n → K} {z g sigma : K} (hP : Proper P)
    (hu : ObsD rnd x P z g sigma H G x' P') (i : Fin n) : -floorOf hu.A P i ≤ P' i i := by
  have h1 := sandwich_floor h hP hu.hN i
  have hd : IsDouble (hu.N i i) := (hu.hN.hN i i).isDouble h
  have hw : 0 ≤ hu.w i * hu.w i := mul_self_nonneg _
  have : hu.N i i ≤ P' i i := by
    rcases hu.hP i i with e | e <;> rw [e]
    · exact h.ge_of_ge hd (by linarith [h.nonneg hw])
    · exact h.ge_of_ge hd (by linarith)
  linarith

/-- **C162 (d)** Likewise for the time updates. -/
theorem time_floor_partial (h : Nearest rnd) {n : Nat} {P phi P' : Fin n → Fin n → K}
    {Q : Option (Fin n → Fin n → K)} (hP : Proper P) (hQ : ∀ q ∈ Q, ∀ i, 0 ≤ q i i)
    (hu : TimeD rnd P phi Q P') (i : Fin n) : -floorOf phi P i ≤ P' i i := by
  have h1 := sandwich_floor h hP hu.hN i
  have hd : IsDouble (hu.N i i) := (hu.hN.hN i i).isDouble h
  rw [hu.hP i i]
  cases Q with
  | none => exact h1
  | some q => exact h1.trans (h.ge_of_ge hd (by linarith [hQ q rfl i]))

end bound

section orders

variable {K : Type} [Field K] {rnd : K → K}

theorem mulAddE_ok (fused : Bool) (c a b : K) : MulAdd rnd c a b (mulAddE rnd fused c a b) := by
  unfold mulAddE MulAdd
  cases fused
  · left; rfl
  · right; rfl

theorem dotE_ok (fused : Bool) (l : List (K × K)) : DotC rnd l (dotE rnd fused l) := by
  have aux : ∀ (l m : List (K × K)) (s : K), m ≠ [] → DotC rnd m s →
      DotC rnd (m ++ l) (l.foldl (fun s p => mulAddE rnd fused s p.1 p.2) s) := by
    intro l
    induction l with
    | nil => intro m s _ hs; simpa using hs
    | cons p l ih =>
      intro m s hm hs
      have h1 : DotC rnd (m ++ [p]) (mulAddE rnd fused s p.1 p.2) := by
        unfold mulAddE
        cases fused
        · exact .add hm (by simp) hs (.prod p.1 p.2)
        · exact .fma p.1 p.2 hs
      have := ih (m ++ [p]) _ (by simp) h1
      simpa using this
  cases l with
  | nil => exact .nil
  | cons p l => exact aux l [p] _ (by simp) (.prod p.1 p.2)

/-- The computable order is one of the orders. -/
def obsE_ok (fused : Bool) {n : Nat} (x : Fin n → K) (P : Fin n → Fin n → K) (z g sigma : K)
    (H : Fin n → K) : ObsD rnd x P z g sigma H (gainE rnd fused P sigma H)
      (stateE rnd fused x P z g sigma H) (obsE rnd fused P sigma H) where
  PH := fun i => dotE rnd fused (List.ofFn fun k => (P i k, H k))
  hPH := fun _ => dotE_ok fused _
  d := dotE rnd fused (List.ofFn fun k =>
    (H k, dotE rnd fused (List.ofFn fun l => (P k l, H l))))
  hd := dotE_ok fused _
  q := denE rnd fused P sigma H
  hq := mulAddE_ok fused _ _ _
  hG := fun _ => rfl
  hx := fun _ => mulAddE_ok fused _ _ _
  w := fun i => rnd (gainE rnd fused P sigma H i * sigma)
  hw := fun _ => rfl
  A := imkgE rnd fused (gainE rnd fused P sigma H) H
  hA := fun _ _ => mulAddE_ok fused _ _ _
  N := sandE rnd fused (imkgE rnd fused (gainE rnd fused P sigma H) H) P
  hN := {
    M := fun i k => dotE rnd fused (List.ofFn fun l =>
      (imkgE rnd fused (gainE rnd fused P sigma H) H i l, P l k))
    hM := fun _ _ => dotE_ok fused _
    hN := fun _ _ => dotE_ok fused _ }
  hP := fun _ _ => mulAddE_ok fused _ _ _

/-- Without rounding every order gives the sum. -/
theorem dot_id {l : List (K × K)} {v : K} (hd : DotC id l v) :
    v = (l.map fun p => p.1 * p.2).sum := by
  induction hd with
  | nil => simp
  | prod a b => simp
  | add _ _ _ _ h1 h2 => simp [h1, h2]
  | fma a b _ h1 => simp [h1]
  | perm hp _ ih => rw [ih]; exact (hp.map _).sum_eq

theorem mulAdd_id {c a b v : K} (h : MulAdd id c a b v) : v = c + a * b := by
  rcases h with h | h <;> simpa using h

theorem dot_id_ofFn {n : Nat} {a b : Fin n → K} {v : K}
    (hd : DotC id (List.ofFn fun k => (a k, b k)) v) : v = ∑ k, a k * b k := by
  rw [dot_id hd, List.map_ofFn, List.sum_ofFn]
  rfl

end orders

open Matrix in
/-- **C162 (e)** Without rounding the update is the one of C35, in every order. -/
theorem observation_exact {T : Type} {n : Nat} (f : Verif.Filters.Ekf T n) (z g sigma : ℝ)
    (H G x' : Fin n → ℝ) (P' : Fin n → Fin n → ℝ)
    (hu : ObsD id f.x (fun i j => f.P i j) z g sigma H G x' P') :
    G = (f.observationUpdate z g sigma H).K ∧ x' = (f.observationUpdate z g sigma H).x ∧
      ∀ i j, P' i j = (f.observationUpdate z g sigma H).P i j := by
  have hPH : hu.PH = f.P *ᵥ H := funext fun i => dot_id_ofFn (hu.hPH i)
  have hd : hu.d = H ⬝ᵥ (f.P *ᵥ H) := by rw [← hPH]; exact dot_id_ofFn hu.hd
  have hG : G = (f.observationUpdate z g sigma H).K := by
    funext i
    rw [hu.hG i, mulAdd_id hu.hq, hPH, hd]
    show _ / _ = _ / _
    rw [add_comm]
  have hA : ∀ i j, hu.A i j = ((1 : Matrix (Fin n) (Fin n) ℝ) - vecMulVec G H) i j := by
    intro i j
    rw [mulAdd_id (hu.hA i j), Matrix.sub_apply, Matrix.one_apply, vecMulVec_apply]
    ring
  have hN : ∀ i j, hu.N i j = (((1 : Matrix (Fin n) (Fin n) ℝ) - vecMulVec G H) * f.P *
      ((1 : Matrix (Fin n) (Fin n) ℝ) - vecMulVec G H)ᵀ) i j := by
    intro i j
    rw [dot_id_ofFn (hu.hN.hN i j), Matrix.mul_apply]
    refine sum_congr rfl fun k _ => ?_
    rw [dot_id_ofFn (hu.hN.hM i k), Matrix.mul_apply, Matrix.transpose_apply, hA j k]
    congr 1
    exact sum_congr rfl fun l _ => by rw [hA i l]
  refine ⟨hG, ?_, fun i j => ?_⟩
  · funext i
    rw [mulAdd_id (hu.hx i), hG]
    rfl
  · rw [mulAdd_id (hu.hP i j), hN i j, hu.hw i, hu.hw j, hG]
    rfl

/-- A prior with standard deviations 2 and √3. -/
def prior : Fin 2 → Fin 2 → ℚ := fun i j => if i = j then (if i = 0 then 4 else 3) else 0

/-- The covariance after a first observation with the design (1, -5) and the standard deviation
`2^-26`. -/
def afterFirst (fused : Bool) : Fin 2 → Fin 2 → ℚ :=
  obsE rnd64 fused prior (1 / 2 ^ 26) (fun i => if i = 0 then 1 else -5)

/-- The covariance after a second observation with the design (-5, -2). -/
def afterSecond (fused : Bool) : Fin 2 → Fin 2 → ℚ :=
  obsE rnd64 fused (afterFirst fused) (1 / 2 ^ 26) (fun i => if i = 0 then -5 else -2)

theorem proper_two (P : Fin 2 → Fin 2 → ℚ) (h : P 0 1 = P 1 0) (h0 : 0 < P 0 0)
    (h1 : P 0 1 * P 0 1 ≤ P 0 0 * P 1 1) : Proper P := by
  refine ⟨fun i j => ?_, fun v => ?_⟩
  · fin_cases i <;> fin_cases j <;> simp [h]
  · simp only [Fin.sum_univ_two]
    rw [← h]
    have e : P 0 0 * (v 0 * P 0 0 * v 0 + v 0 * P 0 1 * v 1 + (v 1 * P 0 1 * v 0 + v 1 * P 1 1 * v 1)) =
        (P 0 0 * v 0 + P 0 1 * v 1) ^ 2 + (P 0 0 * P 1 1 - P 0 1 * P 0 1) * v 1 ^ 2 := by ring
    have : 0 ≤ P 0 0 * (v 0 * P 0 0 * v 0 + v 0 * P 0 1 * v 1 +
        (v 1 * P 0 1 * v 0 + v 1 * P 1 1 * v 1)) := by
      rw [e]
      exact add_nonneg (sq_nonneg _) (mul_nonneg (by linarith) (sq_nonneg _))
    exact nonneg_of_mul_nonneg_right this h0

/-- **C162 (f)** Two parameters: from a diagonal prior (variances 4 and 3), two observations with
the standard deviation `2^-26` leave the second parameter with a negative variance (about
-8.4e-19), whether products and sums are fused or not; the matrix in between is a proper
covariance matrix. -/
theorem negative_variance_counterexample (fused : Bool) :
    Proper prior ∧ Proper (afterFirst fused) ∧ afterSecond fused 1 1 < 0 := by
  refine ⟨proper_two _ (by decide +kernel) (by decide +kernel) (by decide +kernel), ?_, ?_⟩
  · cases fused
    · exact proper_two _ (by decide +kernel) (by decide +kernel) (by decide +kernel)
    · exact proper_two _ (by decide +kernel) (by decide +kernel) (by decide +kernel)
  · cases fused <;> decide +kernel

/-- **C162 (g)** The computed matrix is not symmetric either: from the variances 4 and 3, one
observation with the design (-3, 1) and the standard deviation 1. -/
theorem asymmetric_counterexample :
    Proper prior ∧
      (let P := obsE rnd64 false prior 1 (fun i => if i = 0 then -3 else 1); P 0 1 ≠ P 1 0) :=
  ⟨(negative_variance_counterexample false).1, by decide +kernel⟩

/-- The second observation of the counterexample meets the hypotheses of `variance_floor_partial`. -/
example : -floorOf (obsE_ok (rnd := rnd64) true (fun _ => 0) (afterFirst true) 1 0 (1 / 2 ^ 26)
    (fun i => if i = 0 then -5 else -2)).A (afterFirst true) 1 ≤ afterSecond true 1 1 :=
  variance_floor_partial rnd64_nearest (negative_variance_counterexample true).2.1
    (obsE_ok true (fun _ => 0) (afterFirst true) 1 0 (1 / 2 ^ 26) (fun i => if i = 0 then -5 else -2)) 1

/-- A measurement 3 predicted as 3 in a filter with two parameters. -/
example : stateE rnd64 true (fun _ => (5 : ℚ)) prior 3 3 1 (fun i => if i = 0 then 1 else -5) 1 = 5 :=
  (state_direction rnd64_nearest (fun _ => by simpa using isDouble_int (K := ℚ) 5 (by norm_num))
    (obsE_ok true (fun _ => 5) prior 3 3 1 (fun i => if i = 0 then 1 else -5)) 1).1 rfl

/-- One parameter: two observations. -/
example : 0 ≤ obsE rnd64 false (obsE rnd64 true (fun _ _ : Fin 1 => (1 / 3 : ℚ)) 7 (fun _ => 2))
    (1 / 10) (fun _ => 5) 0 0 :=
  variance_scalar rnd64_nearest (fun _ _ => 1 / 3) (by norm_num) _
    (.obs (.obs .start (obsE_ok true (fun _ => 0) _ 1 0 7 (fun _ => 2)))
      (obsE_ok false (fun _ => 0) _ 1 0 (1 / 10) (fun _ => 5)))

end Verif.Float
