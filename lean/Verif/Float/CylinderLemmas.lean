import Verif.Float.ShadowModel
import Verif.Float.Arith
import Mathlib.Tactic.Positivity

/-
Rounding errors of norm, unit vector, projection and distance from an axis.
-/
namespace Verif.Float

open Verif.Astro (V3)
open Real

variable {rnd : ℝ → ℝ}

theorem u_small : u ≤ 1 / 1000000000000000 := by
  unfold u; norm_num

/-- Error of one rounding against any bound of the value that is not subnormal. -/
theorem Nearest.abs_err (hr : Nearest rnd) {x M : ℝ} (hM : 2 ^ (-1022 : ℤ) ≤ M) (hx : |x| ≤ M) :
    |rnd x - x| ≤ u * M := by
  by_cases h : 2 ^ (-1022 : ℤ) ≤ |x|
  · exact (hr.rel h).trans (mul_le_mul_of_nonneg_left hx u_pos.le)
  · have h1 := hr.err (-1074) (by norm_num) (x := x) (by
      refine (not_le.1 h).le.trans ?_
      exact zpow_le_zpow_right₀ (by norm_num) (by norm_num))
    refine h1.trans (le_trans ?_ (mul_le_mul_of_nonneg_left hM u_pos.le))
    unfold u
    rw [← zpow_add₀ (by norm_num), show (2 : ℝ) ^ (-1074 : ℤ) / 2 = 2 ^ (-1074 : ℤ) * 2 ^ (-1 : ℤ) by
      rw [zpow_neg_one]; rfl, ← zpow_add₀ (by norm_num)]
    norm_num

/-- The computed value with the bound of the rounding carried along. -/
theorem Nearest.step (hr : Nearest rnd) {x y M E : ℝ} (hM : 2 ^ (-1022 : ℤ) ≤ M) (hx : |x| ≤ M)
    (hy : |x - y| ≤ E) : |rnd x - y| ≤ u * M + E := by
  have h1 := hr.abs_err hM hx
  have : rnd x - y = (rnd x - x) + (x - y) := by ring
  rw [this]
  exact (abs_add_le _ _).trans (add_le_add h1 hy)

theorem comp_le (v : V3) : |v.x| ≤ v.norm ∧ |v.y| ≤ v.norm ∧ |v.z| ≤ v.norm := by
  unfold V3.norm V3.dot
  refine ⟨?_, ?_, ?_⟩ <;> apply Real.abs_le_sqrt <;>
    nlinarith [mul_self_nonneg v.x, mul_self_nonneg v.y, mul_self_nonneg v.z]

/-- The sum of squares to an error of 6u times any bound that is not subnormal. -/
theorem normSqD_err (hr : Nearest rnd) (fused : Bool) (v : V3) {Q : ℝ} (h : 2 ^ (-1022 : ℤ) ≤ Q)
    (hQ : v.dot v ≤ Q) : |normSqD rnd fused v - v.dot v| ≤ 6 * u * Q := by
  have hu := u_pos
  have hu' := u_small
  have hQ0 : 0 < Q := lt_of_lt_of_le (zpow_pos (by norm_num) _) h
  have hd : v.x * v.x + v.y * v.y + v.z * v.z ≤ Q := hQ
  have he : v.x * v.x + v.y * v.y + v.z * v.z = v.dot v := rfl
  have hx := mul_self_nonneg v.x
  have hy := mul_self_nonneg v.y
  have hz := mul_self_nonneg v.z
  have huQ : u * Q ≤ Q / 1000000000000000 := by
    have := mul_le_mul_of_nonneg_right hu' hQ0.le; linarith
  have huQ0 : 0 < u * Q := mul_pos hu hQ0
  have r1 : ∀ t : ℝ, |t| ≤ 1.1 * Q → |rnd t - t| ≤ 1.1 * (u * Q) := fun t ht => by
    have := hr.abs_err (M := 1.1 * Q) (by linarith) ht; linarith
  have a1 := r1 (v.x * v.x) (by rw [abs_of_nonneg hx]; linarith)
  have a2 := r1 (v.y * v.y) (by rw [abs_of_nonneg hy]; linarith)
  have a3 := r1 (v.z * v.z) (by rw [abs_of_nonneg hz]; linarith)
  unfold normSqD
  rw [abs_le] at a1 a2 a3
  cases fused
  · simp only [Bool.false_eq_true, if_false]
    have b1 := r1 (rnd (v.x * v.x) + rnd (v.y * v.y)) (by rw [abs_le]; constructor <;> linarith)
    rw [abs_le] at b1
    have b2 := r1 (rnd (rnd (v.x * v.x) + rnd (v.y * v.y)) + rnd (v.z * v.z))
      (by rw [abs_le]; constructor <;> linarith)
    rw [abs_le] at b2 ⊢
    constructor <;> linarith
  · simp only [if_true]
    have b1 := r1 (v.y * v.y + rnd (v.x * v.x)) (by rw [abs_le]; constructor <;> linarith)
    rw [abs_le] at b1
    have b2 := r1 (v.z * v.z + rnd (v.y * v.y + rnd (v.x * v.x)))
      (by rw [abs_le]; constructor <;> linarith)
    rw [abs_le] at b2 ⊢
    constructor <;> linarith

/-- The norm to a relative error of 8u. -/
theorem normD_err (hr : Nearest rnd) (fused : Bool) (v : V3) (h : 2 ^ (-500 : ℤ) ≤ v.norm) :
    |normD rnd fused v - v.norm| ≤ 8 * u * v.norm := by
  have hu := u_pos
  have hu' := u_small
  set n := v.norm with hn
  have hn0 : 0 < n := lt_of_lt_of_le (zpow_pos (by norm_num) _) h
  have hq : n * n = v.dot v := V3.norm_sq v
  have h2 : (2 : ℝ) ^ (-1022 : ℤ) ≤ v.dot v := by
    rw [← hq]
    calc (2 : ℝ) ^ (-1022 : ℤ) ≤ 2 ^ (-500 : ℤ) * 2 ^ (-500 : ℤ) := by
          rw [← zpow_add₀ (by norm_num)]; exact zpow_le_zpow_right₀ (by norm_num) (by norm_num)
      _ ≤ n * n := mul_le_mul h h (zpow_pos (by norm_num) _).le hn0.le
  have e := normSqD_err hr fused v h2 le_rfl
  rw [← hq] at e
  set q := normSqD rnd fused v with hqd
  have hun : u * n ≤ n / 1000000000000000 := by
    have := mul_le_mul_of_nonneg_right hu' hn0.le; linarith
  have hun0 : 0 < u * n := mul_pos hu hn0
  have hqn : 0 ≤ q := by
    rw [abs_le] at e
    have : 6 * u * (n * n) ≤ n * n := by
      have := mul_le_mul_of_nonneg_right hu' (mul_pos hn0 hn0).le; nlinarith
    linarith
  have hs : |√q - n| ≤ 6 * (u * n) := by
    have hs0 := Real.sqrt_nonneg q
    have hss := Real.mul_self_sqrt hqn
    have : |√q - n| * (√q + n) = |q - n * n| := by
      rw [show q - n * n = (√q - n) * (√q + n) by linear_combination -hss, abs_mul,
        abs_of_nonneg (show 0 ≤ √q + n by linarith)]
    have h3 : |√q - n| * n ≤ 6 * (u * n) * n := by
      calc |√q - n| * n ≤ |√q - n| * (√q + n) :=
            mul_le_mul_of_nonneg_left (by linarith) (abs_nonneg _)
        _ = |q - n * n| := this
        _ ≤ _ := by linarith
    exact le_of_mul_le_mul_right h3 hn0
  have hM : (2 : ℝ) ^ (-1022 : ℤ) ≤ 1.1 * n := by
    have : (2 : ℝ) ^ (-1022 : ℤ) ≤ 2 ^ (-500 : ℤ) := zpow_le_zpow_right₀ (by norm_num) (by norm_num)
    linarith
  unfold normD
  rw [← hqd]
  rw [abs_le] at hs
  have := hr.step hM (x := √q) (y := n) (E := 6 * (u * n))
    (by rw [abs_le]; constructor <;> linarith) (by rw [abs_le]; exact hs)
  linarith

/-- The norm is at most the factor 1 + 8u above any bound of the exact one. -/
theorem normD_le (hr : Nearest rnd) (fused : Bool) (v : V3) {B : ℝ} (h : 2 ^ (-500 : ℤ) ≤ B)
    (hB : v.norm ≤ B) : normD rnd fused v ≤ B + 8 * (u * B) := by
  have hu := u_pos
  have hu' := u_small
  have hB0 : 0 < B := lt_of_lt_of_le (zpow_pos (by norm_num) _) h
  have hBu : u * B ≤ B / 1000000000000000 := by
    have := mul_le_mul_of_nonneg_right hu' hB0.le; linarith
  have hBu0 : 0 < u * B := mul_pos hu hB0
  have hq := V3.norm_sq v
  have hn := V3.norm_nonneg v
  have h2 : (2 : ℝ) ^ (-1022 : ℤ) ≤ B * B := by
    calc (2 : ℝ) ^ (-1022 : ℤ) ≤ 2 ^ (-500 : ℤ) * 2 ^ (-500 : ℤ) := by
          rw [← zpow_add₀ (by norm_num)]; exact zpow_le_zpow_right₀ (by norm_num) (by norm_num)
      _ ≤ B * B := mul_le_mul h h (zpow_pos (by norm_num) _).le hB0.le
  have hd : v.dot v ≤ B * B := by rw [← hq]; exact mul_le_mul hB hB hn hB0.le
  have e := normSqD_err hr fused v h2 hd
  rw [abs_le] at e
  have hs : √(normSqD rnd fused v) ≤ B + 6 * (u * B) := by
    apply Real.sqrt_le_iff.2
    refine ⟨by linarith, ?_⟩
    nlinarith [sq_nonneg (u * B), mul_pos hBu0 hB0]
  have hM : (2 : ℝ) ^ (-1022 : ℤ) ≤ 1.1 * B := by
    have : (2 : ℝ) ^ (-1022 : ℤ) ≤ 2 ^ (-500 : ℤ) := zpow_le_zpow_right₀ (by norm_num) (by norm_num)
    linarith
  have h3 := hr.abs_err hM (x := √(normSqD rnd fused v))
    (by rw [abs_of_nonneg (Real.sqrt_nonneg _)]; linarith)
  rw [abs_le] at h3
  unfold normD
  linarith [h3.2]

/-- Error of a product from the errors of its factors. -/
theorem mul_err {a a' b b' A B E F : ℝ} (hA : |a| ≤ A) (hB : |b'| ≤ B) (hE : |a' - a| ≤ E)
    (hF : |b' - b| ≤ F) : |a' * b' - a * b| ≤ E * B + A * F := by
  have : a' * b' - a * b = (a' - a) * b' + a * (b' - b) := by ring
  rw [this]
  refine (abs_add_le _ _).trans (add_le_add ?_ ?_)
  · rw [abs_mul]
    exact mul_le_mul hE hB (abs_nonneg _) ((abs_nonneg _).trans hE)
  · rw [abs_mul]
    exact mul_le_mul hA hF (abs_nonneg _) ((abs_nonneg _).trans hA)

/-- A component of the unit vector to an error of 10u. -/
theorem unit_err (hr : Nearest rnd) {n n' s : ℝ} (hn : 0 < n) (he : |n' - n| ≤ 8 * u * n)
    (hs : |s| ≤ n) : |rnd (s / n') - s / n| ≤ 10 * u := by
  have hu := u_pos
  have hu' := u_small
  have hun : u * n ≤ n / 1000000000000000 := by
    have := mul_le_mul_of_nonneg_right hu' hn.le; linarith
  rw [abs_le] at he
  have hn' : 0 < n' := by linarith
  have h1 : |s / n'| ≤ 1.1 := by
    rw [abs_div, abs_of_pos hn', div_le_iff₀ hn']; linarith
  have h2 : |s / n' - s / n| ≤ 8.8 * u := by
    have : s / n' - s / n = -(s / n') * ((n' - n) / n) := by field_simp; ring
    rw [this, abs_mul, abs_neg, abs_div (n' - n), abs_of_pos hn]
    have h3 : |n' - n| / n ≤ 8 * u := by
      rw [div_le_iff₀ hn, abs_le]; exact he
    calc _ ≤ 1.1 * (8 * u) := mul_le_mul h1 h3 (by positivity) (by norm_num)
      _ = _ := by ring
  have := hr.step (M := 1.1) (E := 8.8 * u) (by
    have : (2 : ℝ) ^ (-1022 : ℤ) ≤ 2 ^ (0 : ℤ) := zpow_le_zpow_right₀ (by norm_num) (by norm_num)
    rw [zpow_zero] at this; linarith) h1 h2
  linarith

/-- A scalar product with a computed unit vector to an error of 45u times the length. -/
theorem proj_err (hr : Nearest rnd) (r w w' : V3) {R : ℝ} (hR : 2 ^ (-500 : ℤ) ≤ R)
    (rx : |r.x| ≤ R) (ry : |r.y| ≤ R) (rz : |r.z| ≤ R)
    (ux : |w.x| ≤ 1) (uy : |w.y| ≤ 1) (uz : |w.z| ≤ 1)
    (ex : |w'.x - w.x| ≤ 10 * u) (ey : |w'.y - w.y| ≤ 10 * u) (ez : |w'.z - w.z| ≤ 10 * u) :
    |dotD rnd r w' - r.dot w| ≤ 45 * (u * R) := by
  have hu := u_pos
  have hu' := u_small
  have hR0 : 0 < R := lt_of_lt_of_le (zpow_pos (by norm_num) _) hR
  have hR2 : (2 : ℝ) ^ (-1022 : ℤ) ≤ R :=
    le_trans (zpow_le_zpow_right₀ (by norm_num) (by norm_num)) hR
  have huR : u * R ≤ R / 1000000000000000 := by
    have := mul_le_mul_of_nonneg_right hu' hR0.le; linarith
  have huR0 : 0 < u * R := mul_pos hu hR0
  have one : ∀ a b b' : ℝ, |a| ≤ R → |b| ≤ 1 → |b' - b| ≤ 10 * u →
      |rnd (a * b') - a * b| ≤ 12 * (u * R) ∧ |a * b| ≤ R := by
    intro a b b' ha hb hb'
    have hab : |a * b| ≤ R := by
      rw [abs_mul]
      calc |a| * |b| ≤ R * 1 := mul_le_mul ha hb (abs_nonneg _) hR0.le
        _ = R := mul_one R
    have h1 : |a * b' - a * b| ≤ 10 * (u * R) := by
      rw [← mul_sub, abs_mul]
      calc |a| * |b' - b| ≤ R * (10 * u) := mul_le_mul ha hb' (abs_nonneg _) hR0.le
        _ = _ := by ring
    refine ⟨?_, hab⟩
    have h2 : |a * b'| ≤ 1.1 * R := by
      rw [abs_le] at h1 hab ⊢; constructor <;> linarith
    have := hr.step (M := 1.1 * R) (by linarith) h2 h1
    linarith
  obtain ⟨a1, b1⟩ := one r.x w.x w'.x rx ux ex
  obtain ⟨a2, b2⟩ := one r.y w.y w'.y ry uy ey
  obtain ⟨a3, b3⟩ := one r.z w.z w'.z rz uz ez
  rw [abs_le] at a1 a2 a3 b1 b2 b3
  have c1 := hr.abs_err (x := rnd (r.x * w'.x) + rnd (r.y * w'.y)) (M := 2.1 * R) (by linarith)
    (by rw [abs_le]; constructor <;> linarith)
  rw [abs_le] at c1
  have c2 := hr.abs_err (x := rnd (rnd (r.x * w'.x) + rnd (r.y * w'.y)) + rnd (r.z * w'.z))
    (M := 3.1 * R) (by linarith) (by rw [abs_le]; constructor <;> linarith)
  rw [abs_le] at c2 ⊢
  unfold dotD V3.dot
  constructor <;> linarith

/-- A component of the distance vector to an error of 64u times the length. -/
theorem reject_err (hr : Nearest rnd) {a b b' s s' R : ℝ} (hR : 2 ^ (-500 : ℤ) ≤ R) (ha : |a| ≤ R)
    (hb : |b| ≤ 1) (hb' : |b' - b| ≤ 10 * u) (hs : |s| ≤ R) (hs' : |s' - s| ≤ 45 * (u * R)) :
    |rnd (a - rnd (s' * b')) - (a - s * b)| ≤ 64 * (u * R) := by
  have hu := u_pos
  have hu' := u_small
  have hR0 : 0 < R := lt_of_lt_of_le (zpow_pos (by norm_num) _) hR
  have hR2 : (2 : ℝ) ^ (-1022 : ℤ) ≤ R :=
    le_trans (zpow_le_zpow_right₀ (by norm_num) (by norm_num)) hR
  have huR : u * R ≤ R / 1000000000000000 := by
    have := mul_le_mul_of_nonneg_right hu' hR0.le; linarith
  have huR0 : 0 < u * R := mul_pos hu hR0
  have hb2 : |b'| ≤ 1.1 := by
    rw [abs_le] at hb hb' ⊢; constructor <;> linarith
  have h1 := mul_err hs hb2 hs' hb'
  have hsb : |s * b| ≤ R := by
    rw [abs_mul]
    calc |s| * |b| ≤ R * 1 := mul_le_mul hs hb (abs_nonneg _) hR0.le
      _ = R := mul_one R
  have h2 : |s' * b'| ≤ 1.1 * R := by
    rw [abs_le] at h1 hsb ⊢; constructor <;> linarith
  have h3 := hr.step (M := 1.1 * R) (by linarith) h2 h1
  have h4 : |a - rnd (s' * b')| ≤ 2.1 * R := by
    rw [abs_le] at h3 hsb ha ⊢; constructor <;> linarith
  have h5 := hr.abs_err (M := 2.1 * R) (by linarith) h4
  rw [abs_le] at h3 h5 ⊢
  constructor <;> linarith

/-- Triangle inequality for the norm with errors of the components. -/
theorem norm_diff (v w : V3) {E : ℝ} (hx : |v.x - w.x| ≤ E) (hy : |v.y - w.y| ≤ E)
    (hz : |v.z - w.z| ≤ E) : |v.norm - w.norm| ≤ 2 * E := by
  have hE : 0 ≤ E := (abs_nonneg _).trans hx
  have key : ∀ v w : V3, |v.x - w.x| ≤ E → |v.y - w.y| ≤ E → |v.z - w.z| ≤ E →
      v.norm ≤ w.norm + 2 * E := by
    intro v w hx hy hz
    have hw := V3.norm_nonneg w
    have q := V3.norm_sq w
    set n := w.norm with hn
    have sx := sq_le_sq' (abs_le.1 hx).1 (abs_le.1 hx).2
    have sy := sq_le_sq' (abs_le.1 hy).1 (abs_le.1 hy).2
    have sz := sq_le_sq' (abs_le.1 hz).1 (abs_le.1 hz).2
    -- the scalar product of w and the difference, by Cauchy-Schwarz
    set d := w.x * (v.x - w.x) + w.y * (v.y - w.y) + w.z * (v.z - w.z) with hd
    have cs : d ≤ n * (2 * E) := by
      refine le_of_abs_le (abs_le_of_sq_le_sq ?_ (by positivity))
      have hq : w.dot w = w.x * w.x + w.y * w.y + w.z * w.z := rfl
      have l : d ^ 2 ≤ (w.x * w.x + w.y * w.y + w.z * w.z) *
          ((v.x - w.x) ^ 2 + (v.y - w.y) ^ 2 + (v.z - w.z) ^ 2) := by
        rw [hd]
        nlinarith [sq_nonneg (w.x * (v.y - w.y) - w.y * (v.x - w.x)),
          sq_nonneg (w.y * (v.z - w.z) - w.z * (v.y - w.y)),
          sq_nonneg (w.z * (v.x - w.x) - w.x * (v.z - w.z))]
      refine l.trans ?_
      rw [← hq, ← q, show (n * (2 * E)) ^ 2 = n * n * (4 * E ^ 2) by ring]
      apply mul_le_mul_of_nonneg_left _ (mul_self_nonneg n)
      nlinarith [sq_nonneg E]
    unfold V3.norm
    apply Real.sqrt_le_iff.2
    refine ⟨by positivity, ?_⟩
    have : v.dot v = w.dot w + 2 * d + ((v.x - w.x) ^ 2 + (v.y - w.y) ^ 2 + (v.z - w.z) ^ 2) := by
      unfold V3.dot; rw [hd]; ring
    rw [this, ← q]
    nlinarith [sq_nonneg E]
  have k1 := key v w hx hy hz
  have k2 := key w v (by rw [abs_sub_comm]; exact hx) (by rw [abs_sub_comm]; exact hy)
    (by rw [abs_sub_comm]; exact hz)
  rw [abs_le]
  constructor <;> linarith

end Verif.Float
