import Verif.Float.HessModel
import Verif.Float.RecurProps
import Verif.Gravity.Sums
import Mathlib.Data.Nat.Factorial.Basic

/-
C180: partials of the gravity acceleration in double arithmetic.
-/
namespace Verif.Float.Hess

open Verif.Float.Gravity Verif.Float.Recur

variable {rnd : ℝ → ℝ}

/-! ### The factors -/

/-- The product `(i + 1) (i + 2)`, that is `(i + 2)! / i!`. -/
def upX (i : ℕ) : ℝ := (((i + 1) * (i + 2) : ℕ) : ℝ)

/-- The product of `e` integers from `i - j + 1`, that is `(i - j + e)! / (i - j)!`, at `j = k + 2`. -/
def downX (e i k : ℕ) : ℝ := (((i - (k + 2) + 1).ascFactorial e : ℕ) : ℝ)

theorem quo_rel (hr : Nearest rnd) {a b : ℕ} (hb : 0 < b) (hB : b ≤ 1000) :
    Rel 1 (rnd ((a : ℝ) / b)) ((a : ℝ) / b) := by
  have b0 : (b : ℝ) ≠ 0 := by exact_mod_cast hb.ne'
  have l : |(b : ℝ)| ≤ 2 ^ 10 := by
    rw [Nat.abs_cast]
    have : (b : ℝ) ≤ 1000 := by exact_mod_cast hB
    linarith
  exact (Rel.refl _).rb hr (by omega) (((big_nat a).div l b0).mono (by norm_num))

theorem up_rel (hr : Nearest rnd) : ∀ i ≤ 400, Rel (2 * i) (up rnd i) (upX i)
  | 0, _ => by simpa [up, upX] using Rel.refl (2 : ℝ)
  | i + 1, h => by
    have p := (up_rel hr i (by omega)).mul (quo_rel hr (a := i + 3) (b := i + 1) (by omega) (by omega))
    have e : upX i * (((i + 3 : ℕ) : ℝ) / ((i + 1 : ℕ) : ℝ)) = upX (i + 1) := by
      have : ((i : ℝ) + 1) ≠ 0 := by positivity
      unfold upX; push_cast; field_simp; ring
    rw [e] at p
    exact p.rb hr (by omega) ((big_nat _).mono (by norm_num))

theorem ratio_exact (hr : Nearest rnd) (d : ℕ) : ∀ e, (d + 1).ascFactorial e ≤ 2 ^ 53 →
    ratioD rnd d e = ((d + 1).ascFactorial e : ℕ)
  | 0, _ => by simp [ratioD]
  | e + 1, h => by
    have s : (d + 1).ascFactorial (e + 1) = (d + 1 + e) * (d + 1).ascFactorial e := Nat.ascFactorial_succ
    have l : (d + 1).ascFactorial e ≤ (d + 1).ascFactorial (e + 1) := by
      rw [s]; exact Nat.le_mul_of_pos_left _ (by omega)
    have ih := ratio_exact hr d e (l.trans h)
    unfold ratioD at ih ⊢
    rw [List.range'_1_concat, List.foldl_append, ih]
    simp only [List.foldl_cons, List.foldl_nil]
    have := hr.exact (isDouble_int ((d + 1).ascFactorial (e + 1) : ℕ) (by
      rw [abs_of_nonneg (by positivity)]; exact_mod_cast h))
    rw [← Nat.cast_mul, mul_comm, ← s]
    exact_mod_cast this

theorem asc_le {d e N : ℕ} (hd : d + e ≤ N) (he : e ≤ 4) (hN : 1 ≤ N) : (d + 1).ascFactorial e ≤ N ^ 4 := by
  refine (Nat.ascFactorial_le_pow_add d e).trans ?_
  exact (Nat.pow_le_pow_left hd e).trans (Nat.pow_le_pow_right hN he)

theorem down_rel (hr : Nearest rnd) {e i : ℕ} (he : 1 ≤ e) (he' : e ≤ 4) (hi : i ≤ 400) :
    ∀ k, k + 2 ≤ i → Rel (2 * k) (down rnd e i k) (downX e i k)
  | 0, h => by
    have : (i - 2 + 1).ascFactorial e ≤ 2 ^ 53 :=
      (asc_le (N := 404) (by omega) he' (by omega)).trans (by norm_num)
    rw [down, ratio_exact hr _ _ this]
    exact Rel.refl _
  | k + 1, h => by
    have p := (down_rel hr he he' hi k (by omega)).mul
      (quo_rel hr (a := i - (k + 2)) (b := i - (k + 2) + e) (by omega) (by omega))
    have ex : downX e i k * (((i - (k + 2) : ℕ) : ℝ) / ((i - (k + 2) + e : ℕ) : ℝ)) = downX e i (k + 1) := by
      have b0 : ((i - (k + 2) + e : ℕ) : ℝ) ≠ 0 := by
        have : i - (k + 2) + e ≠ 0 := by omega
        exact_mod_cast this
      have s := Nat.succ_ascFactorial (i - (k + 2)) e
      have t : i - (k + 1 + 2) + 1 = i - (k + 2) := by omega
      unfold downX
      rw [t, ← mul_div_assoc, div_eq_iff b0, mul_comm]
      rw [mul_comm ((i - (k + 2)).ascFactorial e : ℝ)]
      exact_mod_cast s
    rw [ex] at p
    exact p.rb hr (by omega) ((big_nat _).mono (by norm_num))

/-- **C180.**  After the last turn of a full row the factors are exactly zero, whatever the roundings before. -/
theorem down_end (hr : Nearest rnd) (e k : ℕ) : down rnd e (k + 2) (k + 1) = 0 := by
  simp [down, hr.zero]

theorem rel_gam' {n m : ℕ} {x y : ℝ} (h : Rel n x y) (hn : n ≤ 1000) (hm : 2 * n ≤ m) :
    |x - y| ≤ (gam m - 1) * |y| := by
  have n0 : (n : ℝ) ≤ 1000 := by exact_mod_cast hn
  have k : (n : ℝ) * u ≤ 1000 * (1 / 2 ^ 53) := mul_le_mul n0 u_le u_pos.le (by norm_num)
  refine (h.err (k.trans (by norm_num))).trans (mul_le_mul_of_nonneg_right ?_ (abs_nonneg _))
  have g := gam_ge (2 * n)
  have g' : (gam (2 * n) : ℝ) ≤ gam m := gam_mono hm
  push_cast at g
  linarith

/-! ### The terms -/

/-- Sizes of the terms of the first loop. -/
noncomputable def m0S (d : In) (e : Ent) (i : ℕ) : ℝ :=
  match e with
  | .xx => 1 / 2 * (|d.C i 0 * d.V (i + 2) 2| + upX i * |d.C i 0 * d.V (i + 2) 0|)
  | .xy => 1 / 2 * |d.C i 0 * d.W (i + 2) 2|
  | .xz => (i + 1) * |d.C i 0 * d.V (i + 2) 1|
  | .yz => (i + 1) * |d.C i 0 * d.W (i + 2) 1|
  | .zz => upX i * |d.C i 0 * d.V (i + 2) 0|

/-- Sizes of the terms of the second loop. -/
noncomputable def m1S (d : In) (e : Ent) (i : ℕ) : ℝ :=
  match e with
  | .xx => 1 / 4 * (|d.C i 1 * d.V (i + 2) 3| + |d.S i 1 * d.W (i + 2) 3| +
      upX (i - 1) * (3 * |d.C i 1 * d.V (i + 2) 1| + |d.S i 1 * d.W (i + 2) 1|))
  | .xy => 1 / 4 * (|d.C i 1 * d.W (i + 2) 3| + |d.S i 1 * d.V (i + 2) 3| +
      upX (i - 1) * (|d.C i 1 * d.W (i + 2) 1| + |d.S i 1 * d.V (i + 2) 1|))
  | .zz => ((i * (i + 1) : ℕ) : ℝ) * (|d.C i 1 * d.V (i + 2) 1| + |d.S i 1 * d.W (i + 2) 1|)
  | _ => 0

/-- Sizes of the terms of the third loop. -/
noncomputable def m2S (d : In) (e : Ent) (p : ℕ × ℕ) : ℝ :=
  let i := p.1
  let j := p.2
  match e with
  | .xx => 1 / 4 * (|d.C i j * d.V (i + 2) (j + 2)| + |d.S i j * d.W (i + 2) (j + 2)| +
      2 * downX 2 i (j - 2) * (|d.C i j * d.V (i + 2) j| + |d.S i j * d.W (i + 2) j|) +
      downX 4 i (j - 2) * (|d.C i j * d.V (i + 2) (j - 2)| + |d.S i j * d.W (i + 2) (j - 2)|))
  | .xy => 1 / 4 * (|d.C i j * d.W (i + 2) (j + 2)| + |d.S i j * d.V (i + 2) (j + 2)| +
      downX 4 i (j - 2) * (|d.C i j * d.W (i + 2) (j - 2)| + |d.S i j * d.V (i + 2) (j - 2)|))
  | .xz => ((i - j + 1 : ℕ) : ℝ) / 2 * (|d.C i j * d.V (i + 2) (j + 1)| + |d.S i j * d.W (i + 2) (j + 1)|) +
      downX 3 i (j - 2) * (1 / 2) * (|d.C i j * d.V (i + 2) (j - 1)| + |d.S i j * d.W (i + 2) (j - 1)|)
  | .yz => ((i - j + 1 : ℕ) : ℝ) / 2 * (|d.C i j * d.W (i + 2) (j + 1)| + |d.S i j * d.V (i + 2) (j + 1)|) +
      downX 3 i (j - 2) * (1 / 2) * (|d.C i j * d.W (i + 2) (j - 1)| + |d.S i j * d.V (i + 2) (j - 1)|)
  | .zz => downX 2 i (j - 2) * (|d.C i j * d.V (i + 2) j| + |d.S i j * d.W (i + 2) j|)

theorem _root_.Verif.Float.Gravity.Ev.scaleN {k : ℝ} (hk : 0 ≤ k) {n : ℕ} {c v y s : ℝ} (h : Ev n c v y s) :
    Ev n (k * c) (k * v) (k * y) (k * s) := by
  have := h.scale k
  rwa [abs_of_nonneg hk] at this

theorem _root_.Verif.Float.Gravity.Ev.mulN {n m : ℕ} {c v y s F f : ℝ} (h : Ev n c v y s) (f0 : 0 ≤ f) (hF : |F - f| ≤ (gam m - 1) * |f|) :
    Ev (n + m) (f * c) (F * v) (f * y) (f * s) := by
  have := h.mulF hF
  rw [mul_comm v, mul_comm y] at this
  rwa [abs_of_nonneg f0] at this

theorem _root_.Verif.Float.Gravity.Ev.up {m n : ℕ} {c v y s : ℝ} (h : Ev m c v y s) (hn : m ≤ n) : Ev n c v y s := h.mono hn le_rfl

/-- A sum of two products times a factor. -/
theorem fpair (hr : Nearest rnd) (b : Bool) {m : ℕ} {p q p' q' s t F f c c' : ℝ} (f0 : 0 ≤ f)
    (hF : |F - f| ≤ (gam m - 1) * |f|) {n : ℕ} (h : Ev n c p p' s) (h' : Ev n c' q q' t) :
    Ev (n + m + 2) (f * (c + c' + eta) + eta) (rq rnd b (F * rnd (p + q))) (f * (p' + q')) (f * (s + t)) :=
  ((Ev.mulN ((h.add h').round hr) f0 hF).rq hr b).up (by omega)

theorem fpair' (hr : Nearest rnd) (b : Bool) {m : ℕ} {p q p' q' s t F f c c' : ℝ} (f0 : 0 ≤ f)
    (hF : |F - f| ≤ (gam m - 1) * |f|) {n : ℕ} (h : Ev n c p p' s) (h' : Ev n c' q q' t) :
    Ev (n + m + 2) (f * (c + c' + eta) + eta) (rq rnd b (F * rnd (p - q))) (f * (p' - q')) (f * (s + t)) := by
  rw [sub_eq_add_neg, sub_eq_add_neg]
  exact fpair hr b f0 hF h h'.neg

theorem self_rel (f : ℝ) (m : ℕ) : |f - f| ≤ (gam m - 1) * |f| := by
  rw [sub_self, abs_zero]
  exact mul_nonneg (by linarith [gam_one_le (K := ℝ) m]) (abs_nonneg f)

/-- What underflow may add to a term up to degree `N`, for entries of the work arrays up to `B`. -/
noncomputable def tinyT (N : ℕ) (B : ℝ) : ℝ := 20 * (((N : ℝ) + 4) ^ 4 * ((B + 1) * eta))

theorem upX_nonneg (i : ℕ) : 0 ≤ upX i := by unfold upX; positivity

theorem downX_nonneg (e i k : ℕ) : 0 ≤ downX e i k := by unfold downX; positivity

theorem int_le {n N : ℕ} (h : n ≤ (N + 4) ^ 4) : (n : ℝ) ≤ ((N : ℝ) + 4) ^ 4 := by exact_mod_cast h

theorem sq_le_four (N : ℕ) : (N + 4) * (N + 4) * 2 ≤ (N + 4) ^ 4 := by
  have : (N + 4) ^ 4 = (N + 4) * (N + 4) * ((N + 4) * (N + 4)) := by ring
  rw [this]
  exact Nat.mul_le_mul_left _ (by nlinarith)

theorem upX_le {i N : ℕ} (h : i ≤ N) : upX i ≤ ((N : ℝ) + 4) ^ 4 := by
  refine int_le (le_trans ?_ (sq_le_four N))
  nlinarith

theorem downX_le {e i k N : ℕ} (h : i ≤ N) (he : e ≤ 4) : downX e i k ≤ ((N : ℝ) + 4) ^ 4 :=
  int_le (asc_le (by omega) he (by omega))

theorem downX2_le {i k N : ℕ} (h : i ≤ N) : 2 * downX 2 i k ≤ ((N : ℝ) + 4) ^ 4 := by
  have : (i - (k + 2) + 1).ascFactorial 2 ≤ (N + 4) * (N + 4) := by
    refine (Nat.ascFactorial_le_pow_add _ 2).trans ?_
    rw [← sq]; exact Nat.pow_le_pow_left (by omega) 2
  have := int_le (n := 2 * (i - (k + 2) + 1).ascFactorial 2) (N := N) (by linarith [sq_le_four N])
  push_cast at this
  exact this

theorem m0_ev (hr : Nearest rnd) (fl : ℕ → ℕ → ℕ → Bool) (d : In) (e : Ent) {i N : ℕ} {B : ℝ} (hi : i ≤ N)
    (hN : N ≤ 400) (B0 : 0 ≤ B) (hV : ∀ m, |d.V (i + 2) m| ≤ B) (hW : ∀ m, |d.W (i + 2) m| ≤ B) :
    Ev (4 * N + 8) (tinyT N B) (m0 rnd fl d (up rnd) e i) (m0 id fl d upX e i) (m0S d e i) := by
  have e0 := eta_pos (K := ℝ)
  have F := rel_gam' (m := 4 * N) (up_rel hr i (by omega)) (by omega) (by omega)
  have f0 := upX_nonneg i
  have f1 := upX_le hi
  have i1 : ((i + 1 : ℕ) : ℝ) ≤ ((N : ℝ) + 4) ^ 4 := by
    refine int_le (le_trans ?_ (sq_le_four N)); nlinarith
  have i0 : (0 : ℝ) ≤ ((i + 1 : ℕ) : ℝ) := Nat.cast_nonneg _
  have G1 : (1 : ℝ) ≤ ((N : ℝ) + 4) ^ 4 := one_le_pow₀ (by linarith [Nat.cast_nonneg (α := ℝ) N])
  unfold tinyT
  generalize hG : ((N : ℝ) + 4) ^ 4 = G at *
  have a1 : upX i * eta ≤ G * eta := mul_le_mul_of_nonneg_right f1 e0.le
  have a2 : 0 ≤ G * (B * eta) := by positivity
  have a3 : eta ≤ G * eta := le_mul_of_one_le_left e0.le G1
  cases e with
  | xx =>
    simp only [m0, m0S, rq_id, id]
    refine ((Ev.scaleN (by norm_num : (0 : ℝ) ≤ 1 / 2) ((((ev_prod hr _ _ _).up (n := 4 * N + 2) (by omega)).sub
      (((Ev.mulN ((Ev.leaf _).round hr) f0 F).rq hr _).up (by omega))).round hr)).rq hr _).mono (by omega) ?_
    linarith
  | xy =>
    simp only [m0, m0S, rq_id, id]
    refine ((Ev.scaleN (by norm_num : (0 : ℝ) ≤ 1 / 2) ((Ev.leaf _).round hr)).rq hr _).mono (by omega) ?_
    linarith
  | xz =>
    simp only [m0, m0S, rq_id, id]
    have t := (((Ev.leaf (((i + 1 : ℕ) : ℝ) * d.C i 0)).round hr).scale (d.V (i + 2) 1)).rq hr (fl i 0 7)
    rw [mul_comm (d.V (i + 2) 1), mul_comm (d.V (i + 2) 1) (_ * _)] at t
    have s : |d.V (i + 2) 1| * |((i + 1 : ℕ) : ℝ) * d.C i 0| = (i + 1) * |d.C i 0 * d.V (i + 2) 1| := by
      rw [abs_mul, Nat.abs_cast, abs_mul]; push_cast; ring
    rw [s] at t
    refine t.mono (by omega) ?_
    have b1 : |d.V (i + 2) 1| * eta ≤ B * eta := mul_le_mul_of_nonneg_right (hV 1) e0.le
    have b2 : B * eta ≤ G * (B * eta) := le_mul_of_one_le_left (by positivity) G1
    linarith
  | yz =>
    simp only [m0, m0S, rq_id, id]
    have t := (((Ev.leaf (((i + 1 : ℕ) : ℝ) * d.C i 0)).round hr).scale (d.W (i + 2) 1)).rq hr (fl i 0 8)
    rw [mul_comm (d.W (i + 2) 1), mul_comm (d.W (i + 2) 1) (_ * _)] at t
    have s : |d.W (i + 2) 1| * |((i + 1 : ℕ) : ℝ) * d.C i 0| = (i + 1) * |d.C i 0 * d.W (i + 2) 1| := by
      rw [abs_mul, Nat.abs_cast, abs_mul]; push_cast; ring
    rw [s] at t
    refine t.mono (by omega) ?_
    have b1 : |d.W (i + 2) 1| * eta ≤ B * eta := mul_le_mul_of_nonneg_right (hW 1) e0.le
    have b2 : B * eta ≤ G * (B * eta) := le_mul_of_one_le_left (by positivity) G1
    linarith
  | zz =>
    simp only [m0, m0S, rq_id, id]
    refine ((Ev.scaleN f0 ((Ev.leaf _).round hr)).rq hr _).mono (by omega) ?_
    linarith

theorem m1_ev (hr : Nearest rnd) (fl : ℕ → ℕ → ℕ → Bool) (d : In) (e : Ent) {i N : ℕ} {B : ℝ} (h1 : 1 ≤ i) (hi : i ≤ N)
    (hN : N ≤ 400) (B0 : 0 ≤ B) (hV : ∀ m, |d.V (i + 2) m| ≤ B) :
    Ev (4 * N + 8) (tinyT N B) (m1 rnd fl d (up rnd) e i) (m1 id fl d upX e i) (m1S d e i) := by
  have e0 := eta_pos (K := ℝ)
  have F := rel_gam' (m := 4 * N) (up_rel hr (i - 1) (by omega)) (by omega) (by omega)
  have f0 := upX_nonneg (i - 1)
  have f1 := upX_le (i := i - 1) (N := N) (by omega)
  have i1 : ((i * (i + 1) : ℕ) : ℝ) ≤ ((N : ℝ) + 4) ^ 4 := by
    refine int_le (le_trans ?_ (sq_le_four N)); nlinarith
  have i0 : (0 : ℝ) ≤ ((i * (i + 1) : ℕ) : ℝ) := Nat.cast_nonneg _
  have G1 : (1 : ℝ) ≤ ((N : ℝ) + 4) ^ 4 := one_le_pow₀ (by linarith [Nat.cast_nonneg (α := ℝ) N])
  unfold tinyT
  generalize hG : ((N : ℝ) + 4) ^ 4 = G at *
  have a1 : upX (i - 1) * eta ≤ G * eta := mul_le_mul_of_nonneg_right f1 e0.le
  have a2 : 0 ≤ G * (B * eta) := by positivity
  have a3 : eta ≤ G * eta := le_mul_of_one_le_left e0.le G1
  have a4 : ((i * (i + 1) : ℕ) : ℝ) * eta ≤ G * eta := mul_le_mul_of_nonneg_right i1 e0.le
  cases e with
  | xx =>
    simp only [m1, m1S, rq_id, id]
    have t := (((Ev.leaf (-3 * d.C i 1)).round hr).scale (d.V (i + 2) 1)).rq hr (fl i 1 24)
    rw [mul_comm (d.V (i + 2) 1), mul_comm (d.V (i + 2) 1) (_ * _)] at t
    have s : |d.V (i + 2) 1| * |-3 * d.C i 1| = 3 * |d.C i 1 * d.V (i + 2) 1| := by
      rw [abs_mul, abs_mul, abs_neg, abs_of_nonneg (by norm_num : (0 : ℝ) ≤ 3)]; ring
    rw [s] at t
    refine ((Ev.scaleN (by norm_num : (0 : ℝ) ≤ 1 / 4) ((((((ev_prod hr _ _ _).add (ev_prod hr _ _ _)).round hr).up
      (n := 4 * N + 4) (by omega)).add ((fpair' hr _ f0 F t ((ev_prod hr _ _ _).up (by omega))).up (by omega))).round
      hr)).rq hr _).mono (by omega) ?_
    have b1 : |d.V (i + 2) 1| * eta ≤ B * eta := mul_le_mul_of_nonneg_right (hV 1) e0.le
    have b2 : upX (i - 1) * (|d.V (i + 2) 1| * eta) ≤ G * (B * eta) := mul_le_mul f1 b1 (by positivity) (by positivity)
    linarith
  | xy =>
    simp only [m1, m1S, rq_id, id]
    refine ((Ev.scaleN (by norm_num : (0 : ℝ) ≤ 1 / 4) ((((((ev_prod hr _ _ _).sub (ev_prod hr _ _ _)).round hr).up
      (n := 4 * N + 4) (by omega)).add ((fpair' hr _ f0 F (ev_nprod hr _ _ _) (ev_prod hr _ _ _)).up (by omega))).round
      hr)).rq hr _).mono (by omega) ?_
    linarith
  | zz =>
    simp only [m1, m1S, rq_id, id]
    refine (fpair hr _ i0 (self_rel _ 0) (ev_prod hr _ _ _) (ev_prod hr _ _ _)).mono (by omega) ?_
    linarith
  | xz =>
    simp only [m1, m1S]
    have := (Ev.leaf 0).mono (n := 4 * N + 8) (Nat.zero_le _) (c' := 20 * (G * ((B + 1) * eta))) (by linarith)
    simpa using this
  | yz =>
    simp only [m1, m1S]
    have := (Ev.leaf 0).mono (n := 4 * N + 8) (Nat.zero_le _) (c' := 20 * (G * ((B + 1) * eta))) (by linarith)
    simpa using this

theorem m2_ev (hr : Nearest rnd) (fl : ℕ → ℕ → ℕ → Bool) (d : In) (e : Ent) {p : ℕ × ℕ} {N : ℕ} {B : ℝ} (h2 : 2 ≤ p.2)
    (hp : p.2 ≤ p.1) (hi : p.1 ≤ N) (hN : N ≤ 400) (B0 : 0 ≤ B) :
    Ev (4 * N + 8) (tinyT N B) (m2 rnd fl d (down rnd) e p) (m2 id fl d downX e p) (m2S d e p) := by
  obtain ⟨i, j⟩ := p
  simp only at h2 hp hi
  have e0 := eta_pos (K := ℝ)
  have F : ∀ e, 1 ≤ e → e ≤ 4 → |down rnd e i (j - 2) - downX e i (j - 2)| ≤ (gam (4 * N) - 1) * |downX e i (j - 2)| :=
    fun e h h' => rel_gam' (down_rel hr h h' (by omega) (j - 2) (by omega)) (by omega) (by omega)
  have f0 := fun e => downX_nonneg e i (j - 2)
  have f1 := fun e (he : e ≤ 4) => downX_le (k := j - 2) hi he
  have f2 := downX2_le (k := j - 2) hi
  have i1 : ((i - j + 1 : ℕ) : ℝ) ≤ ((N : ℝ) + 4) ^ 4 := by
    refine int_le (le_trans ?_ (sq_le_four N))
    have : i - j + 1 ≤ N + 4 := by omega
    nlinarith
  have i0 : (0 : ℝ) ≤ ((i - j + 1 : ℕ) : ℝ) / 2 := by positivity
  have G1 : (1 : ℝ) ≤ ((N : ℝ) + 4) ^ 4 := one_le_pow₀ (by linarith [Nat.cast_nonneg (α := ℝ) N])
  unfold tinyT
  generalize hG : ((N : ℝ) + 4) ^ 4 = G at *
  have a1 := fun e (he : e ≤ 4) => mul_le_mul_of_nonneg_right (f1 e he) e0.le
  have a2 : 0 ≤ G * (B * eta) := by positivity
  have a3 : eta ≤ G * eta := le_mul_of_one_le_left e0.le G1
  have a4 : ((i - j + 1 : ℕ) : ℝ) * eta ≤ G * eta := mul_le_mul_of_nonneg_right i1 e0.le
  have a5 := mul_le_mul_of_nonneg_right f2 e0.le
  have F2 : |2 * down rnd 2 i (j - 2) - 2 * downX 2 i (j - 2)| ≤ (gam (4 * N) - 1) * |2 * downX 2 i (j - 2)| := by
    rw [← mul_sub, abs_mul, abs_mul, abs_of_nonneg (by norm_num : (0 : ℝ) ≤ 2)]
    linarith [F 2 (by omega) (by omega)]
  have F3 : |down rnd 3 i (j - 2) * (1 / 2) - downX 3 i (j - 2) * (1 / 2)| ≤
      (gam (4 * N) - 1) * |downX 3 i (j - 2) * (1 / 2)| := by
    rw [← sub_mul, abs_mul, abs_mul, abs_of_nonneg (by norm_num : (0 : ℝ) ≤ 1 / 2)]
    linarith [F 3 (by omega) (by omega)]
  have F4 := F 4 (by omega) (by omega)
  have g2 : 0 ≤ 2 * downX 2 i (j - 2) := by linarith [f0 2]
  have g3 : 0 ≤ downX 3 i (j - 2) * (1 / 2) := by linarith [f0 3]
  have b2 := a1 2 (by omega)
  have b3 := a1 3 (by omega)
  have b4 := a1 4 (by omega)
  cases e with
  | xx =>
    simp only [m2, m2S, rq_id, id]
    refine ((Ev.scaleN (by norm_num : (0 : ℝ) ≤ 1 / 4) (((((((((ev_prod hr _ _ _).add (ev_prod hr _ _ _)).round hr).up
      (n := 4 * N + 4) (by omega)).add ((fpair' hr _ g2 F2 (ev_nprod hr _ _ _) (ev_prod hr _ _ _)).up
      (by omega))).round hr).up (n := 4 * N + 5) (by omega)).add
      ((fpair hr _ (f0 4) F4 (ev_prod hr _ _ _) (ev_prod hr _ _ _)).up (by omega))).round hr)).rq hr _).mono
      (by omega) ?_
    linarith
  | xy =>
    simp only [m2, m2S, rq_id, id]
    refine ((Ev.scaleN (by norm_num : (0 : ℝ) ≤ 1 / 4) ((((((ev_prod hr _ _ _).sub (ev_prod hr _ _ _)).round hr).up
      (n := 4 * N + 4) (by omega)).add ((fpair hr _ (f0 4) F4 (ev_nprod hr _ _ _) (ev_prod hr _ _ _)).up
      (by omega))).round hr)).rq hr _).mono (by omega) ?_
    linarith
  | xz =>
    simp only [m2, m2S, rq_id, id]
    refine ((((fpair hr _ i0 (self_rel _ (4 * N)) (ev_prod hr _ _ _) (ev_prod hr _ _ _))).add
      (fpair' hr _ g3 F3 (ev_nprod hr _ _ _) (ev_prod hr _ _ _))).round hr).mono (by omega) ?_
    linarith
  | yz =>
    simp only [m2, m2S, rq_id, id]
    refine ((((fpair' hr _ i0 (self_rel _ (4 * N)) (ev_prod hr _ _ _) (ev_prod hr _ _ _))).add
      (fpair' hr _ g3 F3 (ev_prod hr _ _ _) (ev_prod hr _ _ _))).round hr).mono (by omega) ?_
    linarith
  | zz =>
    simp only [m2, m2S, rq_id, id]
    refine (fpair hr _ (f0 2) (F 2 (by omega) (by omega)) (ev_prod hr _ _ _) (ev_prod hr _ _ _)).mono (by omega) ?_
    linarith

/-! ### The sums -/

theorem turns2_mem {N M : ℕ} {p : ℕ × ℕ} (h : p ∈ turns2 N M) : 2 ≤ p.2 ∧ p.2 ≤ p.1 ∧ p.1 ≤ N := by
  simp only [turns2, List.mem_filter, decide_eq_true_eq] at h
  have := turns_mem h.1
  omega

theorem turns2_length (N M : ℕ) : (turns2 N M).length ≤ (turns N M).length := List.length_filter_le _ _

/-- The formula for an entry, without the factor `GM / Re³`. -/
noncomputable def entX (degree order : ℕ) (d : In) (e : Ent) : ℝ :=
  ((List.range (degree + 1)).map (m0 id (fun _ _ _ => true) d upX e)).sum +
    ((List.range' 1 degree).map (m1 id (fun _ _ _ => true) d upX e)).sum +
    ((turns2 degree order).map (m2 id (fun _ _ _ => true) d downX e)).sum

/-- Sum of the sizes of the terms of an entry. -/
noncomputable def entS (degree order : ℕ) (d : In) (e : Ent) : ℝ :=
  ((List.range (degree + 1)).map (m0S d e)).sum + ((List.range' 1 degree).map (m1S d e)).sum +
    ((turns2 degree order).map (m2S d e)).sum

/-- Number of roundings. -/
def count (degree order : ℕ) : ℕ := 5 * degree + (turns2 degree order).length + 11

/-- What underflow may add to an entry. -/
noncomputable def tinyE (degree order : ℕ) (B : ℝ) : ℝ :=
  ((2 * degree + (turns2 degree order).length + 1 : ℕ) : ℝ) * (tinyT degree B + eta) + 2 * eta

theorem ent_error (hr : Nearest rnd) (fl : ℕ → ℕ → ℕ → Bool) {degree : ℕ} (order : ℕ) {B : ℝ} (d : In) (e : Ent)
    (hN : degree ≤ 400) (hV : ∀ i ≤ degree, ∀ m, |d.V (i + 2) m| ≤ B) (hW : ∀ i ≤ degree, ∀ m, |d.W (i + 2) m| ≤ B) :
    Ev (count degree order) (tinyE degree order B) (entD rnd fl degree order d e) (entX degree order d e)
      (entS degree order d e) := by
  have e0 := eta_pos (K := ℝ)
  have B0 : 0 ≤ B := (abs_nonneg _).trans (hV 0 (Nat.zero_le _) 0)
  have T0 : 0 ≤ tinyT degree B := by unfold tinyT; positivity
  have a := Ev.sum hr (t := m0 rnd fl d (up rnd) e) (t' := m0 id fl d upX e) (S := m0S d e)
    (l := List.range (degree + 1)) (fun k hk => by
      have hk : k ≤ degree := by simpa [Nat.lt_succ_iff] using hk
      exact m0_ev hr fl d e hk hN B0 (hV k hk) (hW k hk)) T0
  have b := Ev.sum hr (t := m1 rnd fl d (up rnd) e) (t' := m1 id fl d upX e) (S := m1S d e)
    (l := List.range' 1 degree) (fun k hk => by
      have hk := List.mem_range'_1.1 hk
      exact m1_ev hr fl d e hk.1 (by omega) hN B0 (hV k (by omega))) T0
  have c := Ev.sum hr (t := m2 rnd fl d (down rnd) e) (t' := m2 id fl d downX e) (S := m2S d e)
    (l := turns2 degree order) (fun k hk => by
      have hk := turns2_mem hk
      exact m2_ev hr fl d e hk.1 hk.2.1 hk.2.2 hN B0) T0
  have fa : m0 id fl d upX e = m0 id (fun _ _ _ => true) d upX e := by
    funext i; cases e <;> simp only [m0, rq_id]
  have fb : m1 id fl d upX e = m1 id (fun _ _ _ => true) d upX e := by
    funext i; cases e <;> simp only [m1, rq_id]
  have fc : m2 id fl d downX e = m2 id (fun _ _ _ => true) d downX e := by
    funext p; cases e <;> simp only [m2, rq_id]
  rw [fa, List.length_range] at a
  rw [fb, List.length_range'] at b
  rw [fc] at c
  have s1 := (((a.up (n := 4 * degree + 9 + degree + (turns2 degree order).length) (by omega)).add
    (b.up (n := 4 * degree + 9 + degree + (turns2 degree order).length) (by omega))).round hr)
  have s2 := ((s1.add (c.up (by omega))).round hr).mono (n := count degree order) (c' := tinyE degree order B)
    (by unfold count; omega) (by unfold tinyE; push_cast; linarith)
  have short : (e = .xz ∨ e = .yz) → Ev (count degree order) (tinyE degree order B)
      (rnd (sumD rnd (m0 rnd fl d (up rnd) e) (List.range (degree + 1)) +
        sumD rnd (m2 rnd fl d (down rnd) e) (turns2 degree order))) (entX degree order d e) (entS degree order d e) := by
    intro he
    have z1 : ((List.range' 1 degree).map (m1 id (fun _ _ _ => true) d upX e)).sum = 0 := by
      have : m1 id (fun _ _ _ => true) d upX e = fun _ => 0 := by
        funext i; rcases he with rfl | rfl <;> rfl
      rw [this]; simp
    have z2 : ((List.range' 1 degree).map (m1S d e)).sum = 0 := by
      have : m1S d e = fun _ => 0 := by
        funext i; rcases he with rfl | rfl <;> rfl
      rw [this]; simp
    have t := ((a.up (n := 4 * degree + 9 + degree + (turns2 degree order).length) (by omega)).add
      (c.up (by omega))).round hr
    unfold entX entS
    rw [z1, z2, add_zero, add_zero]
    refine t.mono (by unfold count; omega) ?_
    unfold tinyE
    push_cast
    have := mul_nonneg (Nat.cast_nonneg (α := ℝ) degree) (add_nonneg T0 e0.le)
    linarith
  cases e with
  | xz => exact short (Or.inl rfl)
  | yz => exact short (Or.inr rfl)
  | xx => exact s2
  | xy => exact s2
  | zz => exact s2

theorem factor3_rel (hr : Nearest rnd) {Re GM : ℝ} (bG : Big 100 GM) (R0 : Re ≠ 0) (R1 : |Re| ≤ 2 ^ 100) :
    |factorD rnd Re GM - GM / Re / Re / Re| ≤ (gam 6 - 1) * |GM / Re / Re / Re| := by
  have b1 := bG.div R1 R0
  have b2 := b1.div R1 R0
  have b3 := b2.div R1 R0
  have q1 := ((Rel.refl GM).div (Rel.refl Re)).rb hr (by omega) (b1.mono (by norm_num))
  have q2 := (q1.div (Rel.refl Re)).rb hr (by omega) (b2.mono (by norm_num))
  have q3 := (q2.div (Rel.refl Re)).rb hr (by omega) (b3.mono (by norm_num))
  exact rel_gam' (q3.mono (n := 3) (by omega)) (by omega) (by omega)

/-- **C180.**  Every entry of the lower triangle differs from the formula with the exact factorial ratios by as many
roundings of its terms as there are turns of the third loop, five times the degree and 18 more. -/
theorem part_error (hr : Nearest rnd) (fl : ℕ → ℕ → ℕ → Bool) {degree : ℕ} (order : ℕ) {Re GM B : ℝ} (d : In) (e : Ent)
    (hN : degree ≤ 400) (hV : ∀ i ≤ degree, ∀ m, |d.V (i + 2) m| ≤ B) (hW : ∀ i ≤ degree, ∀ m, |d.W (i + 2) m| ≤ B)
    (bG : Big 100 GM) (R0 : Re ≠ 0) (R1 : |Re| ≤ 2 ^ 100) :
    Ev (count degree order + 7) (|GM / Re / Re / Re| * tinyE degree order B + eta)
      (partD rnd fl degree order Re GM d e) (entX degree order d e * (GM / Re / Re / Re))
      (|GM / Re / Re / Re| * entS degree order d e) :=
  (((ent_error hr fl order d e hN hV hW).mulF (factor3_rel hr bG R0 R1)).round hr).up (by omega)

/-- **C180.**  So does the second diagonal entry, which is minus the sum of the two others: the trace vanishes up to the
roundings. -/
theorem yy_error (hr : Nearest rnd) (fl : ℕ → ℕ → ℕ → Bool) {degree : ℕ} (order : ℕ) {Re GM B : ℝ} (d : In)
    (hN : degree ≤ 400) (hV : ∀ i ≤ degree, ∀ m, |d.V (i + 2) m| ≤ B) (hW : ∀ i ≤ degree, ∀ m, |d.W (i + 2) m| ≤ B)
    (bG : Big 100 GM) (R0 : Re ≠ 0) (R1 : |Re| ≤ 2 ^ 100) :
    Ev (count degree order + 8)
      (|GM / Re / Re / Re| * (tinyE degree order B + tinyE degree order B + eta) + eta)
      (yyD rnd fl degree order Re GM d) (-(entX degree order d .xx + entX degree order d .zz) * (GM / Re / Re / Re))
      (|GM / Re / Re / Re| * (entS degree order d .xx + entS degree order d .zz)) :=
  (((((ent_error hr fl order d .xx hN hV hW).add (ent_error hr fl order d .zz hN hV hW)).round hr).neg.mulF
    (factor3_rel hr bG R0 R1)).round hr).up (by omega)

theorem count_le {degree order : ℕ} (h : degree ≤ 120) : count degree order ≤ 7871 := by
  have t := turns_length degree order
  have t2 := turns2_length degree order
  have : degree * (degree + 1) ≤ 120 * 121 := Nat.mul_le_mul h (by omega)
  unfold count
  omega

theorem Ev120 {n : ℕ} {c v y s : ℝ} (h : Ev n c v y s) (hn : n ≤ 7890) : |v - y| ≤ 2 / 10 ^ 12 * s + 2 * c := by
  have k0 : (n : ℝ) ≤ 7890 := by exact_mod_cast hn
  have ku : (n : ℝ) * u ≤ 7890 * (1 / 2 ^ 53) := mul_le_mul k0 u_le u_pos.le (by norm_num)
  have g := gam_le (n := n) (ku.trans (by norm_num))
  have g1 : (gam n : ℝ) ≤ 1 + 2 / 10 ^ 12 := by
    norm_num at ku ⊢
    linarith
  refine h.hv.trans ?_
  have h1 := mul_le_mul_of_nonneg_right (by linarith : (gam n : ℝ) - 1 ≤ 2 / 10 ^ 12) h.s0
  have h2 := mul_le_mul_of_nonneg_left (g1.trans (by norm_num : (1 : ℝ) + 2 / 10 ^ 12 ≤ 2)) h.hc
  linarith

/-- **C180.**  Up to degree and order 120 the error is 2e-12 of the sizes of the terms. -/
theorem part_error_120 (hr : Nearest rnd) (fl : ℕ → ℕ → ℕ → Bool) {degree : ℕ} (order : ℕ) {Re GM B : ℝ} (d : In)
    (e : Ent) (hN : degree ≤ 120) (hV : ∀ i ≤ degree, ∀ m, |d.V (i + 2) m| ≤ B)
    (hW : ∀ i ≤ degree, ∀ m, |d.W (i + 2) m| ≤ B) (bG : Big 100 GM) (R0 : Re ≠ 0) (R1 : |Re| ≤ 2 ^ 100) :
    |partD rnd fl degree order Re GM d e - entX degree order d e * (GM / Re / Re / Re)| ≤
      2 / 10 ^ 12 * (|GM / Re / Re / Re| * entS degree order d e) +
        2 * (|GM / Re / Re / Re| * tinyE degree order B + eta) := by
  have := count_le (order := order) hN
  exact Ev120 (part_error hr fl order d e (by omega) hV hW bG R0 R1) (by omega)

/-! ### The exact value -/

open Verif.Gravity in
/-- An entry of the sums of Verif/Gravity/Sums.lean. -/
def get (e : Ent) (p : Par ℝ) : ℝ :=
  match e with
  | .xx => p.xx
  | .xy => p.xy
  | .xz => p.xz
  | .yz => p.yz
  | .zz => p.zz

theorem get_add (e : Ent) (p q : Verif.Gravity.Par ℝ) : get e (p.add q) = get e p + get e q := by
  cases e <;> rfl

theorem get_psum (e : Ent) (t : ℕ → Verif.Gravity.Par ℝ) (n : ℕ) :
    get e (Verif.Gravity.psum t n) = ((List.range n).map fun k => get e (t k)).sum := by
  induction n with
  | zero => cases e <;> rfl
  | succ n ih => rw [Verif.Gravity.psum, get_add, ih, List.range_succ]; simp

theorem turns2_sum (g : ℕ × ℕ → ℝ) (N M : ℕ) : ((turns2 N M).map g).sum =
    ((List.range N).map fun r => ((List.range (min (r + 1) M - 1)).map fun j => g (r + 1, j + 2)).sum).sum := by
  have row : ∀ i k : ℕ, ((List.range' 1 k).map fun j => (i, j)).filter (fun p => decide (1 < p.2)) =
      (List.range (k - 1)).map fun j => (i, j + 2) := by
    intro i k
    rcases k with _ | k
    · rfl
    · rw [List.range'_succ, List.map_cons, List.filter_cons_of_neg (by simp), List.filter_eq_self.2, Nat.add_sub_cancel,
        List.range'_eq_map_range, List.map_map]
      · refine List.map_congr_left fun j _ => ?_
        simp only [Function.comp_apply, Prod.mk.injEq, true_and]
        omega
      · intro p hp
        simp only [List.mem_map, List.mem_range'_1] at hp
        obtain ⟨j, hj, rfl⟩ := hp
        simp only [decide_eq_true_eq]
        omega
  unfold turns2 turns
  rw [List.filter_flatMap, List.range'_eq_map_range, List.flatMap_map]
  simp only [row]
  generalize List.range N = l
  induction l with
  | nil => rfl
  | cons r l ih =>
    rw [List.flatMap_cons, List.map_append, List.sum_append, ih, List.map_cons, List.sum_cons, List.map_map, Nat.add_comm 1 r]
    rfl

theorem downX_cast {i k : ℕ} (h : k + 2 ≤ i) :
    downX 2 i k = ((i : ℝ) - (k + 2 : ℕ) + 1) * ((i : ℝ) - (k + 2 : ℕ) + 2) ∧
    downX 3 i k = ((i : ℝ) - (k + 2 : ℕ) + 1) * ((i : ℝ) - (k + 2 : ℕ) + 2) * ((i : ℝ) - (k + 2 : ℕ) + 3) ∧
    downX 4 i k = ((i : ℝ) - (k + 2 : ℕ) + 1) * ((i : ℝ) - (k + 2 : ℕ) + 2) * ((i : ℝ) - (k + 2 : ℕ) + 3) *
      ((i : ℝ) - (k + 2 : ℕ) + 4) := by
  rw [← Nat.cast_sub h]
  unfold downX
  generalize i - (k + 2) = d
  simp only [Nat.ascFactorial_succ, Nat.ascFactorial_zero]
  push_cast
  refine ⟨by ring, by ring, by ring⟩

/-- **C180.**  The formula is the sum that the function returns in exact arithmetic (C54). -/
theorem ent_exact (degree order : ℕ) (d : In) (e : Ent) :
    entX degree order d e = get e (Verif.Gravity.parTotal d.C d.S d.V d.W degree order) := by
  unfold entX Verif.Gravity.parTotal
  rw [get_add, get_add, get_psum, get_psum, get_psum, turns2_sum, List.range'_eq_map_range, List.map_map]
  congr 1
  · congr 1
    · refine congrArg List.sum (List.map_congr_left fun i _ => ?_)
      cases e <;> simp [m0, rq, get, Verif.Gravity.p0, upX]
    · refine congrArg List.sum (List.map_congr_left fun i _ => ?_)
      cases e <;> simp [m1, rq, get, Verif.Gravity.p1, upX, Nat.add_comm 1 i, add_assoc, one_add_one_eq_two]
  · refine congrArg List.sum (List.map_congr_left fun r _ => ?_)
    rw [Verif.Gravity.rowSum, get_psum]
    refine congrArg List.sum (List.map_congr_left fun j hj => ?_)
    have hj := List.mem_range.1 hj
    have h : j + 2 ≤ r + 1 := by omega
    obtain ⟨h2, h3, h4⟩ := downX_cast h
    have hc : ((r + 1 - (j + 2) : ℕ) : ℝ) = ((r + 1 : ℕ) : ℝ) - ((j + 2 : ℕ) : ℝ) := Nat.cast_sub h
    cases e <;>
      simp only [m2, rq, if_true, id, get, Verif.Gravity.p2, Nat.add_sub_cancel, h2, h3, h4, Nat.cast_add, Nat.cast_one, hc]

/-- Where the entries are in the matrix (src/gravity/gravity_acceleration.cpp:204-214). -/
def place : Ent → ℕ × ℕ
  | .xx => (0, 0)
  | .xy => (1, 0)
  | .xz => (2, 0)
  | .yz => (2, 1)
  | .zz => (2, 2)

/-- **C180.**  Up to degree 120, computed with doubles the lower triangle and the diagonal are within 2e-12 of the sizes
of the terms of the matrix that the function returns in exact arithmetic. -/
theorem matrix_error (hr : Nearest rnd) (fl : ℕ → ℕ → ℕ → Bool) {degree order : ℕ} {Re GM B : ℝ} (d : In)
    (V W : Verif.Mat2D.Mat ℝ) (inp : Verif.Gravity.Mat33 ℝ) (ho : 1 ≤ order) (hN : degree ≤ 120)
    (rV : Verif.Gravity.Reads (degree + 2) (order + 2) d.V V) (rW : Verif.Gravity.Reads (degree + 2) (order + 2) d.W W)
    (hV : ∀ i ≤ degree, ∀ m, |d.V (i + 2) m| ≤ B) (hW : ∀ i ≤ degree, ∀ m, |d.W (i + 2) m| ≤ B)
    (bG : Big 100 GM) (R0 : Re ≠ 0) (R1 : |Re| ≤ 2 ^ 100) :
    ∃ acc out, Verif.Gravity.accelPartials degree order Re GM V W d.C d.S inp = some (acc, out) ∧
      (∀ e, |partD rnd fl degree order Re GM d e - out (place e).1 (place e).2| ≤
        2 / 10 ^ 12 * (|GM / Re / Re / Re| * entS degree order d e) +
          2 * (|GM / Re / Re / Re| * tinyE degree order B + eta)) ∧
      |yyD rnd fl degree order Re GM d - out 1 1| ≤
        2 / 10 ^ 12 * (|GM / Re / Re / Re| * (entS degree order d .xx + entS degree order d .zz)) +
          2 * (|GM / Re / Re / Re| * (tinyE degree order B + tinyE degree order B + eta) + eta) := by
  refine ⟨_, _, Verif.Gravity.accelPartials_eq degree order ho Re GM V W d.C d.S d.V d.W inp rV rW, fun e => ?_, ?_⟩
  · have h := part_error_120 hr fl order d e hN hV hW bG R0 R1
    rw [ent_exact] at h
    cases e <;> exact h
  · have c := count_le (order := order) hN
    have h := Ev120 (yy_error hr fl order d (by omega) hV hW bG R0 R1) (by omega)
    rw [ent_exact, ent_exact] at h
    exact h

/-- **C180.**  A point mass: with the only coefficient `C(0,0) = 1`, degree 0 and the work arrays of a point on the x
axis at the distance `Re`, the diagonal is `2, -1, -1` times the computed `GM/Re³`, exactly but for the last rounding. -/
theorem part_point (hr : Nearest rnd) (fl : ℕ → ℕ → ℕ → Bool) (Re GM : ℝ) (d : In) (h0 : d.C 0 0 = 1)
    (h1 : d.V 2 2 = 3) (h2 : d.V 2 0 = -1 / 2) :
    partD rnd fl 0 0 Re GM d .xx = rnd (2 * factorD rnd Re GM) ∧
    yyD rnd fl 0 0 Re GM d = rnd (-1 * factorD rnd Re GM) ∧
    partD rnd fl 0 0 Re GM d .zz = rnd (-1 * factorD rnd Re GM) := by
  have dd : ∀ n : ℤ, |n| ≤ 2 ^ 53 → IsDouble (n : ℝ) := fun n h => isDouble_int (K := ℝ) n h
  have r1 : rnd 1 = 1 := hr.exact (by simpa using dd 1 (by norm_num))
  have rm : rnd (-1) = -1 := hr.exact (by simpa using dd (-1) (by norm_num))
  have r2 : rnd 2 = 2 := hr.exact (by simpa using dd 2 (by norm_num))
  have r3 : rnd 3 = 3 := hr.exact (by simpa using dd 3 (by norm_num))
  have r4 : rnd 4 = 4 := hr.exact (by simpa using dd 4 (by norm_num))
  have rh : rnd (-1 / 2) = -1 / 2 := hr.exact ⟨-1, -1, by norm_num, by norm_num, by norm_num [zpow_neg]⟩
  have q : ∀ (b : Bool) {x : ℝ}, rnd x = x → rq rnd b x = x := by
    intro b x h; unfold rq; split_ifs; rfl; exact h
  have xx : entD rnd fl 0 0 d .xx = 2 := by
    have a : m0 rnd fl d (up rnd) .xx 0 = 2 := by
      simp only [m0, up, h0, h1, h2, zero_add, one_mul, rh]
      rw [q _ r3, show (2 : ℝ) * (-1 / 2) = -1 by norm_num, q _ rm, show (3 : ℝ) - -1 = 4 by norm_num, r4,
        show (1 / 2 : ℝ) * 4 = 2 by norm_num, q _ r2]
    simp [entD, sumD, turns2, turns, a, r2]
  have zz : entD rnd fl 0 0 d .zz = -1 := by
    have a : m0 rnd fl d (up rnd) .zz 0 = -1 := by
      simp only [m0, h0, h2, zero_add, one_mul, rh]
      rw [show ((2 : ℕ) : ℝ) * (-1 / 2) = -1 by norm_num, q _ rm]
    simp [entD, sumD, turns2, turns, a, rm]
  refine ⟨by rw [partD, xx], ?_, by rw [partD, zz]⟩
  rw [yyD, xx, zz, show (2 : ℝ) + -1 = 1 by norm_num, r1]

/-- The Earth without harmonics of degree above 2: the hypotheses hold. -/
example (hr : Nearest rnd) (fl : ℕ → ℕ → ℕ → Bool) (d : In) (e : Ent) (hV : ∀ i j, |d.V i j| ≤ 9)
    (hW : ∀ i j, |d.W i j| ≤ 9) :
    |partD rnd fl 2 2 6378137 398600441500000 d e -
      entX 2 2 d e * (398600441500000 / 6378137 / 6378137 / 6378137)| ≤
      2 / 10 ^ 12 * (|(398600441500000 : ℝ) / 6378137 / 6378137 / 6378137| * entS 2 2 d e) +
        2 * (|(398600441500000 : ℝ) / 6378137 / 6378137 / 6378137| * tinyE 2 2 9 + eta) :=
  part_error_120 hr fl 2 d e (by norm_num) (fun _ _ _ => hV _ _) (fun _ _ _ => hW _ _)
    (Or.inr (by rw [abs_of_nonneg (by norm_num)]; exact (pow_le_one₀ (by norm_num) (by norm_num)).trans (by norm_num)))
    (by norm_num) (by rw [abs_of_pos (by norm_num)]; norm_num)

end Verif.Float.Hess
