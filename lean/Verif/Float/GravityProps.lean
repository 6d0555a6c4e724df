import Verif.Float.GravityModel
import Verif.Float.ForceProps
import Verif.Gravity.Model

/-
C176: acceleration by the gravity field in double arithmetic.
-/
namespace Verif.Float.Gravity

variable {rnd : ℝ → ℝ}

/-! ### Values with a bound of their terms -/

/-- `v` is `y` up to `n` roundings of terms with sizes adding up to `s`, and `c` near zero. -/
structure Ev (n : ℕ) (c v y s : ℝ) : Prop where
  hy : |y| ≤ s
  hc : 0 ≤ c
  hv : |v - y| ≤ (gam n - 1) * s + c * gam n

theorem Ev.s0 {n : ℕ} {c v y s : ℝ} (h : Ev n c v y s) : 0 ≤ s := (abs_nonneg _).trans h.hy

theorem Ev.leaf (y : ℝ) : Ev 0 0 y y |y| := ⟨le_rfl, le_rfl, by simp⟩

theorem Ev.mono {m n : ℕ} {c c' v y s : ℝ} (h : Ev m c v y s) (hn : m ≤ n) (hc : c ≤ c') : Ev n c' v y s := by
  have g : (gam m : ℝ) ≤ gam n := gam_mono hn
  have g1 := gam_one_le (K := ℝ) m
  refine ⟨h.hy, h.hc.trans hc, h.hv.trans ?_⟩
  have a := mul_le_mul_of_nonneg_right (sub_le_sub_right g 1) h.s0
  have b : c * gam m ≤ c' * gam n := mul_le_mul hc g (by linarith) (h.hc.trans hc)
  linarith

theorem Ev.round (hr : Nearest rnd) {n : ℕ} {c v y s : ℝ} (h : Ev n c v y s) : Ev (n + 1) (c + eta) (rnd v) y s :=
  ⟨h.hy, add_nonneg h.hc eta_pos.le, round_step hr h.hc h.hy h.hv rfl⟩

theorem Ev.rq (hr : Nearest rnd) (b : Bool) {n : ℕ} {c v y s : ℝ} (h : Ev n c v y s) :
    Ev (n + 1) (c + eta) (rq rnd b v) y s := by
  unfold Gravity.rq
  split_ifs
  · exact h.mono (Nat.le_succ n) (by linarith [eta_pos (K := ℝ)])
  · exact h.round hr

theorem Ev.add {n : ℕ} {c c' v v' y y' s s' : ℝ} (h : Ev n c v y s) (h' : Ev n c' v' y' s') :
    Ev n (c + c') (v + v') (y + y') (s + s') := by
  refine ⟨(abs_add_le _ _).trans (add_le_add h.hy h'.hy), add_nonneg h.hc h'.hc, ?_⟩
  have := abs_add_le (v - y) (v' - y')
  rw [show v - y + (v' - y') = v + v' - (y + y') by ring] at this
  linarith [h.hv, h'.hv]

theorem Ev.neg {n : ℕ} {c v y s : ℝ} (h : Ev n c v y s) : Ev n c (-v) (-y) s :=
  ⟨by rw [abs_neg]; exact h.hy, h.hc, by rw [← neg_sub', abs_neg]; exact h.hv⟩

theorem Ev.sub {n : ℕ} {c c' v v' y y' s s' : ℝ} (h : Ev n c v y s) (h' : Ev n c' v' y' s') :
    Ev n (c + c') (v - v') (y - y') (s + s') := by
  rw [sub_eq_add_neg, sub_eq_add_neg]; exact h.add h'.neg

theorem Ev.scale (k : ℝ) {n : ℕ} {c v y s : ℝ} (h : Ev n c v y s) : Ev n (|k| * c) (k * v) (k * y) (|k| * s) := by
  refine ⟨?_, mul_nonneg (abs_nonneg k) h.hc, ?_⟩
  · rw [abs_mul]; exact mul_le_mul_of_nonneg_left h.hy (abs_nonneg k)
  · rw [← mul_sub, abs_mul]
    have := mul_le_mul_of_nonneg_left h.hv (abs_nonneg k)
    linarith

/-- A sum of any number of terms. -/
theorem Ev.sum {α : Type} (hr : Nearest rnd) {m : ℕ} {c : ℝ} {t t' S : α → ℝ} {l : List α}
    (h : ∀ k ∈ l, Ev m c (t k) (t' k) (S k)) (hc : 0 ≤ c) :
    Ev (m + l.length) (l.length * (c + eta)) (sumD rnd t l) (l.map t').sum (l.map S).sum := by
  have key : ∀ (l : List α) (n : ℕ) (b v y s : ℝ), (∀ k ∈ l, Ev m c (t k) (t' k) (S k)) → m ≤ n → Ev n b v y s →
      Ev (n + l.length) (b + l.length * (c + eta)) (l.foldl (fun s k => rnd (s + t k)) v) (y + (l.map t').sum)
        (s + (l.map S).sum) := by
    intro l
    induction l with
    | nil => intro n b v y s _ _ h; simpa using h
    | cons k l ih =>
      intro n b v y s hl hn hv
      have e := (hv.add ((hl k (by simp)).mono hn le_rfl)).round hr
      have := ih (n + 1) _ _ _ _ (fun k' hk => hl k' (by simp [hk])) (by omega) e
      simp only [List.foldl_cons, List.map_cons, List.sum_cons, List.length_cons]
      convert this using 1
      · omega
      · push_cast; ring
      · ring
      · ring
  have z : Ev m 0 0 0 0 := by simpa using (Ev.leaf 0).mono (Nat.zero_le m) le_rfl
  simpa [sumD] using key l m 0 0 0 0 h le_rfl z

/-! ### The terms -/

/-- Sizes of the terms of the first loop. -/
def zonS (d : In) (a : Ax) (i : ℕ) : ℝ :=
  match a with
  | .x => |d.C i 0 * d.V (i + 1) 1|
  | .y => |d.C i 0 * d.W (i + 1) 1|
  | .z => (i + 1) * |d.C i 0 * d.V (i + 1) 0|

/-- Sizes of the terms of the second loop. -/
noncomputable def tesS (d : In) (a : Ax) (p : ℕ × ℕ) : ℝ :=
  let i := p.1
  let j := p.2
  match a with
  | .x => 1 / 2 * (|d.C i j * d.V (i + 1) (j + 1)| + |d.S i j * d.W (i + 1) (j + 1)|) +
      fac i j * (|d.C i j * d.V (i + 1) (j - 1)| + |d.S i j * d.W (i + 1) (j - 1)|)
  | .y => 1 / 2 * (|d.C i j * d.W (i + 1) (j + 1)| + |d.S i j * d.V (i + 1) (j + 1)|) +
      fac i j * (|d.C i j * d.W (i + 1) (j - 1)| + |d.S i j * d.V (i + 1) (j - 1)|)
  | .z => ((i - j + 1 : ℕ) : ℝ) * (|d.C i j * d.V (i + 1) j| + |d.S i j * d.W (i + 1) j|)

theorem rq_id (b : Bool) (x : ℝ) : rq id b x = x := by unfold rq; split_ifs <;> rfl

theorem ev_prod (hr : Nearest rnd) (b : Bool) (x y : ℝ) : Ev 1 eta (rq rnd b (x * y)) (x * y) |x * y| := by
  simpa using (Ev.leaf (x * y)).rq hr b

theorem ev_nprod (hr : Nearest rnd) (b : Bool) (x y : ℝ) : Ev 1 eta (rq rnd b (-x * y)) (-x * y) |x * y| := by
  have := ev_prod hr b (-x) y
  rwa [neg_mul, abs_neg, ← neg_mul] at this

theorem fac_nonneg (i j : ℕ) : 0 ≤ fac i j := by unfold fac; positivity

theorem fac_le {i j N : ℕ} (h : i ≤ N) : fac i j ≤ ((N : ℝ) + 2) ^ 2 / 2 := by
  unfold fac
  have : (i - j + 1) * (i - j + 2) ≤ (N + 2) * (N + 2) := Nat.mul_le_mul (by omega) (by omega)
  have : (((i - j + 1) * (i - j + 2) : ℕ) : ℝ) ≤ ((N : ℝ) + 2) * (N + 2) := by exact_mod_cast this
  linarith [sq ((N : ℝ) + 2)]

theorem zon_ev (hr : Nearest rnd) (fl : ℕ → ℕ → ℕ → Bool) (d : In) (a : Ax) {i : ℕ} {B : ℝ} (hV : |d.V (i + 1) 0| ≤ B) :
    Ev 2 ((B + 1) * eta) (zon rnd fl d a i) (zon id fl d a i) (zonS d a i) := by
  have e0 := eta_pos (K := ℝ)
  have B0 := (abs_nonneg _).trans hV
  cases a with
  | x =>
    simp only [zon, zonS, rq_id]
    exact (ev_nprod hr _ _ _).mono (by omega) (by nlinarith)
  | y =>
    simp only [zon, zonS, rq_id]
    exact (ev_nprod hr _ _ _).mono (by omega) (by nlinarith)
  | z =>
    simp only [zon, zonS, rq_id, id]
    have e := (((Ev.leaf (-((i + 1 : ℕ) : ℝ) * d.C i 0)).round hr).scale (d.V (i + 1) 0)).rq hr (fl i 0 2)
    rw [mul_comm (d.V (i + 1) 0), mul_comm (d.V (i + 1) 0) (-_ * _)] at e
    have s : |d.V (i + 1) 0| * |-((i + 1 : ℕ) : ℝ) * d.C i 0| = (i + 1) * |d.C i 0 * d.V (i + 1) 0| := by
      rw [abs_mul, abs_neg, Nat.abs_cast, abs_mul]; push_cast; ring
    rw [s] at e
    refine e.mono (by omega) ?_
    rw [zero_add]
    nlinarith

/-- A factor times a sum of two products. -/
theorem pair_ev (hr : Nearest rnd) (b : Bool) {p q p' q' s t g k : ℝ} (hk : 0 ≤ k) (hg : k ≤ g)
    (h : Ev 1 eta p p' s) (h' : Ev 1 eta q q' t) :
    Ev 3 ((3 * g + 1) * eta) (rq rnd b (k * rnd (p + q))) (k * (p' + q')) (k * (s + t)) := by
  have e := (((h.add h').round hr).scale k).rq hr b
  rw [abs_of_nonneg hk] at e
  refine e.mono (by omega) ?_
  have := eta_pos (K := ℝ)
  nlinarith

theorem pair_ev' (hr : Nearest rnd) (b : Bool) {p q p' q' s t g k : ℝ} (hk : 0 ≤ k) (hg : k ≤ g)
    (h : Ev 1 eta p p' s) (h' : Ev 1 eta q q' t) :
    Ev 3 ((3 * g + 1) * eta) (rq rnd b (k * rnd (p - q))) (k * (p' - q')) (k * (s + t)) := by
  rw [sub_eq_add_neg, sub_eq_add_neg]
  exact pair_ev hr b hk hg h h'.neg

theorem tes_ev (hr : Nearest rnd) (fl : ℕ → ℕ → ℕ → Bool) (d : In) (a : Ax) {p : ℕ × ℕ} {N : ℕ} (hp : p.1 ≤ N) :
    Ev 4 ((3 * ((N : ℝ) + 2) ^ 2 + 5) * eta) (tes rnd fl d a p) (tes id fl d a p) (tesS d a p) := by
  obtain ⟨i, j⟩ := p
  have e0 := eta_pos (K := ℝ)
  have f0 := fac_nonneg i j
  have f1 := fac_le (j := j) hp
  have N0 : (0 : ℝ) ≤ N := Nat.cast_nonneg N
  generalize hG : ((N : ℝ) + 2) ^ 2 = G at *
  have G4 : 4 ≤ G := by nlinarith
  cases a with
  | x =>
    simp only [tes, tesS, rq_id, id]
    refine (((pair_ev' hr _ (by norm_num) (le_refl (1 / 2 : ℝ)) (ev_nprod hr _ _ _) (ev_prod hr _ _ _)).add
      (pair_ev hr _ f0 f1 (ev_prod hr _ _ _) (ev_prod hr _ _ _))).round hr).mono (by omega) ?_
    nlinarith
  | y =>
    simp only [tes, tesS, rq_id, id]
    refine (((pair_ev hr _ (by norm_num) (le_refl (1 / 2 : ℝ)) (ev_nprod hr _ _ _) (ev_prod hr _ _ _)).add
      (pair_ev hr _ f0 f1 (ev_nprod hr _ _ _) (ev_prod hr _ _ _))).round hr).mono (by omega) ?_
    nlinarith
  | z =>
    simp only [tes, tesS, rq_id, id]
    have k : (((i - j + 1 : ℕ)) : ℝ) ≤ (N : ℝ) + 2 := by
      have : i - j + 1 ≤ N + 2 := by simp only at hp; omega
      exact_mod_cast this
    refine (pair_ev' hr _ (Nat.cast_nonneg _) k (ev_nprod hr _ _ _) (ev_prod hr _ _ _)).mono (by omega) ?_
    have : (N : ℝ) + 2 ≤ G := by nlinarith
    nlinarith

/-! ### The sums -/

theorem turns_mem {N M : ℕ} {p : ℕ × ℕ} (h : p ∈ turns N M) : 1 ≤ p.2 ∧ p.2 ≤ p.1 ∧ p.1 ≤ N ∧ p.2 ≤ M := by
  simp only [turns, List.mem_flatMap, List.mem_map, List.mem_range'_1] at h
  obtain ⟨i, hi, j, hj, rfl⟩ := h
  simp only
  omega

/-- Number of turns: at most as many as there are orders for every degree. -/
theorem turns_length (N M : ℕ) : 2 * (turns N M).length ≤ N * (N + 1) := by
  have key : ∀ (l : List ℕ), (l.flatMap fun i => (List.range' 1 (min i M)).map fun j => (i, j)).length ≤ l.sum := by
    intro l
    induction l with
    | nil => simp
    | cons i l ih =>
      simp only [List.flatMap_cons, List.length_append, List.length_map, List.length_range', List.sum_cons]
      omega
  have s : ∀ n, 2 * (List.range' 1 n).sum = n * (n + 1) := by
    intro n
    induction n with
    | zero => rfl
    | succ n ih =>
      rw [List.range'_1_concat, List.sum_append, Nat.mul_add, ih]
      simp; ring
  have := key (List.range' 1 N)
  rw [← s N]
  exact Nat.mul_le_mul_left 2 this

/-- A factor with a relative error. -/
theorem Ev.mulF {n m : ℕ} {c v y s F f : ℝ} (h : Ev n c v y s) (hF : |F - f| ≤ (gam m - 1) * |f|) :
    Ev (n + m) (|f| * c) (v * F) (y * f) (|f| * s) := by
  have f0 := abs_nonneg f
  have s0 := h.s0
  have g1 := gam_one_le (K := ℝ) n
  have g2 := gam_one_le (K := ℝ) m
  have Fa : |F| ≤ gam m * |f| := by
    have := abs_add_le (F - f) f
    rw [sub_add_cancel] at this
    linarith
  refine ⟨?_, mul_nonneg f0 h.hc, ?_⟩
  · rw [abs_mul, mul_comm]; exact mul_le_mul_of_nonneg_left h.hy f0
  have e : v * F - y * f = (v - y) * F + y * (F - f) := by ring
  rw [e]
  refine (abs_add_le _ _).trans ?_
  rw [abs_mul, abs_mul]
  have h1 := mul_le_mul h.hv Fa (abs_nonneg _) ((abs_nonneg _).trans h.hv)
  have h2 := mul_le_mul h.hy hF (abs_nonneg _) s0
  rw [show (gam (n + m) : ℝ) = gam n * gam m from pow_add _ _ _]
  linarith

theorem gam_ge (m : ℕ) : 1 + m * u ≤ (gam m : ℝ) := one_add_mul_le_pow (by linarith [u_pos]) m

theorem factor_rel (hr : Nearest rnd) {Re GM : ℝ} (bG : Big 100 GM) (bR : Big 100 Re) (R0 : Re ≠ 0)
    (R1 : |Re| ≤ 2 ^ 100) : |rnd (GM / rnd (Re * Re)) - GM / (Re * Re)| ≤ (gam 4 - 1) * |GM / (Re * Re)| := by
  have q := ((Rel.refl Re).mul (Rel.refl Re)).rb hr (by omega) ((bR.mul bR).mono (by norm_num))
  have c1 : |Re * Re| ≤ 2 ^ 200 := by
    rw [abs_mul, show (2 : ℝ) ^ 200 = 2 ^ 100 * 2 ^ 100 by rw [← pow_add]]
    exact mul_le_mul R1 R1 (abs_nonneg _) (by positivity)
  have r := ((Rel.refl GM).div q).rb hr (by omega) ((bG.div c1 (mul_ne_zero R0 R0)).mono (by norm_num))
  have := (r.mono (n := 2) (by omega)).err ((mul_u_le (by norm_num)).trans (by norm_num))
  refine this.trans (mul_le_mul_of_nonneg_right ?_ (abs_nonneg _))
  have := gam_ge 4
  norm_num at this ⊢
  linarith

/-- Sum of the sizes of all terms of a component. -/
noncomputable def size (degree order : ℕ) (d : In) (a : Ax) : ℝ :=
  ((List.range (degree + 1)).map (zonS d a)).sum + ((turns degree order).map (tesS d a)).sum

/-- Bound of what underflow may add. -/
noncomputable def tiny (degree order : ℕ) (B : ℝ) : ℝ :=
  ((degree + 1 : ℕ) : ℝ) * ((B + 1) * eta + eta) +
    ((turns degree order).length : ℝ) * ((3 * ((degree : ℝ) + 2) ^ 2 + 5) * eta + eta) + eta

/-- Exact sum of the terms of a component. -/
noncomputable def total (degree order : ℕ) (d : In) (a : Ax) : ℝ :=
  ((List.range (degree + 1)).map (zon id (fun _ _ _ => true) d a)).sum +
    ((turns degree order).map (tes id (fun _ _ _ => true) d a)).sum

/-- **C176.**  Every component of the acceleration differs from the formula by as many roundings of its terms as there
are turns of the loops, and ten more; which products the compiler fuses does not matter. -/
theorem accel_error (hr : Nearest rnd) (fl : ℕ → ℕ → ℕ → Bool) (degree order : ℕ) {Re GM B : ℝ} (d : In) (a : Ax)
    (bG : Big 100 GM) (bR : Big 100 Re) (R0 : Re ≠ 0) (R1 : |Re| ≤ 2 ^ 100)
    (hB : ∀ i ≤ degree, |d.V (i + 1) 0| ≤ B) :
    Ev (degree + (turns degree order).length + 10) (|GM / (Re * Re)| * tiny degree order B + eta)
      (accelD rnd fl degree order Re GM d a) (total degree order d a * (GM / (Re * Re)))
      (|GM / (Re * Re)| * size degree order d a) := by
  have e0 := eta_pos (K := ℝ)
  have B0 : 0 ≤ B := (abs_nonneg _).trans (hB 0 (Nat.zero_le _))
  have z := Ev.sum hr (t := zon rnd fl d a) (t' := zon id fl d a) (S := zonS d a) (l := List.range (degree + 1))
    (fun k hk => zon_ev hr fl d a (hB k (by simpa [Nat.lt_succ_iff] using hk))) (by positivity)
  have t := Ev.sum hr (t := tes rnd fl d a) (t' := tes id fl d a) (S := tesS d a) (l := turns degree order)
    (fun k hk => tes_ev hr fl d a (turns_mem hk).2.2.1) (by positivity)
  have fz : zon id fl d a = zon id (fun _ _ _ => true) d a := by
    funext i; cases a <;> simp only [zon, rq_id]
  have ft : tes id fl d a = tes id (fun _ _ _ => true) d a := by
    funext p; cases a <;> simp only [tes, rq_id]
  rw [fz] at z
  rw [ft] at t
  rw [List.length_range] at z
  have s := ((z.mono (n := degree + (turns degree order).length + 4) (by omega) le_rfl).add
    (t.mono (n := degree + (turns degree order).length + 4) (by omega) le_rfl)).round hr
  exact ((s.mulF (factor_rel hr bG bR R0 R1)).round hr).mono (by omega) le_rfl

theorem gam_le {n : ℕ} (hn : (n : ℝ) * u ≤ 1 / 2) : (gam n : ℝ) ≤ 1 + 2 * (n * u) := by
  have b : 1 - (n : ℝ) * u ≤ (1 - u) ^ n := by
    have := one_add_mul_le_pow (a := -u) (by linarith [u_lt_one]) n
    simp only [mul_neg, ← sub_eq_add_neg] at this
    exact this
  have m : (gam n : ℝ) * (1 - u) ^ n ≤ 1 := by
    change (1 + u) ^ n * (1 - u) ^ n ≤ 1
    rw [← mul_pow]
    exact pow_le_one₀ (by nlinarith [u_pos, u_lt_one]) (by nlinarith [u_pos])
  have g := gam_one_le (K := ℝ) n
  have k0 : 0 ≤ (n : ℝ) * u := mul_nonneg (Nat.cast_nonneg n) u_pos.le
  generalize (gam n : ℝ) = G at *
  generalize (n : ℝ) * u = k at *
  have h : G * (1 - k) ≤ 1 := (mul_le_mul_of_nonneg_left b (by linarith)).trans m
  nlinarith

/-- **C176.**  Up to degree and order 120 the error is 2e-12 of the sizes of the terms. -/
theorem accel_error_120 (hr : Nearest rnd) (fl : ℕ → ℕ → ℕ → Bool) {degree : ℕ} (order : ℕ) {Re GM B : ℝ} (d : In)
    (a : Ax) (hd : degree ≤ 120) (bG : Big 100 GM) (bR : Big 100 Re) (R0 : Re ≠ 0) (R1 : |Re| ≤ 2 ^ 100)
    (hB : ∀ i ≤ degree, |d.V (i + 1) 0| ≤ B) :
    |accelD rnd fl degree order Re GM d a - total degree order d a * (GM / (Re * Re))| ≤
      2 / 10 ^ 12 * (|GM / (Re * Re)| * size degree order d a) +
        2 * (|GM / (Re * Re)| * tiny degree order B + eta) := by
  have e := accel_error hr fl degree order d a bG bR R0 R1 hB
  have t := turns_length degree order
  have n : degree + (turns degree order).length + 10 ≤ 7390 := by
    have : degree * (degree + 1) ≤ 120 * 121 := Nat.mul_le_mul hd (by omega)
    omega
  generalize degree + (turns degree order).length + 10 = k at *
  have k0 : (k : ℝ) ≤ 7390 := by exact_mod_cast n
  have ku : (k : ℝ) * u ≤ 7390 * (1 / 2 ^ 53) := mul_le_mul k0 u_le u_pos.le (by norm_num)
  have g := gam_le (n := k) (ku.trans (by norm_num))
  have g1 : (gam k : ℝ) ≤ 1 + 2 / 10 ^ 12 := by
    norm_num at ku ⊢
    linarith
  refine e.hv.trans ?_
  have h1 := mul_le_mul_of_nonneg_right (by linarith : (gam k : ℝ) - 1 ≤ 2 / 10 ^ 12) e.s0
  have h2 := mul_le_mul_of_nonneg_left (g1.trans (by norm_num : (1 : ℝ) + 2 / 10 ^ 12 ≤ 2)) e.hc
  linarith

/-! ### The exact value -/

open Verif.Mat2D (Mat)

theorem foldlM_some {α β : Type} {f : β → α → Option β} {g : β → α → β} {l : List α}
    (h : ∀ k ∈ l, ∀ s, f s k = some (g s k)) (s : β) : l.foldlM f s = some (l.foldl g s) := by
  induction l generalizing s with
  | nil => rfl
  | cons k l ih =>
    rw [List.foldlM_cons, h k (by simp), List.foldl_cons]
    exact ih (fun k' hk => h k' (by simp [hk])) _

/-- Three sums at once. -/
def add3 {α : Type} (t : Ax → α → ℝ) (s : ℝ × ℝ × ℝ) (k : α) : ℝ × ℝ × ℝ :=
  (s.1 + t .x k, s.2.1 + t .y k, s.2.2 + t .z k)

theorem foldl_add3 {α : Type} (t : Ax → α → ℝ) (l : List α) (s : ℝ × ℝ × ℝ) :
    l.foldl (add3 t) s = (s.1 + (l.map (t .x)).sum, s.2.1 + (l.map (t .y)).sum, s.2.2 + (l.map (t .z)).sum) := by
  induction l generalizing s with
  | nil => simp
  | cons k l ih =>
    rw [List.foldl_cons, ih]
    simp only [add3, List.map_cons, List.sum_cons]
    ext <;> simp only <;> ring

/-- **C176.**  The exact value is the acceleration of the model over the real numbers (Verif/Gravity/Model.lean), when
the entries are those of the work arrays. -/
theorem accel_exact (degree order : ℕ) (Re GM : ℝ) (V W : Mat ℝ) (d : In)
    (hV : ∀ i j, i ≤ degree + 1 → j ≤ i → j ≤ order + 1 → Verif.Gravity.rd V i j = some (d.V i j))
    (hW : ∀ i j, i ≤ degree + 1 → j ≤ i → j ≤ order + 1 → Verif.Gravity.rd W i j = some (d.W i j)) :
    Verif.Gravity.accel degree order Re GM V W d.C d.S =
      some (total degree order d .x * (GM / (Re * Re)), total degree order d .y * (GM / (Re * Re)),
        total degree order d .z * (GM / (Re * Re))) := by
  unfold Verif.Gravity.accel
  have z := foldlM_some (f := Verif.Gravity.acc0Step V W d.C) (g := add3 (zon id (fun _ _ _ => true) d))
    (l := List.range (degree + 1)) (by
      intro i hi s
      have hi : i ≤ degree := by simpa [Nat.lt_succ_iff] using hi
      simp only [Verif.Gravity.acc0Step, hV (i + 1) 0 (by omega) (by omega) (by omega),
        hV (i + 1) 1 (by omega) (by omega) (by omega), hW (i + 1) 1 (by omega) (by omega) (by omega), add3, zon, rq_id, id]
      rfl) (0, 0, 0)
  have t : (List.range' 1 degree).foldlM
      (fun s i => (List.range' 1 (min i order)).foldlM (Verif.Gravity.acc1Step V W d.C d.S i) s) (0, 0, 0) =
      some ((turns degree order).foldl (add3 (tes id (fun _ _ _ => true) d)) (0, 0, 0)) := by
    rw [turns, List.foldl_flatMap]
    refine foldlM_some (fun i hi s => ?_) _
    rw [List.foldl_map]
    refine foldlM_some (fun j hj s => ?_) _
    rw [List.mem_range'_1] at hi hj
    simp only [Verif.Gravity.acc1Step, hV (i + 1) (j - 1) (by omega) (by omega) (by omega),
      hV (i + 1) j (by omega) (by omega) (by omega), hV (i + 1) (j + 1) (by omega) (by omega) (by omega),
      hW (i + 1) (j - 1) (by omega) (by omega) (by omega), hW (i + 1) j (by omega) (by omega) (by omega),
      hW (i + 1) (j + 1) (by omega) (by omega) (by omega), add3, tes, rq_id, id, fac]
    rfl
  rw [z, t, foldl_add3, foldl_add3]
  simp only [total, zero_add]
  rfl

/-- **C176.**  Without coefficients of the field there is exactly no acceleration. -/
theorem accel_zero (hr : Nearest rnd) (fl : ℕ → ℕ → ℕ → Bool) (degree order : ℕ) (Re GM : ℝ) (d : In) (a : Ax)
    (hC : ∀ i j, d.C i j = 0) (hS : ∀ i j, d.S i j = 0) : accelD rnd fl degree order Re GM d a = 0 := by
  have q0 : ∀ b, rq rnd b 0 = 0 := by intro b; unfold rq; split_ifs; rfl; exact hr.zero
  have z : ∀ i, zon rnd fl d a i = 0 := by
    intro i; cases a <;> simp [zon, hC, hr.zero, q0]
  have t : ∀ p, tes rnd fl d a p = 0 := by
    intro p; cases a <;> simp [tes, hC, hS, hr.zero, q0]
  have s : ∀ {α : Type} (f : α → ℝ) (l : List α), (∀ k, f k = 0) → sumD rnd f l = 0 := by
    intro α f l hf
    unfold sumD
    induction l with
    | nil => rfl
    | cons k l ih => rw [List.foldl_cons, hf, add_zero, hr.zero]; exact ih
  unfold accelD
  rw [s _ _ z, s _ _ t, add_zero, hr.zero, zero_mul, hr.zero]

/-- **C176.**  A point mass: with the only coefficient `C(0,0) = 1` and the work arrays of a point on the x axis at the
distance `Re`, degree 0, the x component is the rounded `-GM/Re^2`. -/
theorem accel_point (hr : Nearest rnd) (fl : ℕ → ℕ → ℕ → Bool) (Re GM : ℝ) (d : In) (h0 : d.C 0 0 = 1) (h1 : d.V 1 1 = 1) :
    accelD rnd fl 0 0 Re GM d .x = rnd (-rnd (GM / rnd (Re * Re))) := by
  have i1 : IsDouble (-1 : ℝ) := by simpa using isDouble_int (K := ℝ) (-1) (by norm_num)
  have q : rq rnd (fl 0 0 0) (-1) = -1 := by unfold rq; split_ifs; rfl; exact hr.exact i1
  simp only [accelD, sumD, turns, List.range'_zero, List.flatMap_nil, List.foldl_nil, List.range_one, List.foldl_cons,
    zon, h0, h1, mul_one, q, zero_add, add_zero, hr.exact i1, neg_one_mul]

/-- The Earth without harmonics of degree above 2: the hypotheses hold. -/
example (hr : Nearest rnd) (fl : ℕ → ℕ → ℕ → Bool) (d : In) (a : Ax) (hd : ∀ i j, |d.V i j| ≤ 3) :
    |accelD rnd fl 2 2 6378137 398600441500000 d a -
      total 2 2 d a * (398600441500000 / (6378137 * 6378137))| ≤
      2 / 10 ^ 12 * (|(398600441500000 : ℝ) / (6378137 * 6378137)| * size 2 2 d a) +
        2 * (|(398600441500000 : ℝ) / (6378137 * 6378137)| * tiny 2 2 3 + eta) := by
  have big : ∀ x : ℝ, 1 ≤ x → Big 100 x := fun x h => Or.inr (by
    rw [abs_of_nonneg (by linarith)]
    exact (pow_le_one₀ (by norm_num) (by norm_num)).trans h)
  exact accel_error_120 hr fl 2 d a (by norm_num) (big _ (by norm_num)) (big _ (by norm_num)) (by norm_num)
    (by rw [abs_of_pos (by norm_num)]; norm_num) (fun i _ => hd _ _)

end Verif.Float.Gravity
