import Verif.Float.RecurProps
import Verif.Gravity.Props

/-
C178: the acceleration by the gravity field from the position, in double arithmetic: recurrences and sums together.
-/
namespace Verif.Float.Field

open Verif.Gravity (Geo specV specW)
open Verif.Float.Gravity
open Verif.Float.Recur

variable {rnd : ℝ → ℝ}

/-! ### Sums of inexact terms -/

theorem Ev.list {α : Type} {n : ℕ} {c t t' S : α → ℝ} {l : List α} (h : ∀ k ∈ l, Ev n (c k) (t k) (t' k) (S k)) :
    Ev n (l.map c).sum (l.map t).sum (l.map t').sum (l.map S).sum := by
  induction l with
  | nil => simpa using (Ev.leaf 0).mono (Nat.zero_le n) le_rfl
  | cons k l ih =>
    simp only [List.map_cons, List.sum_cons]
    exact (h k (by simp)).add (ih fun k' hk => h k' (by simp [hk]))

/-- Roundings of a value that is itself inexact. -/
theorem Ev.trans {k n : ℕ} {c c' v y s y' s' : ℝ} (h : Ev k c v y s) (h' : Ev n c' y y' s')
    (hs : s ≤ gam n * (s' + c')) : Ev (k + n) (c + c') v y' s' := by
  refine ⟨h'.hy, add_nonneg h.hc h'.hc, ?_⟩
  have g1 := gam_one_le (K := ℝ) k
  have g2 := gam_one_le (K := ℝ) n
  have e := abs_add_le (v - y) (y - y')
  rw [sub_add_sub_cancel] at e
  have h1 := mul_le_mul_of_nonneg_left hs (by linarith : (0 : ℝ) ≤ gam k - 1)
  have h2 : c * gam k ≤ c * gam k * gam n := le_mul_of_one_le_right (mul_nonneg h.hc (by linarith)) g2
  rw [show (gam (k + n) : ℝ) = gam k * gam n from pow_add _ _ _]
  linarith [h.hv, h'.hv]

/-- A coefficient times an inexact value. -/
theorem term {n : ℕ} {c v y s : ℝ} (C : ℝ) (h : Ev n c v y s) : Ev n |(|C| * c)| (C * v) (C * y) |(|C| * s)| := by
  rw [abs_of_nonneg (mul_nonneg (abs_nonneg C) h.hc), abs_of_nonneg (mul_nonneg (abs_nonneg C) h.s0)]
  exact h.scale C

theorem nterm {n : ℕ} {c v y s : ℝ} (C : ℝ) (h : Ev n c v y s) : Ev n |(|C| * c)| (-C * v) (-C * y) |(|C| * s)| := by
  have := term (-C) h
  rwa [abs_neg] at this

theorem size_le {n : ℕ} {c v y s : ℝ} (C : ℝ) (h : Ev n c v y s) :
    |C * v| ≤ gam n * (|(|C| * s)| + |(|C| * c)|) := by
  rw [abs_of_nonneg (mul_nonneg (abs_nonneg C) h.hc), abs_of_nonneg (mul_nonneg (abs_nonneg C) h.s0), abs_mul]
  have e := abs_add_le (v - y) y
  rw [sub_add_cancel] at e
  have := mul_le_mul_of_nonneg_left (e.trans (add_le_add h.hv h.hy)) (abs_nonneg C)
  linarith

/-- The field with absolute values of the coefficients and other entries of the work arrays. -/
def absIn (d : In) (V W : ℕ → ℕ → ℝ) : In :=
  { C := fun i j => |d.C i j|, S := fun i j => |d.S i j|, V := V, W := W }

section
variable {n : ℕ} {d : In} {V W sV sW cV cW : ℕ → ℕ → ℝ} {N : ℕ}
  (hV : ∀ i j, i ≤ N + 1 → j ≤ i → Ev n (cV i j) (d.V i j) (V i j) (sV i j))
  (hW : ∀ i j, i ≤ N + 1 → j ≤ i → Ev n (cW i j) (d.W i j) (W i j) (sW i j))
include hV hW

theorem zon_lin (fl : ℕ → ℕ → ℕ → Bool) (a : Ax) {i : ℕ} (hi : i ≤ N) :
    Ev n (zonS (absIn d cV cW) a i) (zon id fl d a i) (zon id fl { d with V := V, W := W } a i)
      (zonS (absIn d sV sW) a i) := by
  cases a with
  | x => simp only [zon, zonS, rq_id, absIn]; exact nterm _ (hV _ _ (by omega) (by omega))
  | y => simp only [zon, zonS, rq_id, absIn]; exact nterm _ (hW _ _ (by omega) (by omega))
  | z =>
    simp only [zon, zonS, rq_id, absIn, id]
    have e := (nterm (d.C i 0) (hV (i + 1) 0 (by omega) (by omega))).scale ((i + 1 : ℕ) : ℝ)
    rw [Nat.abs_cast] at e
    convert e using 1
    · push_cast; ring
    · ring
    · ring
    · push_cast; ring

theorem tes_lin (fl : ℕ → ℕ → ℕ → Bool) (a : Ax) {p : ℕ × ℕ} (hp : p.1 ≤ N) (hj : 1 ≤ p.2) (hji : p.2 ≤ p.1) :
    Ev n (tesS (absIn d cV cW) a p) (tes id fl d a p) (tes id fl { d with V := V, W := W } a p)
      (tesS (absIn d sV sW) a p) := by
  obtain ⟨i, j⟩ := p
  simp only at hp hj hji
  have v1 := hV (i + 1) (j + 1) (by omega) (by omega)
  have w1 := hW (i + 1) (j + 1) (by omega) (by omega)
  have v0 := hV (i + 1) (j - 1) (by omega) (by omega)
  have w0 := hW (i + 1) (j - 1) (by omega) (by omega)
  have v := hV (i + 1) j (by omega) (by omega)
  have w := hW (i + 1) j (by omega) (by omega)
  have f0 := abs_of_nonneg (fac_nonneg i j)
  have half : |(1 / 2 : ℝ)| = 1 / 2 := abs_of_pos (by norm_num)
  cases a with
  | x =>
    simp only [tes, tesS, rq_id, absIn, id]
    have e := (((nterm (d.C i j) v1).sub (term (d.S i j) w1)).scale (1 / 2)).add
      (((term (d.C i j) v0).add (term (d.S i j) w0)).scale (fac i j))
    rwa [f0, half] at e
  | y =>
    simp only [tes, tesS, rq_id, absIn, id]
    have e := (((nterm (d.C i j) w1).add (term (d.S i j) v1)).scale (1 / 2)).add
      (((nterm (d.C i j) w0).add (term (d.S i j) v0)).scale (fac i j))
    rwa [f0, half] at e
  | z =>
    simp only [tes, tesS, rq_id, absIn, id]
    have e := ((nterm (d.C i j) v).sub (term (d.S i j) w)).scale ((i - j + 1 : ℕ) : ℝ)
    rwa [Nat.abs_cast] at e

theorem zon_size (a : Ax) {i : ℕ} (hi : i ≤ N) :
    zonS d a i ≤ gam n * (zonS (absIn d sV sW) a i + zonS (absIn d cV cW) a i) := by
  cases a with
  | x => simp only [zonS, absIn]; exact size_le _ (hV _ _ (by omega) (by omega))
  | y => simp only [zonS, absIn]; exact size_le _ (hW _ _ (by omega) (by omega))
  | z =>
    simp only [zonS, absIn]
    have := mul_le_mul_of_nonneg_left (size_le (d.C i 0) (hV (i + 1) 0 (by omega) (by omega)))
      (by positivity : (0 : ℝ) ≤ (i : ℝ) + 1)
    linarith

theorem tes_size (a : Ax) {p : ℕ × ℕ} (hp : p.1 ≤ N) (hj : 1 ≤ p.2) (hji : p.2 ≤ p.1) :
    tesS d a p ≤ gam n * (tesS (absIn d sV sW) a p + tesS (absIn d cV cW) a p) := by
  obtain ⟨i, j⟩ := p
  simp only at hp hj hji
  have v1 := hV (i + 1) (j + 1) (by omega) (by omega)
  have w1 := hW (i + 1) (j + 1) (by omega) (by omega)
  have v0 := hV (i + 1) (j - 1) (by omega) (by omega)
  have w0 := hW (i + 1) (j - 1) (by omega) (by omega)
  have v := hV (i + 1) j (by omega) (by omega)
  have w := hW (i + 1) j (by omega) (by omega)
  cases a with
  | x =>
    simp only [tesS, absIn]
    have h1 := add_le_add (size_le (d.C i j) v1) (size_le (d.S i j) w1)
    have h2 := mul_le_mul_of_nonneg_left (add_le_add (size_le (d.C i j) v0) (size_le (d.S i j) w0)) (fac_nonneg i j)
    linarith
  | y =>
    simp only [tesS, absIn]
    have h1 := add_le_add (size_le (d.C i j) w1) (size_le (d.S i j) v1)
    have h2 := mul_le_mul_of_nonneg_left (add_le_add (size_le (d.C i j) w0) (size_le (d.S i j) v0)) (fac_nonneg i j)
    linarith
  | z =>
    simp only [tesS, absIn]
    have h2 := mul_le_mul_of_nonneg_left (add_le_add (size_le (d.C i j) v) (size_le (d.S i j) w))
      (Nat.cast_nonneg (α := ℝ) (i - j + 1))
    linarith

/-- The exact sums of inexact entries. -/
theorem total_lin (M : ℕ) (a : Ax) :
    Ev n (size N M (absIn d cV cW) a) (total N M d a) (total N M { d with V := V, W := W } a)
      (size N M (absIn d sV sW) a) := by
  refine Ev.add (Ev.list fun i hi => ?_) (Ev.list fun p hp => ?_)
  · exact zon_lin hV hW _ a (by simpa [Nat.lt_succ_iff] using hi)
  · have := turns_mem hp
    exact tes_lin hV hW _ a this.2.2.1 this.1 this.2.1

theorem size_lin (M : ℕ) (a : Ax) :
    size N M d a ≤ gam n * (size N M (absIn d sV sW) a + size N M (absIn d cV cW) a) := by
  have sum : ∀ {α : Type} (l : List α) (f g h : α → ℝ), (∀ k ∈ l, f k ≤ gam n * (g k + h k)) →
      (l.map f).sum ≤ gam n * ((l.map g).sum + (l.map h).sum) := by
    intro α l f g h hl
    induction l with
    | nil => simp
    | cons k l ih =>
      simp only [List.map_cons, List.sum_cons]
      have := ih fun k' hk => hl k' (by simp [hk])
      have := hl k (by simp)
      linarith
  have z := sum (List.range (N + 1)) _ _ _ fun i hi => zon_size hV hW a (i := i)
    (by simpa [Nat.lt_succ_iff] using hi)
  have t := sum (turns N M) _ _ _ fun p hp => tes_size hV hW a (turns_mem hp).2.2.1 (turns_mem hp).1 (turns_mem hp).2.1
  unfold size
  linarith

/-- The acceleration from inexact entries. -/
theorem accel_lin (hr : Nearest rnd) (fl : ℕ → ℕ → ℕ → Bool) (M : ℕ) {Re GM B : ℝ} (a : Ax) (bG : Big 100 GM)
    (bR : Big 100 Re) (R0 : Re ≠ 0) (R1 : |Re| ≤ 2 ^ 100) (hB : ∀ i ≤ N, |d.V (i + 1) 0| ≤ B) :
    Ev (N + (turns N M).length + 10 + n)
      (|GM / (Re * Re)| * tiny N M B + eta + |GM / (Re * Re)| * size N M (absIn d cV cW) a)
      (accelD rnd fl N M Re GM d a) (total N M { d with V := V, W := W } a * (GM / (Re * Re)))
      (|GM / (Re * Re)| * size N M (absIn d sV sW) a) := by
  have e := accel_error hr fl N M d a bG bR R0 R1 hB
  have l := (total_lin hV hW M a).scale (GM / (Re * Re))
  rw [mul_comm (GM / (Re * Re)) (total _ _ _ _), mul_comm (GM / (Re * Re)) (total _ _ _ _)] at l
  refine Ev.trans e l ?_
  have := mul_le_mul_of_nonneg_left (size_lin hV hW M a) (abs_nonneg (GM / (Re * Re)))
  linarith

end

/-! ### From the position -/

/-- What the loops of the acceleration read: the coefficients and the computed work arrays. -/
noncomputable def inD (rnd : ℝ → ℝ) (fl : ℕ → ℕ → ℕ → Bool) (h : Geo ℝ) (C S : ℕ → ℕ → ℝ) : In :=
  { C := C, S := S, V := fun i j => (colD rnd fl h j (i - j)).1, W := fun i j => (colD rnd fl h j (i - j)).2 }

/-- The same with the exact harmonics. -/
noncomputable def inX (g : Geo ℝ) (C S : ℕ → ℕ → ℝ) : In := { C := C, S := S, V := specV g, W := specW g }

/-- Sum of the sizes of all terms, with those of the recurrences. -/
noncomputable def fieldS (N M : ℕ) (g : Geo ℝ) (C S : ℕ → ℕ → ℝ) (a : Ax) : ℝ :=
  size N M (absIn (inX g C S) (fun i j => (colS g j (i - j)).1) fun i j => (colS g j (i - j)).2) a

/-- What underflow in the recurrences may add. -/
noncomputable def fieldC (N M : ℕ) (g : Geo ℝ) (C S : ℕ → ℕ → ℝ) (a : Ax) : ℝ :=
  size N M (absIn (inX g C S) (fun i j => (colC g j (i - j)).1) fun i j => (colC g j (i - j)).2) a

/-- **C178.**  From the position to the acceleration: the computed component is the exact one up to as many roundings of
the sizes of the terms as the summing loops have turns, and `16 N + 35` more. -/
theorem field_error (hr : Nearest rnd) (f f' : FuseN) (fl fl' : ℕ → ℕ → ℕ → Bool) (N M : ℕ) {x y z R GM B : ℝ}
    (C S : ℕ → ℕ → ℝ) (a : Ax) (bx : Big 100 x) (bY : Big 100 y) (bz : Big 100 z) (bR : Big 100 R) (bG : Big 100 GM)
    (h0 : x * x + y * y + z * z ≠ 0) (h1 : x * x + y * y + z * z ≤ 2 ^ 200) (R0 : R ≠ 0) (R1 : |R| ≤ 2 ^ 100)
    (hB : ∀ i ≤ N, |(colD rnd fl (geoD rnd f f' x y z R) 0 (i + 1)).1| ≤ B) :
    Ev ((turns N M).length + 16 * N + 35)
      (|GM / (R * R)| * tiny N M B + eta + |GM / (R * R)| * fieldC N M (geoX x y z R) C S a)
      (accelD rnd fl' N M R GM (inD rnd fl (geoD rnd f f' x y z R) C S) a)
      (total N M (inX (geoX x y z R) C S) a * (GM / (R * R)))
      (|GM / (R * R)| * fieldS N M (geoX x y z R) C S a) := by
  have e : ∀ i j, i ≤ N + 1 → j ≤ i → _ := fun i j hi hj =>
    entry_error hr f f' fl (n := i) (m := j) hj bx bY bz bR h0 h1
  have l := accel_lin (n := 15 * (N + 1) + 10) (d := inD rnd fl (geoD rnd f f' x y z R) C S) (N := N)
    (fun i j hi hj => (e i j hi hj).1.mono (by omega) le_rfl) (fun i j hi hj => (e i j hi hj).2.mono (by omega) le_rfl)
    hr fl' M a bG bR R0 R1 hB
  exact l.mono (by omega) le_rfl

/-- **C178.**  Up to degree and order 120 the acceleration computed from the position is within 2.1e-12 of the sizes of
its terms. -/
theorem field_error_120 (hr : Nearest rnd) (f f' : FuseN) (fl fl' : ℕ → ℕ → ℕ → Bool) {N : ℕ} (M : ℕ) (hN : N ≤ 120)
    {x y z R GM B : ℝ} (C S : ℕ → ℕ → ℝ) (a : Ax) (bx : Big 100 x) (bY : Big 100 y) (bz : Big 100 z) (bR : Big 100 R)
    (bG : Big 100 GM) (h0 : x * x + y * y + z * z ≠ 0) (h1 : x * x + y * y + z * z ≤ 2 ^ 200) (R0 : R ≠ 0)
    (R1 : |R| ≤ 2 ^ 100) (hB : ∀ i ≤ N, |(colD rnd fl (geoD rnd f f' x y z R) 0 (i + 1)).1| ≤ B) :
    |accelD rnd fl' N M R GM (inD rnd fl (geoD rnd f f' x y z R) C S) a -
        total N M (inX (geoX x y z R) C S) a * (GM / (R * R))| ≤
      21 / 10 ^ 13 * (|GM / (R * R)| * fieldS N M (geoX x y z R) C S a) +
        2 * (|GM / (R * R)| * tiny N M B + eta + |GM / (R * R)| * fieldC N M (geoX x y z R) C S a) := by
  have e := field_error hr f f' fl fl' N M C S a bx bY bz bR bG h0 h1 R0 R1 hB
  have t := turns_length N M
  have n : (turns N M).length + 16 * N + 35 ≤ 9215 := by
    have : N * (N + 1) ≤ 120 * 121 := Nat.mul_le_mul hN (by omega)
    omega
  generalize (turns N M).length + 16 * N + 35 = k at *
  have k0 : (k : ℝ) ≤ 9215 := by exact_mod_cast n
  have ku : (k : ℝ) * u ≤ 9215 * (1 / 2 ^ 53) := mul_le_mul k0 u_le u_pos.le (by norm_num)
  have g := gam_le (n := k) (ku.trans (by norm_num))
  have g1 : (gam k : ℝ) ≤ 1 + 21 / 10 ^ 13 := by
    norm_num at ku ⊢
    linarith
  refine e.hv.trans ?_
  have h1 := mul_le_mul_of_nonneg_right (by linarith : (gam k : ℝ) - 1 ≤ 21 / 10 ^ 13) e.s0
  have h2 := mul_le_mul_of_nonneg_left (g1.trans (by norm_num : (1 : ℝ) + 21 / 10 ^ 13 ≤ 2)) e.hc
  linarith

/-- **C178.**  The exact value is what the two functions of the model over the real numbers give (C52, C53): work arrays
of any contents, large enough for the check of the wrapper, are filled by the recurrences and read by the sums. -/
theorem field_exact (N M rows cols : ℕ) (g : Geo ℝ) (R GM : ℝ) (C S : ℕ → ℕ → ℝ) (V W : Verif.Mat2D.Mat ℝ)
    (hA : Verif.Gravity.Arrays rows cols V W) (hM : M ≤ N) (hr : N + 2 ≤ rows) (hc : M + 2 ≤ cols) :
    ∃ V' W', Verif.Gravity.lagrange g (N + 1) (M + 1) V W = some (0, V', W') ∧
      Verif.Gravity.accel N M R GM V' W' C S =
        some (total N M (inX g C S) .x * (GM / (R * R)), total N M (inX g C S) .y * (GM / (R * R)),
          total N M (inX g C S) .z * (GM / (R * R))) := by
  obtain ⟨V', W', e, -, hV, hW⟩ := Verif.Gravity.wrapper_accel_safe g N M rows cols V W hA hM hr hc
  exact ⟨V', W', e, accel_exact N M R GM V' W' (inX g C S) hV hW⟩

example : Verif.Gravity.Arrays 4 4 (⟨⟨4, 4⟩, List.replicate 10 0⟩ : Verif.Mat2D.Mat ℝ) ⟨⟨4, 4⟩, List.replicate 10 0⟩ :=
  ⟨rfl, by rw [List.length_replicate]; rfl, rfl, by rw [List.length_replicate]; rfl⟩

/-- A satellite over the equator in a field of degree and order 2: the hypotheses hold. -/
example (hr : Nearest rnd) (f f' : FuseN) (fl fl' : ℕ → ℕ → ℕ → Bool) (C S : ℕ → ℕ → ℝ) (a : Ax) :
    ∃ B, |accelD rnd fl' 2 2 6378137 398600441500000 (inD rnd fl (geoD rnd f f' 7700000 0 0 6378137) C S) a -
        total 2 2 (inX (geoX 7700000 0 0 6378137) C S) a * (398600441500000 / (6378137 * 6378137))| ≤
      21 / 10 ^ 13 * (|(398600441500000 : ℝ) / (6378137 * 6378137)| * fieldS 2 2 (geoX 7700000 0 0 6378137) C S a) +
        2 * (|(398600441500000 : ℝ) / (6378137 * 6378137)| * tiny 2 2 B + eta +
          |(398600441500000 : ℝ) / (6378137 * 6378137)| * fieldC 2 2 (geoX 7700000 0 0 6378137) C S a) := by
  have big : ∀ x : ℝ, 1 ≤ x → Big 100 x := fun x h => Or.inr (by
    rw [abs_of_nonneg (by linarith)]
    exact (pow_le_one₀ (by norm_num) (by norm_num)).trans h)
  refine ⟨∑ i ∈ Finset.range 3, |(colD rnd fl (geoD rnd f f' 7700000 0 0 6378137) 0 (i + 1)).1|, ?_⟩
  refine field_error_120 hr f f' fl fl' 2 (by norm_num) C S a (big _ (by norm_num)) (Or.inl rfl) (Or.inl rfl)
    (big _ (by norm_num)) (big _ (by norm_num)) (by norm_num) (by norm_num) (by norm_num)
    (by rw [abs_of_pos (by norm_num)]; norm_num) (fun i hi => ?_)
  exact Finset.single_le_sum (f := fun i => |(colD rnd fl (geoD rnd f f' 7700000 0 0 6378137) 0 (i + 1)).1|)
    (fun _ _ => abs_nonneg _) (Finset.mem_range.2 (by omega))

end Verif.Float.Field
