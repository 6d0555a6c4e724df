import Verif.Float.RecurModel
import Verif.Float.GravityProps
import Mathlib.Tactic.Ring

/-
C177: the recurrences for the solid spherical harmonics in double arithmetic.
-/
namespace Verif.Float.Recur

open Verif.Gravity (Geo sect col nextInColumn)
open Verif.Float.Gravity
open Verif.Astro (V3)

variable {rnd : ℝ → ℝ}

/-- The exact position as seen by the recursion. -/
noncomputable def geoX (x y z R : ℝ) : Geo ℝ :=
  let r2 := x * x + y * y + z * z
  { x0 := R * x / r2, y0 := R * y / r2, z0 := R * z / r2, rho := R * R / r2, v00 := R / √r2 }

/-! ### Relative errors -/

theorem gam_pos (n : ℕ) : (0 : ℝ) < gam n := lt_of_lt_of_le one_pos (gam_one_le n)

theorem rel_gam {n : ℕ} {x y : ℝ} (h : Rel n x y) (hn : n ≤ 100) : |x - y| ≤ (gam (2 * n) - 1) * |y| := by
  refine (h.err ((mul_u_le hn).trans (by norm_num))).trans (mul_le_mul_of_nonneg_right ?_ (abs_nonneg _))
  have := gam_ge (2 * n)
  push_cast at this
  linarith

/-- A double within a relative error of a number is a value with the size of the number. -/
theorem Ev.ofRel {n : ℕ} {x y : ℝ} (h : Rel n x y) (hn : n ≤ 100) : Ev (2 * n) 0 x y |y| :=
  ⟨le_rfl, le_rfl, by rw [zero_mul, add_zero]; exact rel_gam h hn⟩

theorem Ev.mulF' {n m : ℕ} {c v y s F f : ℝ} (h : Ev n c v y s) (hF : |F - f| ≤ (gam m - 1) * |f|) :
    Ev (n + m) (|f| * c) (F * v) (f * y) (|f| * s) := by
  rw [mul_comm F, mul_comm f y]; exact h.mulF hF

/-- What the relative errors of the position are, and that nothing underflows. -/
structure GeoRel (h g : Geo ℝ) : Prop where
  x0 : Rel 5 h.x0 g.x0
  y0 : Rel 5 h.y0 g.y0
  z0 : Rel 5 h.z0 g.z0
  rho : Rel 5 h.rho g.rho
  v00 : Rel 5 h.v00 g.v00
  bz : Big 600 g.z0
  br : Big 600 g.rho

theorem big_nat (n : ℕ) : Big 0 (n : ℝ) := by
  rcases Nat.eq_zero_or_pos n with rfl | h
  · left; simp
  · right
    rw [pow_zero, Nat.abs_cast]
    exact_mod_cast h

/-- An integer times a member of the position. -/
theorem int_rel (hr : Nearest rnd) {h g : ℝ} (k : ℕ) (r : Rel 5 h g) (b : Big 600 g) : Rel 6 (rnd (k * h)) (k * g) :=
  (((Rel.refl (k : ℝ)).mul r).rb hr (by omega) (((big_nat k).mul b).mono (by norm_num))).mono (by omega)

theorem geo_rel (hr : Nearest rnd) (f f' : FuseN) {x y z R : ℝ} (bx : Big 100 x) (bY : Big 100 y) (bz : Big 100 z)
    (bR : Big 100 R) (h0 : x * x + y * y + z * z ≠ 0) (h1 : x * x + y * y + z * z ≤ 2 ^ 200) :
    GeoRel (geoD rnd f f' x y z R) (geoX x y z R) := by
  have hv : Fit ⟨z, x, y⟩ := ⟨bz, bx, bY⟩
  have s := sq_rel hr f (by omega) (RelV.refl ⟨z, x, y⟩) hv
  have n := nrm_rel hr f' (by omega) (RelV.refl ⟨z, x, y⟩) hv
  have e : V3.dot ⟨z, x, y⟩ ⟨z, x, y⟩ = x * x + y * y + z * z := by unfold V3.dot; ring
  have en : V3.norm ⟨z, x, y⟩ = √(x * x + y * y + z * z) := by unfold V3.norm; rw [e]
  rw [e] at s
  rw [en] at n
  have p0 : 0 ≤ x * x + y * y + z * z :=
    add_nonneg (add_nonneg (mul_self_nonneg x) (mul_self_nonneg y)) (mul_self_nonneg z)
  have q1 : |x * x + y * y + z * z| ≤ 2 ^ 200 := by rwa [abs_of_nonneg p0]
  have sp : √(x * x + y * y + z * z) ≠ 0 := (Real.sqrt_pos.2 (lt_of_le_of_ne p0 h0.symm)).ne'
  have sq : |√(x * x + y * y + z * z)| ≤ 2 ^ 100 := by
    rw [abs_of_nonneg (Real.sqrt_nonneg _), show (2 : ℝ) ^ 100 = √(2 ^ 200) by
      rw [show (2 : ℝ) ^ 200 = (2 ^ 100) ^ 2 by rw [← pow_mul], Real.sqrt_sq (by positivity)]]
    exact Real.sqrt_le_sqrt h1
  have big : ∀ {t : ℝ}, Big 100 t → Big 400 (R * t / (x * x + y * y + z * z)) := fun b =>
    ((bR.mul b).div q1 h0).mono (by norm_num)
  have q : ∀ {t : ℝ}, Big 100 t →
      Rel 5 (rnd (rnd (R * t) / sqD rnd f z x y)) (R * t / (x * x + y * y + z * z)) := fun {t} b =>
    (((((Rel.refl R).mul (Rel.refl t)).rb hr (by omega) ((bR.mul b).mono (by norm_num))).div s).rb hr (by omega)
      ((big b).mono (by norm_num))).mono (by omega)
  exact ⟨q bx, q bY, q bz, q bR,
    (((Rel.refl R).div n).rb hr (by omega) ((bR.div sq sp).mono (by norm_num))).mono (by omega),
    (big bz).mono (by norm_num), (big bR).mono (by norm_num)⟩

/-! ### Sizes -/

/-- Sizes of the terms of the entries of equal degree and order: the recursion with all terms added. -/
def sectS (g : Geo ℝ) : ℕ → ℝ × ℝ
  | 0 => (|g.v00|, 0)
  | m + 1 =>
    ((2 * (m : ℝ) + 1) * (|g.x0| * (sectS g m).1 + |g.y0| * (sectS g m).2),
      (2 * (m : ℝ) + 1) * (|g.x0| * (sectS g m).2 + |g.y0| * (sectS g m).1))

/-- What underflow may add to them. -/
noncomputable def sectC (g : Geo ℝ) : ℕ → ℝ × ℝ
  | 0 => (0, 0)
  | m + 1 =>
    ((2 * (m : ℝ) + 1) * (|g.x0| * (sectC g m).1 + |g.y0| * (sectC g m).2 + 3 * eta) + eta,
      (2 * (m : ℝ) + 1) * (|g.x0| * (sectC g m).2 + |g.y0| * (sectC g m).1 + 3 * eta) + eta)

/-- Sizes of the terms of a column. -/
noncomputable def colS (g : Geo ℝ) (m : ℕ) : ℕ → ℝ × ℝ
  | 0 => sectS g m
  | 1 => ((2 * (m : ℝ) + 1) * |g.z0| * (sectS g m).1, (2 * (m : ℝ) + 1) * |g.z0| * (sectS g m).2)
  | d + 2 =>
    (((2 * (m : ℝ) + 2 * d + 3) * |g.z0| * (colS g m (d + 1)).1 + (2 * (m : ℝ) + d + 1) * |g.rho| * (colS g m d).1) /
        ((d : ℝ) + 2),
      ((2 * (m : ℝ) + 2 * d + 3) * |g.z0| * (colS g m (d + 1)).2 + (2 * (m : ℝ) + d + 1) * |g.rho| * (colS g m d).2) /
        ((d : ℝ) + 2))

/-- What underflow may add to them. -/
noncomputable def colC (g : Geo ℝ) (m : ℕ) : ℕ → ℝ × ℝ
  | 0 => sectC g m
  | 1 => ((2 * (m : ℝ) + 1) * |g.z0| * (sectC g m).1 + eta, (2 * (m : ℝ) + 1) * |g.z0| * (sectC g m).2 + eta)
  | d + 2 =>
    (((2 * (m : ℝ) + 2 * d + 3) * |g.z0| * (colC g m (d + 1)).1 + (2 * (m : ℝ) + d + 1) * |g.rho| * (colC g m d).1 +
        3 * eta) / ((d : ℝ) + 2) + eta,
      ((2 * (m : ℝ) + 2 * d + 3) * |g.z0| * (colC g m (d + 1)).2 + (2 * (m : ℝ) + d + 1) * |g.rho| * (colC g m d).2 +
        3 * eta) / ((d : ℝ) + 2) + eta)

/-- One entry of equal degree and order. -/
theorem sect_step (hr : Nearest rnd) (b b' : Bool) {n : ℕ} {k c c' p q y y' s s' X X' Y Y' : ℝ} (hk : 0 ≤ k)
    (hp : Ev n c p y s) (hq : Ev n c' q y' s') (hX : Rel 5 X X') (hY : Rel 5 Y Y') :
    Ev (n + 13) (k * (|X'| * c + |Y'| * c' + 3 * eta) + eta) (rnd (k * rnd (rq rnd b (X * p) + rq rnd b' (Y * q))))
      (k * (X' * y + Y' * y')) (k * (|X'| * s + |Y'| * s')) := by
  have e := ((((Ev.mulF' hp (rel_gam hX (by norm_num))).rq hr b).add
    ((Ev.mulF' hq (rel_gam hY (by norm_num))).rq hr b')).round hr).scale k
  rw [abs_of_nonneg hk] at e
  refine (e.round hr).mono (by omega) (le_of_eq ?_)
  ring

theorem sect_step' (hr : Nearest rnd) (b b' : Bool) {n : ℕ} {k c c' p q y y' s s' X X' Y Y' : ℝ} (hk : 0 ≤ k)
    (hp : Ev n c p y s) (hq : Ev n c' q y' s') (hX : Rel 5 X X') (hY : Rel 5 Y Y') :
    Ev (n + 13) (k * (|X'| * c + |Y'| * c' + 3 * eta) + eta) (rnd (k * rnd (rq rnd b (X * p) - rq rnd b' (Y * q))))
      (k * (X' * y - Y' * y')) (k * (|X'| * s + |Y'| * s')) := by
  have e := ((((Ev.mulF' hp (rel_gam hX (by norm_num))).rq hr b).sub
    ((Ev.mulF' hq (rel_gam hY (by norm_num))).rq hr b')).round hr).scale k
  rw [abs_of_nonneg hk] at e
  refine (e.round hr).mono (by omega) (le_of_eq ?_)
  ring

/-- **C177.**  Entries of equal degree and order `m`: `13 m + 10` roundings of the sizes of the terms. -/
theorem sect_error (hr : Nearest rnd) (fl : ℕ → ℕ → ℕ → Bool) {h g : Geo ℝ} (r : GeoRel h g) (m : ℕ) :
    Ev (13 * m + 10) (sectC g m).1 (sectD rnd fl h m).1 (sect g m).1 (sectS g m).1 ∧
      Ev (13 * m + 10) (sectC g m).2 (sectD rnd fl h m).2 (sect g m).2 (sectS g m).2 := by
  induction m with
  | zero =>
    refine ⟨(Ev.ofRel r.v00 (by norm_num)).mono (by omega) le_rfl, ?_⟩
    simpa [sectC, sectD, sect, sectS] using (Ev.leaf 0).mono (n := 10) (c' := 0) (by omega) le_rfl
  | succ m ih =>
    have k : (0 : ℝ) ≤ 2 * (m : ℝ) + 1 := by positivity
    exact ⟨(sect_step' hr _ _ k ih.1 ih.2 r.x0 r.y0).mono (by omega) le_rfl,
      (sect_step hr _ _ k ih.2 ih.1 r.x0 r.y0).mono (by omega) le_rfl⟩

/-- One more entry of a column. -/
theorem next_step (hr : Nearest rnd) (b b' : Bool) {h g : Geo ℝ} (r : GeoRel h g) (m d : ℕ) {n : ℕ}
    {c c' v w y y' s s' : ℝ} (hv : Ev n c v y s) (hw : Ev n c' w y' s') :
    Ev (n + 15) (((2 * (m : ℝ) + 2 * d + 3) * |g.z0| * c + (2 * (m : ℝ) + d + 1) * |g.rho| * c' + 3 * eta) /
        ((d : ℝ) + 2) + eta) (nextD rnd b b' h m d v w) (nextInColumn g m d y y')
      (((2 * (m : ℝ) + 2 * d + 3) * |g.z0| * s + (2 * (m : ℝ) + d + 1) * |g.rho| * s') / ((d : ℝ) + 2)) := by
  have k1 := int_rel hr (2 * m + 2 * d + 3) r.z0 r.bz
  have k2 := int_rel hr (2 * m + d + 1) r.rho r.br
  have c1 : ((2 * m + 2 * d + 3 : ℕ) : ℝ) = 2 * ((m : ℝ) + d + 2) - 1 := by push_cast; ring
  have c2 : ((2 * m + d + 1 : ℕ) : ℝ) = 2 * (m : ℝ) + d + 1 := by push_cast; ring
  have e := ((((Ev.mulF' hv (rel_gam k1 (by norm_num))).rq hr b).sub
    ((Ev.mulF' hw (rel_gam k2 (by norm_num))).rq hr b')).round hr).scale (1 / ((d : ℝ) + 2))
  have d0 : (0 : ℝ) < (d : ℝ) + 2 := by positivity
  rw [abs_of_pos (one_div_pos.2 d0), abs_mul, abs_mul, Nat.abs_cast, Nat.abs_cast, c1, c2] at e
  have f := (e.round hr).mono (n := n + 15) (by omega) le_rfl
  unfold nextD nextInColumn
  convert f using 1
  · ring
  · congr 1; ring
  · ring
  · ring

/-- **C177.**  Entries of order `m` and degree `m + d`: `13 m + 15 d + 10` roundings of the sizes of the terms. -/
theorem col_error (hr : Nearest rnd) (fl : ℕ → ℕ → ℕ → Bool) {h g : Geo ℝ} (r : GeoRel h g) (m d : ℕ) :
    Ev (13 * m + 15 * d + 10) (colC g m d).1 (colD rnd fl h m d).1 (col g m d).1 (colS g m d).1 ∧
      Ev (13 * m + 15 * d + 10) (colC g m d).2 (colD rnd fl h m d).2 (col g m d).2 (colS g m d).2 := by
  have s := sect_error hr fl r m
  have first : ∀ {c v y s : ℝ}, Ev (13 * m + 10) c v y s → Ev (13 * m + 15 * 1 + 10)
      ((2 * (m : ℝ) + 1) * |g.z0| * c + eta) (rnd (rnd ((2 * (m : ℝ) + 1) * h.z0) * v)) ((2 * (m : ℝ) + 1) * g.z0 * y)
      ((2 * (m : ℝ) + 1) * |g.z0| * s) := by
    intro c v y s hv
    have k := int_rel hr (2 * m + 1) r.z0 r.bz
    have c1 : ((2 * m + 1 : ℕ) : ℝ) = 2 * (m : ℝ) + 1 := by push_cast; ring
    have e := (Ev.mulF' hv (rel_gam k (by norm_num))).round hr
    rw [abs_mul, Nat.abs_cast, c1] at e
    exact e.mono (by omega) le_rfl
  have key : ∀ d, (Ev (13 * m + 15 * d + 10) (colC g m d).1 (colD rnd fl h m d).1 (col g m d).1 (colS g m d).1 ∧
      Ev (13 * m + 15 * d + 10) (colC g m d).2 (colD rnd fl h m d).2 (col g m d).2 (colS g m d).2) ∧
      (Ev (13 * m + 15 * (d + 1) + 10) (colC g m (d + 1)).1 (colD rnd fl h m (d + 1)).1 (col g m (d + 1)).1
        (colS g m (d + 1)).1 ∧ Ev (13 * m + 15 * (d + 1) + 10) (colC g m (d + 1)).2 (colD rnd fl h m (d + 1)).2
        (col g m (d + 1)).2 (colS g m (d + 1)).2) := by
    intro d
    induction d with
    | zero => exact ⟨⟨s.1.mono (by omega) le_rfl, s.2.mono (by omega) le_rfl⟩, first s.1, first s.2⟩
    | succ d ih =>
      refine ⟨ih.2, ?_, ?_⟩
      · exact (next_step hr _ _ r m d ih.2.1 (ih.1.1.mono (by omega) le_rfl)).mono (by omega) le_rfl
      · exact (next_step hr _ _ r m d ih.2.2 (ih.1.2.mono (by omega) le_rfl)).mono (by omega) le_rfl
  exact (key d).1

/-- **C177.**  Every entry of degree `n` and order `m`, from the position: `15 n + 10` roundings of the sizes of the
terms. -/
theorem entry_error (hr : Nearest rnd) (f f' : FuseN) (fl : ℕ → ℕ → ℕ → Bool) {x y z R : ℝ} {n m : ℕ} (hm : m ≤ n)
    (bx : Big 100 x) (bY : Big 100 y) (bz : Big 100 z) (bR : Big 100 R) (h0 : x * x + y * y + z * z ≠ 0)
    (h1 : x * x + y * y + z * z ≤ 2 ^ 200) :
    Ev (15 * n + 10) (colC (geoX x y z R) m (n - m)).1 (colD rnd fl (geoD rnd f f' x y z R) m (n - m)).1
        (Verif.Gravity.specV (geoX x y z R) n m) (colS (geoX x y z R) m (n - m)).1 ∧
      Ev (15 * n + 10) (colC (geoX x y z R) m (n - m)).2 (colD rnd fl (geoD rnd f f' x y z R) m (n - m)).2
        (Verif.Gravity.specW (geoX x y z R) n m) (colS (geoX x y z R) m (n - m)).2 := by
  have e := col_error hr fl (geo_rel hr f f' bx bY bz bR h0 h1) m (n - m)
  exact ⟨e.1.mono (by omega) le_rfl, e.2.mono (by omega) le_rfl⟩

/-! ### Zonal entries -/

/-- Outside the sphere the sizes of the zonal terms grow no faster than `3^d`, and so does what underflow adds. -/
theorem zonal_size {g : Geo ℝ} (hz : |g.z0| ≤ 1) (hrho : |g.rho| ≤ 1) (d : ℕ) :
    (0 ≤ (colS g 0 d).1 ∧ (colS g 0 d).1 ≤ 3 ^ d * |g.v00|) ∧
      (0 ≤ (colC g 0 d).1 ∧ (colC g 0 d).1 ≤ 3 ^ d * (2 * eta)) := by
  have e0 : (0 : ℝ) < eta := eta_pos
  have v0 := abs_nonneg g.v00
  have z0 := abs_nonneg g.z0
  have r0 := abs_nonneg g.rho
  -- one step, for a start value `t`
  have step : ∀ (d : ℕ) (a b t e : ℝ), 0 ≤ a → 0 ≤ b → a ≤ 3 ^ (d + 1) * t → b ≤ 3 ^ d * t → 0 ≤ t → 0 ≤ e →
      5 / 2 * e ≤ 2 * t →
      0 ≤ ((2 * ((0 : ℕ) : ℝ) + 2 * d + 3) * |g.z0| * a + (2 * ((0 : ℕ) : ℝ) + d + 1) * |g.rho| * b + 3 * e) /
          ((d : ℝ) + 2) + e ∧
        ((2 * ((0 : ℕ) : ℝ) + 2 * d + 3) * |g.z0| * a + (2 * ((0 : ℕ) : ℝ) + d + 1) * |g.rho| * b + 3 * e) /
          ((d : ℝ) + 2) + e ≤ 3 ^ (d + 2) * t := by
    intro d a b t e ha hb ha' hb' ht he het
    have d0 : (0 : ℝ) ≤ d := Nat.cast_nonneg d
    have p : (1 : ℝ) ≤ 3 ^ d := one_le_pow₀ (by norm_num)
    have a1 : |g.z0| * a ≤ 3 ^ (d + 1) * t := (mul_le_of_le_one_left ha hz).trans ha'
    have b1 : |g.rho| * b ≤ 3 ^ d * t := (mul_le_of_le_one_left hb hrho).trans hb'
    have a0 : 0 ≤ |g.z0| * a := mul_nonneg z0 ha
    have b0 : 0 ≤ |g.rho| * b := mul_nonneg r0 hb
    constructor
    · push_cast
      positivity
    · have m1 : (2 * ((0 : ℕ) : ℝ) + 2 * d + 3) * |g.z0| * a ≤ 2 * ((d : ℝ) + 2) * (3 ^ (d + 1) * t) := by
        rw [mul_assoc]
        exact mul_le_mul (by push_cast; linarith) a1 a0 (by positivity)
      have m2 : (2 * ((0 : ℕ) : ℝ) + d + 1) * |g.rho| * b ≤ ((d : ℝ) + 2) * (3 ^ d * t) := by
        rw [mul_assoc]
        exact mul_le_mul (by push_cast; linarith) b1 b0 (by positivity)
      have m3 : 3 * e ≤ ((d : ℝ) + 2) * (3 / 2 * e) := by nlinarith
      have q : ((2 * ((0 : ℕ) : ℝ) + 2 * d + 3) * |g.z0| * a + (2 * ((0 : ℕ) : ℝ) + d + 1) * |g.rho| * b + 3 * e) /
          ((d : ℝ) + 2) ≤ 2 * (3 ^ (d + 1) * t) + 3 ^ d * t + 3 / 2 * e := by
        rw [div_le_iff₀ (by positivity)]
        refine (add_le_add (add_le_add m1 m2) m3).trans (le_of_eq ?_)
        ring
      have pt : t ≤ 3 ^ d * t := le_mul_of_one_le_left ht p
      rw [pow_add, pow_one] at q
      rw [pow_add]
      linarith
  have key : ∀ d, ((0 ≤ (colS g 0 d).1 ∧ (colS g 0 d).1 ≤ 3 ^ d * |g.v00|) ∧
      (0 ≤ (colS g 0 (d + 1)).1 ∧ (colS g 0 (d + 1)).1 ≤ 3 ^ (d + 1) * |g.v00|)) ∧
      ((0 ≤ (colC g 0 d).1 ∧ (colC g 0 d).1 ≤ 3 ^ d * (2 * eta)) ∧
      (0 ≤ (colC g 0 (d + 1)).1 ∧ (colC g 0 (d + 1)).1 ≤ 3 ^ (d + 1) * (2 * eta))) := by
    intro d
    induction d with
    | zero =>
      simp only [colS, sectS, colC, sectC, pow_zero, one_mul, Nat.cast_zero, mul_zero, zero_add, pow_one]
      refine ⟨⟨⟨v0, le_rfl⟩, mul_nonneg z0 v0, ?_⟩, ⟨le_rfl, by linarith⟩, e0.le, by linarith⟩
      nlinarith
    | succ d ih =>
      refine ⟨⟨ih.1.2, ?_⟩, ih.2.2, ?_⟩
      · have := step d _ _ _ 0 ih.1.2.1 ih.1.1.1 ih.1.2.2 ih.1.1.2 v0 le_rfl (by linarith)
        simpa [colS] using this
      · exact step d _ _ _ eta ih.2.2.1 ih.2.1.1 ih.2.2.2 ih.2.1.2 (by linarith) e0.le (by linarith)
  exact ⟨(key d).1.1, (key d).2.1⟩

/-- **C177.**  Zonal entries outside the sphere, as a plain bound. -/
theorem zonal_error (hr : Nearest rnd) (fl : ℕ → ℕ → ℕ → Bool) {h g : Geo ℝ} (r : GeoRel h g) (hz : |g.z0| ≤ 1)
    (hrho : |g.rho| ≤ 1) (n : ℕ) :
    |(colD rnd fl h 0 n).1 - Verif.Gravity.specV g n 0| ≤
      3 ^ n * ((gam (15 * n + 10) - 1) * |g.v00| + 2 * eta * gam (15 * n + 10)) := by
  have e := (col_error hr fl r 0 n).1.hv
  obtain ⟨⟨-, s⟩, -, c⟩ := zonal_size hz hrho n
  rw [show 13 * 0 + 15 * n + 10 = 15 * n + 10 by omega] at e
  have g1 := gam_one_le (K := ℝ) (15 * n + 10)
  refine e.trans ?_
  have h1 := mul_le_mul_of_nonneg_left s (by linarith : 0 ≤ (gam (15 * n + 10) : ℝ) - 1)
  have h2 := mul_le_mul_of_nonneg_right c (by linarith : 0 ≤ (gam (15 * n + 10) : ℝ))
  linarith

/-! ### Exact entries -/

theorem rq_zero (hr : Nearest rnd) (b : Bool) : rq rnd b 0 = 0 := by
  unfold rq; split_ifs
  · rfl
  · exact hr.zero

/-- **C177.**  For points with `y = 0` every computed `W` is exactly zero, and every `W(n,0)` always. -/
theorem plane_exact (hr : Nearest rnd) (fl : ℕ → ℕ → ℕ → Bool) (h : Geo ℝ) (m d : ℕ) (hy : h.y0 = 0 ∨ m = 0) :
    (colD rnd fl h m d).2 = 0 := by
  have s : (sectD rnd fl h m).2 = 0 := by
    rcases hy with hy | rfl
    · induction m with
      | zero => rfl
      | succ m ih => simp only [sectD, hy, ih, mul_zero, zero_mul, rq_zero hr, add_zero, hr.zero]
    · rfl
  have key : ∀ d, (colD rnd fl h m d).2 = 0 ∧ (colD rnd fl h m (d + 1)).2 = 0 := by
    intro d
    induction d with
    | zero => exact ⟨s, by simp only [colD, s, mul_zero, hr.zero]⟩
    | succ d ih =>
      refine ⟨ih.2, ?_⟩
      simp only [colD, nextD, ih.1, ih.2, mul_zero, rq_zero hr, sub_zero, hr.zero, zero_div]
  exact (key d).1

/-- **C177.**  The general formula of the column, with the factor one, gives the double that the zonal loop starts with. -/
theorem zonal_first (hr : Nearest rnd) (fl : ℕ → ℕ → ℕ → Bool) {h : Geo ℝ} (hz : IsDouble h.z0) :
    colD rnd fl h 0 1 = (rnd (h.z0 * h.v00), 0) := by
  have e : rnd ((2 * ((0 : ℕ) : ℝ) + 1) * h.z0) = h.z0 := by
    rw [Nat.cast_zero, mul_zero, zero_add, one_mul]; exact hr.exact hz
  simp only [colD, e, sectD, mul_zero, hr.zero]

/-- A satellite on the x axis: the hypotheses hold. -/
example (hr : Nearest rnd) (f f' : FuseN) : GeoRel (geoD rnd f f' 7700000 0 0 6378137) (geoX 7700000 0 0 6378137) := by
  have big : ∀ x : ℝ, 1 ≤ x → Big 100 x := fun x h => Or.inr (by
    rw [abs_of_nonneg (by linarith)]
    exact (pow_le_one₀ (by norm_num) (by norm_num)).trans h)
  exact geo_rel hr f f' (big _ (by norm_num)) (Or.inl rfl) (Or.inl rfl) (big _ (by norm_num)) (by norm_num) (by norm_num)

example : |(geoX 7700000 0 0 6378137).rho| ≤ 1 := by
  simp only [geoX]
  rw [abs_of_pos (by positivity)]
  norm_num

end Verif.Float.Recur
