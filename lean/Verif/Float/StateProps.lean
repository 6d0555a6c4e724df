import Verif.Float.StateModel
import Verif.Float.KeplerProps
import Verif.Float.ForceProps
import Verif.Orbit.Model

/-
C179: from the orbital elements to the state in double arithmetic.
-/
namespace Verif.Float.State

open Real
open Verif.Astro (V3 M3 Solves)
open Verif.Float.Gravity (rq)
open Verif.Orbit (perifocalR perifocalV matT)

variable {rnd sn cs : ℝ → ℝ}

/-! ### Values in units of a scale -/

/-- A bound of the relative error of a rounding, with room for numbers near zero. -/
noncomputable def t : ℝ := 12 / 10 ^ 17

/-- `X` is `Y` up to `d` units `s`, and `Y` is at most `A` units. -/
structure Nr (s d A X Y : ℝ) : Prop where
  err : |X - Y| ≤ d * s
  size : |Y| ≤ A * s

/-- A unit. -/
def Unit (s : ℝ) : Prop := 1 / 2 ^ 200 ≤ s

theorem Unit.pos {s : ℝ} (h : Unit s) : 0 < s := lt_of_lt_of_le (by positivity) h

theorem unit_one : Unit 1 := by unfold Unit; norm_num

theorem Nr.weaken {s d A d' A' X Y : ℝ} (h : Nr s d A X Y) (hs : Unit s) (hd : d ≤ d') (hA : A ≤ A') :
    Nr s d' A' X Y :=
  ⟨h.err.trans (mul_le_mul_of_nonneg_right hd hs.pos.le), h.size.trans (mul_le_mul_of_nonneg_right hA hs.pos.le)⟩

theorem Nr.resize {s d A A' X Y : ℝ} (h : Nr s d A X Y) (hY : |Y| ≤ A' * s) : Nr s d A' X Y := ⟨h.err, hY⟩

theorem Nr.neg {s d A X Y : ℝ} (h : Nr s d A X Y) : Nr s d A (-X) (-Y) :=
  ⟨by rw [← neg_sub', abs_neg]; exact h.err, by rw [abs_neg]; exact h.size⟩

theorem Nr.add {s d d' A A' X X' Y Y' : ℝ} (h : Nr s d A X Y) (h' : Nr s d' A' X' Y') :
    Nr s (d + d') (A + A') (X + X') (Y + Y') := by
  refine ⟨?_, (abs_add_le _ _).trans (by linarith [h.size, h'.size])⟩
  rw [show X + X' - (Y + Y') = (X - Y) + (X' - Y') by ring]
  exact (abs_add_le _ _).trans (by linarith [h.err, h'.err])

theorem Nr.sub {s d d' A A' X X' Y Y' : ℝ} (h : Nr s d A X Y) (h' : Nr s d' A' X' Y') :
    Nr s (d + d') (A + A') (X - X') (Y - Y') := by
  rw [sub_eq_add_neg, sub_eq_add_neg]; exact h.add h'.neg

theorem Nr.mul {s d d' A B X X' Y Y' : ℝ} (h : Nr s d A X X') (h' : Nr 1 d' B Y Y') (hs : Unit s)
    (hd : d ≤ 1 / 1000) : Nr s (d * B + (A + 1 / 1000) * d') (A * B) (X * Y) (X' * Y') := by
  have s0 := hs.pos
  have e' : |Y - Y'| ≤ d' := by simpa using h'.err
  have b' : |Y'| ≤ B := by simpa using h'.size
  have d0 : 0 ≤ d' := (abs_nonneg _).trans e'
  have hX : |X| ≤ (A + 1 / 1000) * s := by
    have := abs_add_le (X - X') X'
    rw [sub_add_cancel] at this
    have := mul_le_mul_of_nonneg_right hd s0.le
    linarith [h.err, h.size]
  constructor
  · rw [show X * Y - X' * Y' = (X - X') * Y' + X * (Y - Y') by ring]
    refine (abs_add_le _ _).trans ?_
    rw [abs_mul, abs_mul]
    have h1 := mul_le_mul h.err b' (abs_nonneg _) ((abs_nonneg _).trans h.err)
    have h2 := mul_le_mul hX e' (abs_nonneg _) ((abs_nonneg _).trans hX)
    linarith
  · rw [abs_mul]
    have := mul_le_mul h.size b' (abs_nonneg _) ((abs_nonneg _).trans h.size)
    linarith

theorem Nr.round (hr : Nearest rnd) {s d A X Y : ℝ} (h : Nr s d A X Y) (hs : Unit s) (hd : d ≤ 1 / 1000) (hA : 1 ≤ A) :
    Nr s (d + (A + 1 / 1000) * t) A (rnd X) Y := by
  have s0 := hs.pos
  refine ⟨?_, h.size⟩
  have e := hr.err_both X
  have hX : |X| ≤ (A + 1 / 1000) * s := by
    have := abs_add_le (X - Y) Y
    rw [sub_add_cancel] at this
    have := mul_le_mul_of_nonneg_right hd s0.le
    linarith [h.err, h.size]
  have un_le : (un : ℝ) ≤ 112 / 10 ^ 18 := by unfold un; norm_num
  have eta_le : (eta : ℝ) ≤ 8 / 10 ^ 18 * (1 / 2 ^ 200) := by
    have : (eta : ℝ) = (2 : ℝ) ^ (-1074 : ℤ) / 2 := rfl
    rw [this]
    have : (2 : ℝ) ^ (-1074 : ℤ) ≤ 2 ^ (-300 : ℤ) := zpow_le_zpow_right₀ (by norm_num) (by norm_num)
    have h3 : (2 : ℝ) ^ (-300 : ℤ) / 2 ≤ 8 / 10 ^ 18 * (1 / 2 ^ 200) := by
      have : (2 : ℝ) ^ (-300 : ℤ) = 1 / 2 ^ 200 * (1 / 2 ^ 100) := by
        rw [one_div_mul_one_div, ← pow_add, zpow_neg, one_div]; norm_cast
      rw [this]
      have h4 : (0 : ℝ) < 1 / 2 ^ 200 := by positivity
      generalize (1 : ℝ) / 2 ^ 200 = w at *
      have h5 : (1 : ℝ) / 2 ^ 100 ≤ 8 / 10 ^ 18 := by norm_num
      have := mul_le_mul_of_nonneg_left h5 h4.le
      linarith
    linarith
  have un0 : (0 : ℝ) ≤ un := un_pos.le
  generalize (un : ℝ) = w at *
  generalize (eta : ℝ) = n at *
  unfold Unit at hs
  have h1 : w * |X| ≤ 112 / 10 ^ 18 * ((A + 1 / 1000) * s) := mul_le_mul un_le hX (abs_nonneg _) (by norm_num)
  have h2 : n ≤ 8 / 10 ^ 18 * s := eta_le.trans (mul_le_mul_of_nonneg_left hs (by norm_num))
  have h3 : s ≤ (A + 1 / 1000) * s := le_mul_of_one_le_left s0.le (by linarith)
  have h4 := abs_add_le (rnd X - X) (X - Y)
  rw [sub_add_sub_cancel] at h4
  have h5 := h.err
  unfold t
  rw [show (d + (A + 1 / 1000) * (12 / 10 ^ 17)) * s = d * s + 12 / 10 ^ 17 * ((A + 1 / 1000) * s) by ring]
  clear hs eta_le hX hd
  generalize (A + 1 / 1000) * s = p at *
  linarith

theorem Nr.rq (hr : Nearest rnd) (b : Bool) {s d A X Y : ℝ} (h : Nr s d A X Y) (hs : Unit s) (hd : d ≤ 1 / 1000)
    (hA : 1 ≤ A) : Nr s (d + (A + 1 / 1000) * t) A (rq rnd b X) Y := by
  unfold Gravity.rq
  split_ifs
  · exact h.weaken hs (by unfold t; linarith) le_rfl
  · exact h.round hr hs hd hA

/-! ### The parts -/

theorem leaf {s : ℝ} (hs : Unit s) : Nr s 0 1 s s := ⟨by simp, by rw [one_mul, abs_of_pos hs.pos]⟩

theorem trig (hl : LibM sn cs) (x : ℝ) : Nr 1 t 1 (cs x) (cos x) ∧ Nr 1 t 1 (sn x) (sin x) := by
  have h : (2 : ℝ) ^ (-53 : ℤ) ≤ t * 1 := by unfold t; norm_num
  exact ⟨⟨(hl.cos_err x).trans h, by simpa using abs_cos_le_one x⟩,
    ⟨(hl.sin_err x).trans h, by simpa using abs_sin_le_one x⟩⟩

/-- Sine and cosine of an inexact anomaly. -/
theorem trigE (hl : LibM sn cs) {E r ε : ℝ} (h : |E - r| ≤ ε) :
    Nr 1 (ε + t) 1 (cs E) (cos r) ∧ Nr 1 (ε + t) 1 (sn E) (sin r) := by
  have c : |cos E - cos r| ≤ |E - r| := Real.abs_cos_sub_cos_le E r
  have s : |sin E - sin r| ≤ |E - r| := Real.abs_sin_sub_sin_le E r
  obtain ⟨hc, hs⟩ := trig hl E
  have c1 := hc.err
  have s1 := hs.err
  have c2 := abs_add_le (cs E - cos E) (cos E - cos r)
  have s2 := abs_add_le (sn E - sin E) (sin E - sin r)
  rw [sub_add_sub_cancel] at c2 s2
  exact ⟨⟨by linarith, by simpa using abs_cos_le_one r⟩, ⟨by linarith, by simpa using abs_sin_le_one r⟩⟩

theorem u_le_t : u ≤ t := u_le.trans (by unfold t; norm_num)

/-- The square root of `1 - e²`. -/
theorem root_nr (hr : Nearest rnd) {e : ℝ} (h0 : 0 ≤ e) (h1 : e ≤ 17 / 20) :
    Nr 1 (8 * t) 1 (rootD rnd e) √((1 - e) * (1 + e)) := by
  have big : ∀ x : ℝ, 1 / 16 ≤ x → Big 1000 x := fun x hx => by
    have : Big 4 x := Or.inr (by rw [abs_of_nonneg (by linarith)]; norm_num; linarith)
    exact this.mono (by norm_num)
  have a := (Rel.refl (1 - e)).rb hr (by omega) (big _ (by linarith))
  have b := (Rel.refl (1 + e)).rb hr (by omega) (big _ (by linarith))
  have p1 : 1 / 16 ≤ (1 - e) * (1 + e) := by nlinarith
  have p2 : (1 - e) * (1 + e) ≤ 1 := by nlinarith
  have c := (a.mul b).rb hr (by omega) (big _ p1)
  have q : 1 / 16 ≤ √((1 - e) * (1 + e)) := Real.le_sqrt_of_sq_le (by linarith)
  have d := (c.sqrt.rb hr (by omega) (big _ q)).mono (n := 4) (by omega)
  have q2 : √((1 - e) * (1 + e)) ≤ 1 := Real.sqrt_le_one.2 p2
  have e1 := d.err ((mul_u_le (by norm_num)).trans (by norm_num))
  rw [abs_of_nonneg (Real.sqrt_nonneg _)] at e1
  refine ⟨e1.trans ?_, by rw [abs_of_nonneg (Real.sqrt_nonneg _)]; linarith⟩
  have k1 := u_le_t
  have k2 := u_pos
  have : 2 * ((4 : ℕ) : ℝ) * u * √((1 - e) * (1 + e)) ≤ 2 * ((4 : ℕ) : ℝ) * u * 1 :=
    mul_le_mul_of_nonneg_left q2 (by positivity)
  push_cast at this ⊢
  linarith

/-- The perifocal position. -/
theorem rf_nr (hr : Nearest rnd) (hl : LibM sn cs) {a e E r ε : ℝ} (ha : Unit a) (h0 : 0 ≤ e) (h1 : e ≤ 17 / 20)
    (hE : |E - r| ≤ ε) (hε : ε ≤ 1 / 10 ^ 6) :
    Nr a (1001 / 1000 * ε + 48 / 10 * t) (37 / 20) (rfD rnd sn cs a e E).1 (a * (cos r - e)) ∧
      Nr a (1001 / 1000 * ε + 111 / 10 * t) 1 (rfD rnd sn cs a e E).2 (a * √((1 - e) * (1 + e)) * sin r) := by
  obtain ⟨c, s⟩ := trigE hl hE
  have ε0 := (abs_nonneg _).trans hE
  have f := root_nr hr h0 h1
  have le : Nr 1 0 (17 / 20) e e := ⟨by simp, by rw [abs_of_nonneg h0]; linarith⟩
  have L := leaf ha
  constructor
  · have q := (c.sub le).round hr unit_one (by unfold t; linarith) (by norm_num)
    have x := L.mul q ha (by norm_num)
    exact (x.round hr ha (by unfold t; linarith) (by norm_num)).weaken ha (by unfold t; linarith) (by norm_num)
  · have x := (L.mul f ha (by norm_num)).round hr ha (by unfold t; linarith) (by norm_num)
    have y := (x.mul s ha (by unfold t; linarith)).round hr ha (by unfold t; linarith) (by norm_num)
    exact y.weaken ha (by unfold t; linarith) (by norm_num)

/-- The size of the velocity. -/
theorem vmag_nr (hr : Nearest rnd) (hl : LibM sn cs) (b : Bool) {GM a e E r ε : ℝ} (hG : 1 / 2 ^ 100 ≤ GM)
    (ha : 1 / 2 ^ 100 ≤ a) (ha' : a ≤ 2 ^ 100) (h0 : 0 ≤ e) (h1 : e ≤ 17 / 20)
    (hE : |E - r| ≤ ε) (hε : ε ≤ 1 / 10 ^ 6) :
    Unit (√(GM * a) / a) ∧ Nr (√(GM * a) / a) (386 / 10 * ε + 230 * t) (20 / 3) (vmagD rnd cs b GM a e E)
      (√(GM * a) / (a * (1 - e * cos r))) := by
  obtain ⟨c, -⟩ := trigE hl hE
  have ε0 := (abs_nonneg _).trans hE
  have a0 : 0 < a := lt_of_lt_of_le (by positivity) ha
  have G0 : 0 < GM := lt_of_lt_of_le (by positivity) hG
  have q1 : 1 / 2 ^ 100 ≤ √(GM * a) := by
    refine Real.le_sqrt_of_sq_le ?_
    rw [sq]
    exact mul_le_mul hG ha (by positivity) G0.le
  have U : Unit (√(GM * a) / a) := by
    unfold Unit
    rw [le_div_iff₀ a0]
    have : 1 / 2 ^ 200 * a ≤ 1 / 2 ^ 200 * 2 ^ 100 := mul_le_mul_of_nonneg_left ha' (by positivity)
    refine this.trans (le_trans (le_of_eq ?_) q1)
    rw [show (2 : ℝ) ^ 200 = 2 ^ 100 * 2 ^ 100 by rw [← pow_add]]
    field_simp
  refine ⟨U, ?_⟩
  have le : Nr 1 0 (17 / 20) e e := ⟨by simp, by rw [abs_of_nonneg h0]; linarith⟩
  have one : Nr 1 0 1 (1 : ℝ) 1 := leaf unit_one
  have p := ((le.mul c unit_one (by norm_num)).weaken unit_one le_rfl (by norm_num : _ ≤ (1 : ℝ))).rq hr b unit_one
    (by unfold t; linarith) le_rfl
  have g := ((one.sub p).round hr unit_one (by unfold t; linarith) (by norm_num)).weaken (d' := 86 / 100 * ε + 39 / 10 * t)
    unit_one (by unfold t; linarith) le_rfl
  have gX : 3 / 20 ≤ 1 - e * cos r := by
    have := (abs_le.1 (abs_cos_le_one r)).2
    nlinarith
  have ge := g.err
  unfold vmagD
  generalize hg : rnd (1 - Gravity.rq rnd b (e * cs E)) = gD at *
  rw [mul_one] at ge
  have dsm : 86 / 100 * ε + 39 / 10 * t ≤ 1 / 1000 := by unfold t; linarith
  have gD1 : 149 / 1000 ≤ gD := by
    have := (abs_le.1 ge).1
    linarith
  -- the reciprocal
  have inv : Nr 1 (385 / 10 * ε + 175 * t) (20 / 3) gD⁻¹ (1 - e * cos r)⁻¹ := by
    have gp : 0 < gD := by linarith
    have xp : 0 < 1 - e * cos r := by linarith
    constructor
    · rw [inv_sub_inv gp.ne' xp.ne', abs_div, abs_of_pos (mul_pos gp xp), div_le_iff₀ (mul_pos gp xp), abs_sub_comm]
      have : 149 / 1000 * (3 / 20) ≤ gD * (1 - e * cos r) := mul_le_mul gD1 gX (by norm_num) gp.le
      have d0 : 0 ≤ (385 / 10 * ε + 175 * t) * 1 := by unfold t; linarith
      have := mul_le_mul_of_nonneg_left this d0
      refine ge.trans (le_trans ?_ this)
      unfold t; linarith
    · rw [abs_of_pos (inv_pos.2 xp), mul_one]
      rw [inv_le_comm₀ xp (by norm_num)]
      linarith
  have w := ((leaf U).mul inv U (by norm_num)).weaken (A' := 20 / 3) U le_rfl (by norm_num)
  -- the roundings
  have bigp : ∀ (n : ℕ) (x : ℝ), n ≤ 1000 → (1 / 2) ^ n ≤ x → Big 1000 x := fun n x hn hx => by
    have x0 : (0 : ℝ) ≤ x := le_trans (by positivity) hx
    have : Big n x := Or.inr (by rw [abs_of_nonneg x0]; exact hx)
    exact this.mono hn
  have half : ∀ n : ℕ, (1 / 2 : ℝ) ^ n = 1 / 2 ^ n := fun n => by rw [div_pow, one_pow]
  have r1 := (Rel.refl (GM * a)).rb hr (by omega) (bigp 200 _ (by omega) (by
    rw [half, show (2 : ℝ) ^ 200 = 2 ^ 100 * 2 ^ 100 by rw [← pow_add], ← one_div_mul_one_div]
    exact mul_le_mul hG ha (by positivity) G0.le))
  have r2 := r1.sqrt.rb hr (by omega) (bigp 100 _ (by omega) (by rw [half]; exact q1))
  have r3 := (Rel.refl (a * gD)).rb hr (by omega) (bigp 103 _ (by omega) (by
    rw [half, show (2 : ℝ) ^ 103 = 2 ^ 100 * 8 by norm_num, ← one_div_mul_one_div]
    exact mul_le_mul ha (by linarith) (by positivity) a0.le))
  have gp : 0 < gD := by linarith
  have eq : √(GM * a) / (a * gD) = √(GM * a) / a * gD⁻¹ := by rw [div_mul_eq_div_div]; rfl
  have gD2 : gD ≤ 2 := by
    have := (abs_le.1 ge).2
    have := (abs_le.1 (abs_cos_le_one r)).1
    nlinarith
  have r4 := (r2.div r3).rb hr (by omega) (by
    rw [eq]
    refine bigp 201 _ (by omega) ?_
    rw [half, show (2 : ℝ) ^ 201 = 2 ^ 200 * 2 by norm_num, ← one_div_mul_one_div]
    exact mul_le_mul U (by rw [le_inv_comm₀ (by norm_num) gp]; linarith) (by positivity) U.pos.le)
  have r5 := (r4.mono (n := 4) (by omega)).err ((mul_u_le (by norm_num)).trans (by norm_num))
  rw [eq] at r5
  have X : √(GM * a) / (a * (1 - e * cos r)) = √(GM * a) / a * (1 - e * cos r)⁻¹ := by rw [div_mul_eq_div_div]; rfl
  rw [X]
  refine ⟨?_, w.size⟩
  have v0 := U.pos
  generalize √(GM * a) / a = v at *
  have gi : gD⁻¹ ≤ 672 / 100 := by rw [inv_le_comm₀ gp (by norm_num)]; linarith
  have i0 : 0 < v * gD⁻¹ := mul_pos v0 (inv_pos.2 gp)
  rw [abs_of_pos i0] at r5
  have k1 : 2 * ((4 : ℕ) : ℝ) * u * (v * gD⁻¹) ≤ 8 * t * (v * (672 / 100)) := by
    refine mul_le_mul ?_ (mul_le_mul_of_nonneg_left gi v0.le) i0.le (by unfold t; norm_num)
    have := u_le_t
    push_cast; linarith
  have k2 := abs_sub_le (rnd (rnd √(rnd (GM * a)) / rnd (a * gD))) (v * gD⁻¹) (v * (1 - e * cos r)⁻¹)
  have k3 := w.err
  have k4 : 8 * t * (v * (672 / 100)) + (0 * (20 / 3) + (1 + 1 / 1000) * (385 / 10 * ε + 175 * t)) * v ≤
      (386 / 10 * ε + 230 * t) * v := by
    rw [show 8 * t * (v * (672 / 100)) + (0 * (20 / 3) + (1 + 1 / 1000) * (385 / 10 * ε + 175 * t)) * v =
      (8 * t * (672 / 100) + (1 + 1 / 1000) * (385 / 10 * ε + 175 * t)) * v by ring]
    refine mul_le_mul_of_nonneg_right ?_ v0.le
    unfold t; linarith
  linarith

/-- The perifocal velocity. -/
theorem vf_nr (hr : Nearest rnd) (hl : LibM sn cs) (b : Bool) {GM a e E r ε : ℝ} (hG : 1 / 2 ^ 100 ≤ GM)
    (ha : 1 / 2 ^ 100 ≤ a) (ha' : a ≤ 2 ^ 100) (h0 : 0 ≤ e) (h1 : e ≤ 17 / 20)
    (hE : |E - r| ≤ ε) (hε : ε ≤ 1 / 10 ^ 6) :
    Nr (√(GM * a) / a) (453 / 10 * ε + 244 * t) (20 / 3) (vfD rnd sn cs b GM a e E).1
        (-(√(GM * a) / (a * (1 - e * cos r))) * sin r) ∧
      Nr (√(GM * a) / a) (453 / 10 * ε + 305 * t) (20 / 3) (vfD rnd sn cs b GM a e E).2
        (√(GM * a) / (a * (1 - e * cos r)) * √((1 - e) * (1 + e)) * cos r) := by
  obtain ⟨c, s⟩ := trigE hl hE
  have ε0 := (abs_nonneg _).trans hE
  have f := root_nr hr h0 h1
  obtain ⟨U, v⟩ := vmag_nr hr hl b hG ha ha' h0 h1 hE hε
  constructor
  · exact ((v.neg.mul s U (by unfold t; linarith)).round hr U (by unfold t; linarith) (by norm_num)).weaken U
      (by unfold t; linarith) (by norm_num)
  · have x := (v.mul f U (by unfold t; linarith)).round hr U (by unfold t; linarith) (by norm_num)
    exact ((x.mul c U (by unfold t; linarith)).round hr U (by unfold t; linarith) (by norm_num)).weaken U
      (by unfold t; linarith) (by norm_num)

/-! ### The rotation -/

/-- Two columns of a row of the exact matrix. -/
noncomputable def rowX (O o i : ℝ) : Ax → ℝ × ℝ
  | .x => (cos O * cos o - sin O * sin o * cos i, -cos O * sin o - sin O * cos o * cos i)
  | .y => (sin O * cos o + cos O * sin o * cos i, -sin O * sin o + cos O * cos o * cos i)
  | .z => (sin o * sin i, cos o * sin i)

theorem abs_le_one_of_sq {x : ℝ} (h : x ^ 2 ≤ 1) : |x| ≤ 1 := by
  rwa [← sq_abs, sq_le_one_iff₀ (abs_nonneg x)] at h

theorem unit_dot {c s x y : ℝ} (h : c ^ 2 + s ^ 2 = 1) (h' : x ^ 2 + y ^ 2 ≤ 1) : |c * x + s * y| ≤ 1 * 1 := by
  rw [mul_one]
  refine abs_le_one_of_sq ?_
  have : (c * x + s * y) ^ 2 + (c * y - s * x) ^ 2 = (c ^ 2 + s ^ 2) * (x ^ 2 + y ^ 2) := by ring
  rw [h, one_mul] at this
  nlinarith [sq_nonneg (c * y - s * x)]

theorem part_le (x y : ℝ) : cos x ^ 2 + (sin x * cos y) ^ 2 ≤ 1 ∧ sin x ^ 2 + (cos x * cos y) ^ 2 ≤ 1 := by
  have h := sin_sq_add_cos_sq x
  have k := cos_sq_le_one y
  constructor
  · rw [mul_pow]; nlinarith [sq_nonneg (sin x)]
  · rw [mul_pow]; nlinarith [sq_nonneg (cos x)]

/-- Every entry of the matrix is right to eleven units. -/
theorem row_nr (hr : Nearest rnd) (hl : LibM sn cs) (fl : ℕ → Bool) (O o i : ℝ) (w : Ax) :
    Nr 1 (11 * t) 1 (rowD rnd sn cs fl O o i w).1 (rowX O o i w).1 ∧
      Nr 1 (11 * t) 1 (rowD rnd sn cs fl O o i w).2 (rowX O o i w).2 := by
  obtain ⟨cO, sO⟩ := trig hl O
  obtain ⟨co, so⟩ := trig hl o
  obtain ⟨ci, si⟩ := trig hl i
  have two : ∀ {p q p' q' : ℝ} (b : Bool), Nr 1 t 1 p p' → Nr 1 t 1 q q' →
      Nr 1 (301 / 100 * t) 1 (Gravity.rq rnd b (p * q)) (p' * q') := fun b hp hq =>
    ((hp.mul hq unit_one (by unfold t; norm_num)).rq hr b unit_one (by unfold t; norm_num) (by norm_num)).weaken unit_one
      (by unfold t; norm_num) (by norm_num)
  have three : ∀ {p q w p' q' w' : ℝ} (b : Bool), Nr 1 t 1 p p' → Nr 1 t 1 q q' → Nr 1 t 1 w w' →
      Nr 1 (503 / 100 * t) 1 (Gravity.rq rnd b (rnd (p * q) * w)) (p' * q' * w') := fun b hp hq hw =>
    (((two false hp hq).mul hw unit_one (by unfold t; norm_num)).rq hr b unit_one (by unfold t; norm_num)
      (by norm_num)).weaken unit_one (by unfold t; norm_num) (by norm_num)
  have plus : ∀ {p q p' q' : ℝ}, Nr 1 (301 / 100 * t) 1 p p' → Nr 1 (503 / 100 * t) 1 q q' →
      Nr 1 (11 * t) 2 (rnd (p + q)) (p' + q') := fun hp hq =>
    ((hp.add hq).round hr unit_one (by unfold t; norm_num) (by norm_num)).weaken unit_one (by unfold t; norm_num)
      (by norm_num)
  have minus : ∀ {p q p' q' : ℝ}, Nr 1 (301 / 100 * t) 1 p p' → Nr 1 (503 / 100 * t) 1 q q' →
      Nr 1 (11 * t) 2 (rnd (p - q)) (p' - q') := fun hp hq =>
    ((hp.sub hq).round hr unit_one (by unfold t; norm_num) (by norm_num)).weaken unit_one (by unfold t; norm_num)
      (by norm_num)
  have hO : cos O ^ 2 + sin O ^ 2 = 1 := by linarith [sin_sq_add_cos_sq O]
  have hO' : sin O ^ 2 + cos O ^ 2 = 1 := sin_sq_add_cos_sq O
  have P := part_le o i
  cases w with
  | x =>
    refine ⟨(minus (two _ cO co) (three _ sO so ci)).resize ?_, (minus (two _ cO.neg so) (three _ sO co ci)).resize ?_⟩
    · have := unit_dot hO (x := cos o) (y := -(sin o * cos i)) (by rw [neg_sq]; exact P.1)
      rwa [show cos O * cos o + sin O * -(sin o * cos i) = cos O * cos o - sin O * sin o * cos i by ring] at this
    · have := unit_dot hO (x := -sin o) (y := -(cos o * cos i)) (by rw [neg_sq, neg_sq]; exact P.2)
      rwa [show cos O * -sin o + sin O * -(cos o * cos i) = -cos O * sin o - sin O * cos o * cos i by ring] at this
  | y =>
    refine ⟨(plus (two _ sO co) (three _ cO so ci)).resize ?_, (plus (two _ sO.neg so) (three _ cO co ci)).resize ?_⟩
    · have := unit_dot hO' (x := cos o) (y := sin o * cos i) P.1
      rwa [show sin O * cos o + cos O * (sin o * cos i) = sin O * cos o + cos O * sin o * cos i by ring] at this
    · have := unit_dot hO' (x := -sin o) (y := cos o * cos i) (by rw [neg_sq]; exact P.2)
      rwa [show sin O * -sin o + cos O * (cos o * cos i) = -sin O * sin o + cos O * cos o * cos i by ring] at this
  | z =>
    exact ⟨(two false so si).weaken unit_one (by unfold t; norm_num) le_rfl,
      (two false co si).weaken unit_one (by unfold t; norm_num) le_rfl⟩

/-- The product with the matrix. -/
theorem rot_nr (hr : Nearest rnd) (b b' : Bool) {s d d' A B : ℝ} {T T' v v' : ℝ × ℝ} (hs : Unit s)
    (h1 : Nr 1 (11 * t) 1 T.1 T'.1) (h2 : Nr 1 (11 * t) 1 T.2 T'.2) (v1 : Nr s d A v.1 v'.1) (v2 : Nr s d' B v.2 v'.2)
    (hd : d ≤ 1 / 10000) (hd' : d' ≤ 1 / 10000) (hA : 1 ≤ A) (hB : 1 ≤ B) (hA' : A ≤ 20) (hB' : B ≤ 20) :
    Nr s (d + d' + (A + B) * (131 / 10 * t)) (A + B) (rotD rnd b b' T v) (T'.1 * v'.1 + T'.2 * v'.2) := by
  have p := ((v1.mul h1 hs (by linarith)).weaken (d' := d + (A + 1 / 1000) * (11 * t)) (A' := A) hs (by linarith)
    (by linarith)).rq hr b hs (by unfold t; linarith) hA
  have q := ((v2.mul h2 hs (by linarith)).weaken (d' := d' + (B + 1 / 1000) * (11 * t)) (A' := B) hs (by linarith)
    (by linarith)).rq hr b' hs (by unfold t; linarith) hB
  have r := (p.add q).round hr hs (by unfold t; linarith) (by linarith)
  unfold rotD
  rw [mul_comm T.1, mul_comm T.2, mul_comm T'.1, mul_comm T'.2]
  exact r.weaken hs (by unfold t; linarith) le_rfl

/-! ### The properties -/

/-- A row of the matrix times a vector without third component. -/
theorem row_mul (O o i : ℝ) (v : V3) (hv : v.z = 0) (w : Ax) :
    w.of ((matT O o i).mulVec v) = (rowX O o i w).1 * v.x + (rowX O o i w).2 * v.y := by
  cases w <;> simp [Ax.of, M3.mulVec, V3.dot, matT, rowX, hv]

/-- **C179.**  The position: for an eccentric anomaly that is right to `ε`, every component is right to `2.01 ε + 6.4e-15`
semi-major axes. -/
theorem pos_error (hr : Nearest rnd) (hl : LibM sn cs) (fl : ℕ → Bool) {a e E r ε : ℝ} (i O o : ℝ) (w : Ax)
    (ha : 1 / 2 ^ 100 ≤ a) (h0 : 0 ≤ e) (h1 : e ≤ 17 / 20) (hE : |E - r| ≤ ε) (hε : ε ≤ 1 / 10 ^ 6) :
    |posD rnd sn cs fl a e i O o E w - w.of ((matT O o i).mulVec (perifocalR a e r))| ≤
      (201 / 100 * ε + 64 / 10 ^ 16) * a := by
  have U : Unit a := le_trans (one_div_le_one_div_of_le (by positivity) (pow_le_pow_right₀ (by norm_num) (by norm_num))) ha
  have ε0 := (abs_nonneg _).trans hE
  obtain ⟨p, q⟩ := rf_nr hr hl U h0 h1 hE hε
  obtain ⟨m, n⟩ := row_nr hr hl fl O o i w
  have k := (rot_nr hr (fl 8) (fl 9) (v' := (a * (cos r - e), a * √((1 - e) * (1 + e)) * sin r)) U m n p q
    (by unfold t; linarith) (by unfold t; linarith) (by norm_num) (by norm_num) (by norm_num) (by norm_num)).err
  rw [row_mul O o i (perifocalR a e r) rfl]
  refine k.trans (mul_le_mul_of_nonneg_right ?_ U.pos.le)
  unfold t; linarith

/-- **C179.**  The velocity, in units of the mean velocity `√(GM/a)`. -/
theorem vel_error (hr : Nearest rnd) (hl : LibM sn cs) (fl : ℕ → Bool) {GM a e E r ε : ℝ} (i O o : ℝ) (w : Ax)
    (hG : 1 / 2 ^ 100 ≤ GM) (ha : 1 / 2 ^ 100 ≤ a) (ha' : a ≤ 2 ^ 100) (h0 : 0 ≤ e) (h1 : e ≤ 17 / 20)
    (hE : |E - r| ≤ ε) (hε : ε ≤ 1 / 10 ^ 6) :
    |velD rnd sn cs fl GM a e i O o E w - w.of ((matT O o i).mulVec (perifocalV GM a e r))| ≤
      (91 * ε + 88 / 10 ^ 15) * (√(GM * a) / a) := by
  have U := (vmag_nr hr hl (fl 12) hG ha ha' h0 h1 hE hε).1
  have ε0 := (abs_nonneg _).trans hE
  obtain ⟨p, q⟩ := vf_nr hr hl (fl 12) hG ha ha' h0 h1 hE hε
  obtain ⟨m, n⟩ := row_nr hr hl fl O o i w
  have k := (rot_nr hr (fl 10) (fl 11) (v' := (-(√(GM * a) / (a * (1 - e * cos r))) * sin r,
    √(GM * a) / (a * (1 - e * cos r)) * √((1 - e) * (1 + e)) * cos r)) U m n p q
    (by unfold t; linarith) (by unfold t; linarith) (by norm_num) (by norm_num) (by norm_num) (by norm_num)).err
  rw [row_mul O o i (perifocalV GM a e r) rfl]
  refine k.trans (mul_le_mul_of_nonneg_right ?_ U.pos.le)
  unfold t; linarith

/-- **C179.**  The mean anomaly: one rounding of the one given and eleven of the motion since the epoch. -/
theorem mean_error (hr : Nearest rnd) (b : Bool) {GM a : ℝ} (M0 dt : ℝ) (hG : 1 / 2 ^ 100 ≤ GM) (ha : 1 / 2 ^ 100 ≤ a)
    (ha' : a ≤ 2 ^ 100) :
    |meanD rnd b GM a M0 dt - (M0 + √(GM / (a * a * a)) * dt)| ≤
      t * |M0| + 11 * t * |√(GM / (a * a * a)) * dt| + 3 * eta := by
  have half : (1 / 2 : ℝ) ^ 100 = 1 / 2 ^ 100 := by rw [div_pow, one_pow]
  have a0 : 0 < a := lt_of_lt_of_le (by positivity) ha
  have G0 : 0 < GM := lt_of_lt_of_le (by positivity) hG
  have bG : Big 100 GM := Or.inr (by rw [abs_of_pos G0, half]; exact hG)
  have ba : Big 100 a := Or.inr (by rw [abs_of_pos a0, half]; exact ha)
  have c1 : |a * a * a| ≤ 2 ^ 300 := by
    rw [abs_of_pos (by positivity), show (2 : ℝ) ^ 300 = 2 ^ 100 * 2 ^ 100 * 2 ^ 100 by rw [← pow_add, ← pow_add]]
    gcongr
  have bq : Big 400 (GM / (a * a * a)) := bG.div c1 (by positivity)
  have r1 := ((Rel.refl a).mul (Rel.refl a)).rb hr (by omega) ((ba.mul ba).mono (by norm_num))
  have r2 := (r1.mul (Rel.refl a)).rb hr (by omega) (((ba.mul ba).mul ba).mono (by norm_num))
  have r3 := ((Rel.refl GM).div r2).rb hr (by omega) (bq.mono (by norm_num))
  have r4 := (r3.sqrt.rb hr (by omega) ((bq.sqrt (by positivity)).mono (by norm_num))).mono (n := 4) (by omega)
  have e1 := (r4.mul (Rel.refl dt)).err ((mul_u_le (by norm_num)).trans (by norm_num))
  unfold meanD
  generalize rnd √(rnd (GM / rnd (rnd (a * a) * a))) * dt = p at *
  generalize √(GM / (a * a * a)) * dt = P at *
  have ut := u_le_t
  have u0 := u_pos
  have P0 := abs_nonneg P
  have un_t : (un : ℝ) ≤ t := by unfold un t; norm_num
  have un0 : (0 : ℝ) ≤ un := un_pos.le
  have e0 := eta_pos (K := ℝ)
  have e2 : |p - P| ≤ 8 * t * |P| := by
    refine e1.trans (mul_le_mul_of_nonneg_right ?_ P0)
    push_cast; linarith
  have tle : t ≤ 1 / 10 ^ 15 := by unfold t; norm_num
  have t0 : 0 ≤ t := un0.trans un_t
  have s1 : |p| ≤ 1001 / 1000 * |P| := by
    have := abs_add_le (p - P) P
    rw [sub_add_cancel] at this
    have := mul_le_mul_of_nonneg_right tle P0
    linarith
  have e3 : |Gravity.rq rnd b p - p| ≤ 1001 / 1000 * (t * |P|) + eta := by
    unfold Gravity.rq
    split_ifs
    · rw [sub_self, abs_zero]; positivity
    · refine (hr.err_both p).trans (add_le_add_left ?_ _)
      refine (mul_le_mul un_t s1 (abs_nonneg _) t0).trans (le_of_eq (by ring))
  generalize Gravity.rq rnd b p = q at *
  have tP : t * |P| ≤ 1 / 10 ^ 15 * |P| := mul_le_mul_of_nonneg_right tle P0
  have s2 : |q| ≤ 1002 / 1000 * |P| + eta := by
    have := abs_add_le (q - p) p
    rw [sub_add_cancel] at this
    linarith
  have e4 := hr.err_both (M0 + q)
  have s3 : |M0 + q| ≤ |M0| + (1002 / 1000 * |P| + eta) := (abs_add_le _ _).trans (by linarith)
  have e5 : un * |M0 + q| ≤ t * (|M0| + (1002 / 1000 * |P| + eta)) := mul_le_mul un_t s3 (abs_nonneg _) t0
  have te : t * eta ≤ eta := mul_le_of_le_one_left e0.le (tle.trans (by norm_num))
  have f := abs_add_three (rnd (M0 + q) - (M0 + q)) (q - p) (p - P)
  rw [show rnd (M0 + q) - (M0 + q) + (q - p) + (p - P) = rnd (M0 + q) - (M0 + P) by ring] at f
  have tP0 : 0 ≤ t * |P| := mul_nonneg t0 P0
  clear c1 bq bG ba half hG ha ha' r1 r2 r3 r4 e1 s1 s2 s3 tP
  rw [mul_add, mul_add, show t * (1002 / 1000 * |P|) = 1002 / 1000 * (t * |P|) by ring] at e5
  rw [mul_assoc] at e2 ⊢
  generalize t * |P| = a1 at *
  generalize t * |M0| = a2 at *
  generalize t * eta = a3 at *
  clear un_t un0 tle t0 ut u0
  generalize un * |M0 + q| = a4 at *
  generalize (eta : ℝ) = a5 at *
  linarith

/-- The mean anomaly at the epoch of the elements is the one given. -/
theorem mean_epoch (hr : Nearest rnd) (b : Bool) (GM a : ℝ) {M0 : ℝ} (hM : IsDouble M0) : meanD rnd b GM a M0 0 = M0 := by
  unfold meanD
  rw [mul_zero]
  have : Gravity.rq rnd b 0 = 0 := by unfold Gravity.rq; split_ifs; rfl; exact hr.zero
  rw [this, add_zero, hr.exact hM]

/-- **C179.**  At the epoch of the elements, for a mean anomaly in the first revolution: the position is right to `1.7e-14`
semi-major axes (0.14 micrometres for a satellite at 7700 km), the velocity to `5.6e-13` mean velocities. -/
theorem epoch_state (hr : Nearest rnd) (hl : LibM sn cs) (fused b : Bool) (fl : ℕ → Bool) {GM a e M0 r : ℝ} (i O o : ℝ)
    (w : Ax) (hG : 1 / 2 ^ 100 ≤ GM) (ha : 1 / 2 ^ 100 ≤ a) (ha' : a ≤ 2 ^ 100) (h0 : 0 ≤ e) (h1 : e ≤ 17 / 20)
    (hM : IsDouble M0) (hM0 : 0 ≤ M0) (hM1 : M0 < rnd (2 * π)) (hsol : Solves e M0 r) :
    let k := keplerD rnd sn cs fused e (meanD rnd b GM a M0 0) (100 * 2 ^ (-52 : ℤ))
    k.2 = 0 ∧
      |posD rnd sn cs fl a e i O o k.1 w - w.of ((matT O o i).mulVec (perifocalR a e r))| ≤ 17 / 10 ^ 15 * a ∧
      |velD rnd sn cs fl GM a e i O o k.1 w - w.of ((matT O o i).mulVec (perifocalV GM a e r))| ≤
        56 / 10 ^ 14 * (√(GM * a) / a) := by
  rw [mean_epoch hr b GM a hM]
  intro k
  have s := (kepler_double_partial hr hl fused h0 h1 hM tolOk_default).1
  have E := (first_revolution hr hl fused h0 h1 hM hM0 hM1 tolOk_default hsol).1
  have a0 : 0 ≤ a := le_trans (by positivity) ha
  refine ⟨s, (pos_error hr hl fl i O o w ha h0 h1 E (by norm_num)).trans (mul_le_mul_of_nonneg_right (by norm_num) a0),
    (vel_error hr hl fl i O o w hG ha ha' h0 h1 E (by norm_num)).trans (mul_le_mul_of_nonneg_right (by norm_num)
      (div_nonneg (Real.sqrt_nonneg _) a0))⟩

/-- **C179.**  At any time: the state is that of the exact orbit at the computed mean anomaly, with the error of the
eccentric anomaly that grows with the number of revolutions (C140). -/
theorem later_state (hr : Nearest rnd) (hl : LibM sn cs) (fused b : Bool) (fl : ℕ → Bool) {GM a e M0 dt : ℝ} (i O o : ℝ)
    (w : Ax) (hG : 1 / 2 ^ 100 ≤ GM) (ha : 1 / 2 ^ 100 ≤ a) (ha' : a ≤ 2 ^ 100) (h0 : 0 ≤ e) (h1 : e ≤ 17 / 20)
    (hM : |meanD rnd b GM a M0 dt| ≤ 10 ^ 8) :
    let M := meanD rnd b GM a M0 dt
    let k := keplerD rnd sn cs fused e M (100 * 2 ^ (-52 : ℤ))
    k.2 = 0 ∧ ∃ r, Solves e M r ∧
      |posD rnd sn cs fl a e i O o k.1 w - w.of ((matT O o i).mulVec (perifocalR a e r))| ≤
        (4 / 10 ^ 14 + 6 / 10 ^ 16 * |M|) * a ∧
      |velD rnd sn cs fl GM a e i O o k.1 w - w.of ((matT O o i).mulVec (perifocalV GM a e r))| ≤
        (1 / 10 ^ 12 + 26 / 10 ^ 15 * |M|) * (√(GM * a) / a) := by
  have dM : IsDouble (meanD rnd b GM a M0 dt) := hr.mem _
  obtain ⟨s, k, r, hk, hsol, hE⟩ := kepler_double_partial hr hl fused h0 h1 dM tolOk_default
  intro M K
  have a0 : 0 ≤ a := le_trans (by positivity) ha
  have M0' := abs_nonneg M
  have hk' : |(k : ℝ)| ≤ |M| / 6 + 1 := hk
  have hM' : |M| ≤ 10 ^ 8 := hM
  have k0 := abs_nonneg (k : ℝ)
  have d : (4.5 / 10 ^ 16 + 2.5 / 10 ^ 16 * |(k : ℝ)|) / (1 - e) ≤ (4.5 / 10 ^ 16 + 2.5 / 10 ^ 16 * |(k : ℝ)|) / (3 / 20) :=
    div_le_div_of_nonneg_left (by positivity) (by norm_num) (by linarith)
  have hE' : |K.1 - r| ≤ 98 / 10 ^ 16 + 28 / 10 ^ 17 * |M| := by
    refine hE.trans ((add_le_add_right d _).trans ?_)
    norm_num at hk' ⊢
    linarith
  have c : cos (r + 2 * π * k) = cos r := by
    have := cos_add_int_mul_two_pi r k
    rwa [mul_comm (k : ℝ)] at this
  have sn' : sin (r + 2 * π * k) = sin r := by
    have := sin_add_int_mul_two_pi r k
    rwa [mul_comm (k : ℝ)] at this
  have small : 98 / 10 ^ 16 + 28 / 10 ^ 17 * |M| ≤ 1 / 10 ^ 6 := by norm_num at hM' ⊢; linarith
  refine ⟨s, r + 2 * π * k, ?_, ?_, ?_⟩
  · unfold Solves at hsol ⊢
    rw [sn']
    linarith
  · have e1 := pos_error hr hl fl i O o w ha h0 h1 hE' small
    have : perifocalR a e (r + 2 * π * k) = perifocalR a e r := by unfold perifocalR; rw [c, sn']
    rw [this]
    refine e1.trans (mul_le_mul_of_nonneg_right ?_ a0)
    norm_num; linarith
  · have e1 := vel_error hr hl fl i O o w hG ha ha' h0 h1 hE' small
    have : perifocalV GM a e (r + 2 * π * k) = perifocalV GM a e r := by unfold perifocalV; rw [c, sn']
    rw [this]
    refine e1.trans (mul_le_mul_of_nonneg_right ?_ (div_nonneg (Real.sqrt_nonneg _) a0))
    norm_num; linarith

/-- A satellite at 7700 km with eccentricity 1/100 and mean anomaly 1: the hypotheses hold. -/
example (hr : Nearest rnd) (fl : ℕ → Bool) (i O o : ℝ) (w : Ax) : ∃ r, Solves (1 / 100) 1 r ∧
    |posD rnd (fun x => rnd (sin x)) (fun x => rnd (cos x)) fl 7700000 (1 / 100) i O o
      (keplerD rnd (fun x => rnd (sin x)) (fun x => rnd (cos x)) false (1 / 100)
        (meanD rnd false 398600441500000 7700000 1 0) (100 * 2 ^ (-52 : ℤ))).1 w -
      w.of ((matT O o i).mulVec (perifocalR 7700000 (1 / 100) r))| ≤ 17 / 10 ^ 15 * 7700000 := by
  obtain ⟨r, hroot⟩ := exists_root (1 / 100) 1 (by norm_num) (by norm_num)
  have sol : Solves (1 / 100) 1 r := by unfold Verif.Astro.resid at hroot; unfold Solves; linarith
  have d1 : IsDouble (1 : ℝ) := by simpa using isDouble_int (K := ℝ) 1 (by norm_num)
  have two : (1 : ℝ) < rnd (2 * π) := by rw [rnd_two_pi hr]; norm_num
  exact ⟨r, sol, (epoch_state hr (libM_rnd hr) false false fl i O o w (by norm_num) (by norm_num) (by norm_num)
    (by norm_num) (by norm_num) d1 (by norm_num) two sol).2.1⟩

example (hr : Nearest rnd) : |meanD rnd false 398600441500000 7700000 1 0| ≤ 10 ^ 8 := by
  rw [mean_epoch hr false _ _ (by simpa using isDouble_int (K := ℝ) 1 (by norm_num))]; norm_num

end Verif.Float.State
