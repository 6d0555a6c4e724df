import Verif.Float.FrameModel
import Verif.Float.StateProps
import Verif.Forces.Frames

/-
C182: from the celestial to the terrestrial frame and back in double arithmetic.
-/
namespace Verif.Float.Frame

open Real
open Verif.Astro (V3 M3)
open Verif.Float.State
open Verif.Forces (c2t rcel2ter rter2cel)

variable {rnd sn cs : ℝ → ℝ}

/-- All components of `v` are those of `V` up to `d` units, and these are at most a unit. -/
structure NrV (s d : ℝ) (v V : V3) : Prop where
  x : Nr s d 1 v.x V.x
  y : Nr s d 1 v.y V.y
  z : Nr s d 1 v.z V.z

/-- All entries of `m` are those of `M` up to `d`, and these are at most one. -/
structure NrM (d : ℝ) (m M : M3) : Prop where
  r0 : NrV 1 d m.r0 M.r0
  r1 : NrV 1 d m.r1 M.r1
  r2 : NrV 1 d m.r2 M.r2

theorem NrM.transpose {d : ℝ} {m M : M3} (h : NrM d m M) : NrM d m.transpose M.transpose :=
  ⟨⟨h.r0.x, h.r1.x, h.r2.x⟩, ⟨h.r0.y, h.r1.y, h.r2.y⟩, ⟨h.r0.z, h.r1.z, h.r2.z⟩⟩

theorem NrV.weaken {s d d' : ℝ} {v V : V3} (h : NrV s d v V) (hs : Unit s) (hd : d ≤ d') : NrV s d' v V :=
  ⟨h.x.weaken hs hd le_rfl, h.y.weaken hs hd le_rfl, h.z.weaken hs hd le_rfl⟩

theorem NrM.weaken {d d' : ℝ} {m M : M3} (h : NrM d m M) (hd : d ≤ d') : NrM d' m M :=
  ⟨h.r0.weaken unit_one hd, h.r1.weaken unit_one hd, h.r2.weaken unit_one hd⟩

/-- The entries of an orthogonal matrix are at most one. -/
theorem sq_le {a b c : ℝ} (h : a * a + b * b + c * c = 1) : |a| ≤ 1 * 1 := by
  rw [mul_one]
  refine abs_le.2 ⟨?_, ?_⟩ <;> nlinarith [mul_self_nonneg a, mul_self_nonneg b, mul_self_nonneg c]

theorem orth_cols {M : M3} (h : M.Orthogonal) :
    M.r0.x * M.r0.x + M.r1.x * M.r1.x + M.r2.x * M.r2.x = 1 ∧
    M.r0.y * M.r0.y + M.r1.y * M.r1.y + M.r2.y * M.r2.y = 1 ∧
    M.r0.z * M.r0.z + M.r1.z * M.r1.z + M.r2.z * M.r2.z = 1 := by
  have h' : M3.mul M.transpose M = M3.one := h
  refine ⟨?_, ?_, ?_⟩
  · simpa [M3.mul, M3.mulVec, M3.transpose, V3.dot, M3.one] using congrArg (fun m => m.r0.x) h'
  · simpa [M3.mul, M3.mulVec, M3.transpose, V3.dot, M3.one] using congrArg (fun m => m.r1.y) h'
  · simpa [M3.mul, M3.mulVec, M3.transpose, V3.dot, M3.one] using congrArg (fun m => m.r2.z) h'

/-- An orthogonal matrix is near itself. -/
theorem orth_self {M : M3} (h : M.Orthogonal) : NrM 0 M M := by
  obtain ⟨a, b, c⟩ := orth_cols h
  have k : ∀ x : ℝ, |x| ≤ 1 * 1 → Nr 1 0 1 x x := fun x hx => ⟨by simp, hx⟩
  exact ⟨⟨k _ (sq_le a), k _ (sq_le b), k _ (sq_le c)⟩,
    ⟨k _ (sq_le (a := M.r1.x) (b := M.r0.x) (c := M.r2.x) (by linarith)),
      k _ (sq_le (a := M.r1.y) (b := M.r0.y) (c := M.r2.y) (by linarith)),
      k _ (sq_le (a := M.r1.z) (b := M.r0.z) (c := M.r2.z) (by linarith))⟩,
    ⟨k _ (sq_le (a := M.r2.x) (b := M.r0.x) (c := M.r1.x) (by linarith)),
      k _ (sq_le (a := M.r2.y) (b := M.r0.y) (c := M.r1.y) (by linarith)),
      k _ (sq_le (a := M.r2.z) (b := M.r0.z) (c := M.r1.z) (by linarith))⟩⟩

/-- A rounded sum of three products. -/
theorem dot_nr (hr : Nearest rnd) (f : ℕ → Bool) {s d d' : ℝ} {a A b B : V3} (hs : Unit s)
    (ha : NrV 1 d a A) (hb : NrV s d' b B) (hd : d ≤ 1 / 10000) (hd' : d' ≤ 1 / 10000) :
    |dotD rnd f a b - A.dot B| ≤ (3 * d' + 3003 / 1000 * d + 81 / 10 * t) * s := by
  have p : ∀ {x X y Y : ℝ} (c : Bool), Nr 1 d 1 x X → Nr s d' 1 y Y →
      Nr s (d' + 1001 / 1000 * d + 1001 / 1000 * t) 1 (Gravity.rq rnd c (x * y)) (X * Y) := fun {x X y Y} c h h' => by
    have q := (h'.mul h hs (by linarith)).weaken (A' := 1) hs le_rfl (by norm_num)
    have q := q.rq hr c hs (by linarith) le_rfl
    rw [mul_comm x, mul_comm X]
    exact q.weaken hs (by linarith) le_rfl
  have px := p (f 0) ha.x hb.x
  have py := p (f 1) ha.y hb.y
  have pz := p (f 2) ha.z hb.z
  have st : (0 : ℝ) < t ∧ t ≤ 1 / 10 ^ 6 := by unfold t; norm_num
  obtain ⟨t0, t1⟩ := st
  unfold dotD V3.dot
  split_ifs
  · have q := (px.add py).round hr hs (by linarith) (by norm_num)
    have q := ((q.add pz).round hr hs (by linarith) (by norm_num)).weaken
      (d' := 3 * d' + 3003 / 1000 * d + 81 / 10 * t) hs (by linarith) le_rfl
    exact q.err
  · have q := (py.add pz).round hr hs (by linarith) (by norm_num)
    have q := ((px.add q).round hr hs (by linarith) (by norm_num)).weaken
      (d' := 3 * d' + 3003 / 1000 * d + 81 / 10 * t) hs (by linarith) le_rfl
    rw [add_assoc]
    exact q.err

/-- The error of a rounded product of matrix and vector. -/
theorem mulVec_err (hr : Nearest rnd) (f : ℕ → ℕ → Bool) {s d d' : ℝ} {m M : M3} {v V : V3} (hs : Unit s)
    (hm : NrM d m M) (hv : NrV s d' v V) (hd : d ≤ 1 / 10000) (hd' : d' ≤ 1 / 10000) (w : Ax) :
    |w.of (mulVecD rnd f m v) - w.of (M.mulVec V)| ≤ (3 * d' + 3003 / 1000 * d + 81 / 10 * t) * s := by
  cases w
  · exact dot_nr hr (f 0) hs hm.r0 hv hd hd'
  · exact dot_nr hr (f 1) hs hm.r1 hv hd hd'
  · exact dot_nr hr (f 2) hs hm.r2 hv hd hd'

/-- A rounded product of two matrices, the exact product being orthogonal. -/
theorem mul_nr (hr : Nearest rnd) (f : ℕ → ℕ → ℕ → Bool) {d d' : ℝ} {a A b B : M3}
    (ha : NrM d a A) (hb : NrM d' b B) (hd : d ≤ 1 / 10000) (hd' : d' ≤ 1 / 10000) (ho : (M3.mul A B).Orthogonal) :
    NrM (3 * d + 3003 / 1000 * d' + 81 / 10 * t) (mulD rnd f a b) (M3.mul A B) := by
  have k := orth_self ho
  have e := fun (i : ℕ) {v V : V3} (hv : NrV 1 d v V) => mulVec_err hr (f i) unit_one hb.transpose hv hd' hd
  have e0 := e 0 ha.r0
  have e1 := e 1 ha.r1
  have e2 := e 2 ha.r2
  exact ⟨⟨⟨e0 .x, k.r0.x.size⟩, ⟨e0 .y, k.r0.y.size⟩, ⟨e0 .z, k.r0.z.size⟩⟩,
    ⟨⟨e1 .x, k.r1.x.size⟩, ⟨e1 .y, k.r1.y.size⟩, ⟨e1 .z, k.r1.z.size⟩⟩,
    ⟨⟨e2 .x, k.r2.x.size⟩, ⟨e2 .y, k.r2.y.size⟩, ⟨e2 .z, k.r2.z.size⟩⟩⟩

/-- The rotation by the angle. -/
theorem axis_nr (hr : Nearest rnd) (hl : LibM sn cs) (era : ℝ) :
    NrM (5 * t) (axisD rnd sn cs era) (M3.rotZ (-era)) := by
  obtain ⟨c, s⟩ := trig hl era
  have st : (0 : ℝ) < t ∧ t ≤ 1 / 10 ^ 6 := by unfold t; norm_num
  obtain ⟨t0, t1⟩ := st
  have c' := c.weaken unit_one (d' := 5 * t) (by linarith) le_rfl
  have s' := s.weaken unit_one (d' := 5 * t) (by linarith) le_rfl
  have z : Nr 1 (5 * t) 1 (0 : ℝ) 0 := ⟨by simp; linarith, by simp⟩
  have ce := c.err
  have cz := abs_add_le (cs era - cos era) (cos era)
  rw [sub_add_cancel] at cz
  have c1 : |cs era| ≤ 2 * 1 := by have := abs_cos_le_one era; linarith
  have o : Nr 1 0 3 (1 - cs era) (1 - cs era) := ⟨by simp, by
    have := abs_sub (1 : ℝ) (cs era)
    rw [abs_one] at this
    linarith⟩
  have l : Nr 1 0 2 (cs era) (cs era) := ⟨by simp, c1⟩
  have q := (o.round hr unit_one (by norm_num) (by norm_num)).add l
  have q := q.resize (A' := 1) (by simp)
  rw [sub_add_cancel] at q
  have q := (q.round hr unit_one (by linarith) le_rfl).weaken unit_one (d' := 5 * t) (by linarith) le_rfl
  have e : M3.rotZ (-era) = ⟨⟨cos era, sin era, 0⟩, ⟨-sin era, cos era, 0⟩, ⟨0, 0, 1⟩⟩ := by simp [M3.rotZ]
  rw [e]
  exact ⟨⟨c', s', z⟩, ⟨s'.neg, c', z⟩, ⟨z, z, q⟩⟩

/-- **C182** The matrix: every entry is right to `12.1 δ + 1e-14`, with `δ` the error of the entries of the two matrices
that are given. -/
theorem c2t_nr (hr : Nearest rnd) (hl : LibM sn cs) (f : ℕ → ℕ → ℕ → ℕ → Bool) {rc2i C rpom P : M3} {era δ : ℝ}
    (hC : C.Orthogonal) (hP : P.Orthogonal) (hc : NrM δ rc2i C) (hp : NrM δ rpom P) (h0 : 0 ≤ δ) (hδ : δ ≤ 1 / 10 ^ 6) :
    NrM (121 / 10 * δ + 1 / 10 ^ 14) (c2tD rnd sn cs f rc2i era rpom) (c2t C era P) := by
  have te : t = 12 / 10 ^ 17 := rfl
  have i := mul_nr hr (f 0) (axis_nr hr hl era) hc (by rw [te]; norm_num) (by linarith)
    ((M3.rotZ_rotation (-era)).orth.mul hC)
  have i := i.weaken (d' := 301 / 100 * δ + 24 * t) (by rw [te]; linarith)
  have o := mul_nr hr (f 1) hp i (by linarith) (by rw [te]; linarith) (Verif.Forces.c2t_orthogonal C P era hC hP)
  exact o.weaken (by rw [te]; linarith)

/-- What is allowed: 37 times the error of the entries of the matrices, and 4e-14. -/
noncomputable def allow (δ : ℝ) : ℝ := 37 * δ + 4 / 10 ^ 14

/-- **C182** To the terrestrial frame, for a vector whose components are at most `s`. -/
theorem rcel2ter_error (hr : Nearest rnd) (hl : LibM sn cs) (f : ℕ → ℕ → ℕ → ℕ → Bool) {rc2i C rpom P : M3} {era δ s : ℝ}
    (hC : C.Orthogonal) (hP : P.Orthogonal) (hc : NrM δ rc2i C) (hp : NrM δ rpom P) (h0 : 0 ≤ δ) (hδ : δ ≤ 1 / 10 ^ 6)
    (hs : Unit s) {r : V3} (hrs : ∀ w : Ax, |w.of r| ≤ s) (w : Ax) :
    |w.of (rcel2terD rnd sn cs f r rc2i era rpom) - w.of (rcel2ter r C era P)| ≤ allow δ * s := by
  have te : t = 12 / 10 ^ 17 := rfl
  have k : NrV s 0 r r := ⟨⟨by simp, by rw [one_mul]; exact hrs .x⟩, ⟨by simp, by rw [one_mul]; exact hrs .y⟩,
    ⟨by simp, by rw [one_mul]; exact hrs .z⟩⟩
  refine (mulVec_err hr (f 2 0) hs (c2t_nr hr hl f (era := era) hC hP hc hp h0 hδ) k (by linarith) (by norm_num) w).trans
    (mul_le_mul_of_nonneg_right ?_ hs.pos.le)
  unfold allow
  rw [te]; linarith

/-- **C182** To the celestial frame, for a vector whose components are at most `s`. -/
theorem rter2cel_error (hr : Nearest rnd) (hl : LibM sn cs) (f : ℕ → ℕ → ℕ → ℕ → Bool) {rc2i C rpom P : M3} {era δ s : ℝ}
    (hC : C.Orthogonal) (hP : P.Orthogonal) (hc : NrM δ rc2i C) (hp : NrM δ rpom P) (h0 : 0 ≤ δ) (hδ : δ ≤ 1 / 10 ^ 6)
    (hs : Unit s) {r : V3} (hrs : ∀ w : Ax, |w.of r| ≤ s) (w : Ax) :
    |w.of (rter2celD rnd sn cs f r rc2i era rpom) - w.of (rter2cel r C era P)| ≤ allow δ * s := by
  have te : t = 12 / 10 ^ 17 := rfl
  have k : NrV s 0 r r := ⟨⟨by simp, by rw [one_mul]; exact hrs .x⟩, ⟨by simp, by rw [one_mul]; exact hrs .y⟩,
    ⟨by simp, by rw [one_mul]; exact hrs .z⟩⟩
  refine (mulVec_err hr (f 2 0) hs (c2t_nr hr hl f (era := era) hC hP hc hp h0 hδ).transpose k (by linarith)
    (by norm_num) w).trans (mul_le_mul_of_nonneg_right ?_ hs.pos.le)
  unfold allow
  rw [te]; linarith

/-! ### There and back -/

theorem comp_le_norm (v : V3) (w : Ax) : |w.of v| ≤ v.norm := by
  refine Real.abs_le_sqrt ?_
  cases w <;> simp only [Ax.of, V3.dot] <;> nlinarith [mul_self_nonneg v.x, mul_self_nonneg v.y, mul_self_nonneg v.z]

/-- A matrix with entries up to one applied to a small difference. -/
theorem mulVec_diff {M : M3} (h : NrM 0 M M) {a b : V3} {ε : ℝ} (hab : ∀ w : Ax, |w.of a - w.of b| ≤ ε) (w : Ax) :
    |w.of (M.mulVec a) - w.of (M.mulVec b)| ≤ 3 * ε := by
  have hx : |a.x - b.x| ≤ ε := hab .x
  have hy : |a.y - b.y| ≤ ε := hab .y
  have hz : |a.z - b.z| ≤ ε := hab .z
  have k : ∀ v : V3, NrV 1 0 v v → |v.dot a - v.dot b| ≤ 3 * ε := fun v hv => by
    have vx : |v.x| ≤ 1 := by simpa using hv.x.size
    have vy : |v.y| ≤ 1 := by simpa using hv.y.size
    have vz : |v.z| ≤ 1 := by simpa using hv.z.size
    have p : ∀ {c e : ℝ}, |c| ≤ 1 → |e| ≤ ε → |c * e| ≤ ε := fun {c e} hc he => by
      rw [abs_mul]
      have := mul_le_mul hc he (abs_nonneg _) zero_le_one
      linarith
    have h1 := p vx hx
    have h2 := p vy hy
    have h3 := p vz hz
    rw [show v.dot a - v.dot b = v.x * (a.x - b.x) + v.y * (a.y - b.y) + v.z * (a.z - b.z) by
      simp only [V3.dot]; ring]
    have h4 := abs_add_le (v.x * (a.x - b.x) + v.y * (a.y - b.y)) (v.z * (a.z - b.z))
    have h5 := abs_add_le (v.x * (a.x - b.x)) (v.y * (a.y - b.y))
    linarith
  cases w
  · exact k _ h.r0
  · exact k _ h.r1
  · exact k _ h.r2

/-- **C182** There and back with doubles: every component returns to within `150 δ + 1.7e-13` of the length of the vector,
whatever the choices of the compiler in the two functions. -/
theorem round_trip_error (hr : Nearest rnd) (hl : LibM sn cs) (f g : ℕ → ℕ → ℕ → ℕ → Bool) {rc2i C rpom P : M3} {era δ : ℝ}
    (hC : C.Orthogonal) (hP : P.Orthogonal) (hc : NrM δ rc2i C) (hp : NrM δ rpom P) (h0 : 0 ≤ δ) (hδ : δ ≤ 1 / 10 ^ 6)
    {r : V3} (hn : Unit r.norm) (w : Ax) :
    |w.of (rter2celD rnd sn cs g (rcel2terD rnd sn cs f r rc2i era rpom) rc2i era rpom) - w.of r| ≤
      (150 * δ + 17 / 10 ^ 14) * r.norm := by
  have s0 := hn.pos
  have a0 : 0 ≤ allow δ := by unfold allow; linarith
  have a1 : allow δ ≤ 1 / 10 ^ 4 := by unfold allow; linarith
  have e1 := rcel2ter_error hr hl f (era := era) hC hP hc hp h0 hδ hn (comp_le_norm r)
  have len : (rcel2ter r C era P).norm = r.norm := by
    unfold rcel2ter V3.norm
    rw [(Verif.Forces.c2t_orthogonal C P era hC hP).dot]
  have back := Verif.Forces.position_round_trip r C P era hC hP
  generalize rcel2terD rnd sn cs f r rc2i era rpom = X at *
  have size : ∀ w : Ax, |w.of X| ≤ (1 + 1 / 10 ^ 4) * r.norm := fun w => by
    have h1 := comp_le_norm (rcel2ter r C era P) w
    rw [len] at h1
    have h2 := abs_add_le (w.of X - w.of (rcel2ter r C era P)) (w.of (rcel2ter r C era P))
    rw [sub_add_cancel] at h2
    have h3 := mul_le_mul_of_nonneg_right a1 s0.le
    linarith [e1 w]
  have hs : Unit ((1 + 1 / 10 ^ 4) * r.norm) := by
    unfold State.Unit at *
    exact hn.trans (by linarith)
  have e2 := rter2cel_error hr hl g (era := era) hC hP hc hp h0 hδ hs size w
  have M := (orth_self (Verif.Forces.c2t_orthogonal C P era hC hP)).transpose
  have e3 := mulVec_diff M e1 w
  have e3 : |w.of (rter2cel X C era P) - w.of r| ≤ 3 * (allow δ * r.norm) := by
    have e4 : (c2t C era P).transpose.mulVec (rcel2ter r C era P) = r := back
    rw [e4] at e3
    exact e3
  have h := abs_add_le (w.of (rter2celD rnd sn cs g X rc2i era rpom) - w.of (rter2cel X C era P))
    (w.of (rter2cel X C era P) - w.of r)
  rw [sub_add_sub_cancel] at h
  have fin : allow δ * ((1 + 1 / 10 ^ 4) * r.norm) + 3 * (allow δ * r.norm) ≤ (150 * δ + 17 / 10 ^ 14) * r.norm := by
    have : (4 + 1 / 10 ^ 4) * allow δ ≤ 150 * δ + 17 / 10 ^ 14 := by unfold allow; linarith
    have := mul_le_mul_of_nonneg_right this s0.le
    linarith
  linarith

/-! ### The rate of rotation -/

/-- **C182** The rate of rotation for a day longer by at most a second: right to `2.5e-16` of itself. -/
theorem omega_error (hr : Nearest rnd) {w xlod : ℝ} (hw : State.Unit w) (hx : |xlod| ≤ 1) :
    |omegaD rnd w xlod - w * (1 - xlod / 86400)| ≤ 25 / 10 ^ 17 * w := by
  have q : |xlod / 86400| ≤ 1 / 86400 * 1 := by
    rw [abs_div, abs_of_pos (by norm_num : (0 : ℝ) < 86400)]
    linarith
  obtain ⟨q1, q2⟩ := abs_le.1 q
  have e1 : |rnd (xlod / 86400) - xlod / 86400| ≤ 2 ^ (-16 - 54 : ℤ) :=
    round_err hr (x := xlod / 86400) (-16) (by norm_num) (q.trans (by norm_num))
  have b : Nr 1 (1 / 10 ^ 20) (1 + 1 / 10 ^ 4) (1 - rnd (xlod / 86400)) (1 - xlod / 86400) := by
    refine ⟨?_, abs_le.2 ⟨by linarith, by linarith⟩⟩
    rw [sub_sub_sub_cancel_left, abs_sub_comm]
    exact e1.trans (by norm_num)
  have c := b.round hr unit_one (by norm_num) (by norm_num)
  have d := (((leaf hw).mul c hw (by norm_num)).round hr hw (by unfold t; norm_num) (by norm_num)).err
  unfold omegaD
  refine d.trans (mul_le_mul_of_nonneg_right ?_ hw.pos.le)
  unfold t
  norm_num

/-- **C182** A longer day is never a faster rotation, rounding included. -/
theorem omega_mono (hr : Nearest rnd) {w x y : ℝ} (hw : 0 ≤ w) (h : x ≤ y) : omegaD rnd w y ≤ omegaD rnd w x := by
  unfold omegaD
  refine hr.mono (mul_le_mul_of_nonneg_left (hr.mono ?_) hw)
  have := hr.mono (div_le_div_of_nonneg_right h (by norm_num : (0 : ℝ) ≤ 86400))
  linarith

/-! ### Examples -/

/-- The rate of the Earth, a day longer by three milliseconds. -/
example : |omegaD rnd64 (7292115 / 10 ^ 11) (3 / 1000) - 7292115 / 10 ^ 11 * (1 - 3 / 1000 / 86400)| ≤ 2 / 10 ^ 20 :=
  (omega_error rnd64_nearest (by unfold State.Unit; norm_num) (by norm_num [abs_le])).trans (by norm_num)

/-- A satellite at 7000 km, matrices given exactly. -/
example : |(rcel2terD rnd64 (fun x => rnd64 (sin x)) (fun x => rnd64 (cos x)) (fun _ _ _ _ => false) ⟨7000000, -1, 3⟩
    (M3.rotX 1) 2 (M3.rotZ 3)).y - (rcel2ter ⟨7000000, -1, 3⟩ (M3.rotX 1) 2 (M3.rotZ 3)).y| ≤ 1 / 10 ^ 6 := by
  have o1 := (M3.rotX_rotation 1).orth
  have o2 := (M3.rotZ_rotation 3).orth
  have h := rcel2ter_error rnd64_nearest (libM_rnd rnd64_nearest) (fun _ _ _ _ => false) (era := 2) (s := 7000000) o1 o2
    (orth_self o1) (orth_self o2) le_rfl (by norm_num) (by unfold State.Unit; norm_num) (r := ⟨7000000, -1, 3⟩)
    (by intro w; cases w <;> simp only [Ax.of] <;> norm_num [abs_of_pos]) .y
  refine h.trans ?_
  unfold allow
  norm_num

/-- Matrices whose entries are wrong by up to 1e-12. -/
example : NrM (1 / 10 ^ 12) ⟨⟨1, 1 / 10 ^ 12, 0⟩, ⟨0, 1, 0⟩, ⟨0, 0, 1 - 1 / 10 ^ 12⟩⟩ M3.one ∧ M3.one.Orthogonal := by
  refine ⟨⟨⟨⟨?_, ?_⟩, ⟨?_, ?_⟩, ⟨?_, ?_⟩⟩, ⟨⟨?_, ?_⟩, ⟨?_, ?_⟩, ⟨?_, ?_⟩⟩, ⟨⟨?_, ?_⟩, ⟨?_, ?_⟩, ⟨?_, ?_⟩⟩⟩, ?_⟩
  all_goals first
    | (simp only [M3.one]; norm_num; done)
    | (unfold M3.Orthogonal; exact M3.mul_one _)

end Verif.Float.Frame
