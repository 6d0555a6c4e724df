import Verif.Float.QuatModel
import Verif.Float.FrameProps
import Verif.Orbit.Props
import Verif.Orbit.Overloads

/-
C183: propagation of the state, and the Eigen overload of the conversion from elements, in double arithmetic.
-/
namespace Verif.Float.Quat

open Real
open Verif.Astro (V3 M3 Solves)
open Verif.Float.State
open Verif.Float.Frame (NrV NrM orth_self)
open Verif.Orbit (perifocalR perifocalV matT)

variable {rnd sn cs : ℝ → ℝ}

/-- All components of a quaternion are right to `d` and at most one. -/
structure NrQ (d : ℝ) (q Q : Qt) : Prop where
  w : Nr 1 d 1 q.w Q.w
  x : Nr 1 d 1 q.x Q.x
  y : Nr 1 d 1 q.y Q.y
  z : Nr 1 d 1 q.z Q.z

/-- The exact quaternion, with the halves of the angles. -/
noncomputable def quatX (P I Q : ℝ) : Qt :=
  ⟨cos P * cos I * cos Q - sin P * cos I * sin Q, cos P * sin I * cos Q + sin P * sin I * sin Q,
    sin P * sin I * cos Q - cos P * sin I * sin Q, cos P * cos I * sin Q + sin P * cos I * cos Q⟩

/-- The exact matrix of a quaternion. -/
noncomputable def matX (q : Qt) : M3 :=
  ⟨⟨1 - (2 * q.y * q.y + 2 * q.z * q.z), 2 * q.y * q.x - 2 * q.z * q.w, 2 * q.z * q.x + 2 * q.y * q.w⟩,
    ⟨2 * q.y * q.x + 2 * q.z * q.w, 1 - (2 * q.x * q.x + 2 * q.z * q.z), 2 * q.z * q.y - 2 * q.x * q.w⟩,
    ⟨2 * q.z * q.x - 2 * q.y * q.w, 2 * q.z * q.y + 2 * q.x * q.w, 1 - (2 * q.x * q.x + 2 * q.y * q.y)⟩⟩

/-- The matrix of the exact quaternion is the matrix written out in the other overload. -/
theorem matX_quatX (O i o : ℝ) : matX (quatX (O / 2) (i / 2) (o / 2)) = matT O o i := by
  have e : ∀ x : ℝ, sin x = 2 * sin (x / 2) * cos (x / 2) ∧ cos x = cos (x / 2) ^ 2 - sin (x / 2) ^ 2 := fun x => by
    constructor
    · rw [← sin_two_mul]; congr 1; ring
    · have := cos_two_mul' (x / 2)
      rw [← this]; congr 1; ring
  have hP := sin_sq_add_cos_sq (O / 2)
  have hI := sin_sq_add_cos_sq (i / 2)
  have hQ := sin_sq_add_cos_sq (o / 2)
  unfold matT
  simp only [(e O).1, (e O).2, (e i).1, (e i).2, (e o).1, (e o).2]
  unfold matX quatX
  generalize sin (O / 2) = sP at *
  generalize cos (O / 2) = cP at *
  generalize sin (i / 2) = sI at *
  generalize cos (i / 2) = cI at *
  generalize sin (o / 2) = sQ at *
  generalize cos (o / 2) = cQ at *
  clear e
  have hPQ : (sP ^ 2 + cP ^ 2) * (sQ ^ 2 + cQ ^ 2) = 1 := by rw [hP, hQ, one_mul]
  have hN : (sP ^ 2 + cP ^ 2) * (sI ^ 2 + cI ^ 2) * (sQ ^ 2 + cQ ^ 2) = 1 := by rw [hP, hQ, hI, one_mul, one_mul]
  ext
  · simp only
    linear_combination (-1) * hN + (cP ^ 2 - sP ^ 2) * (cQ ^ 2 - sQ ^ 2) * hI
  · simp only
    linear_combination (-(cP ^ 2 - sP ^ 2) * (2 * sQ * cQ)) * hI
  · simp only
    linear_combination (2 * sP * cP) * (2 * sI * cI) * hQ
  · simp only
    linear_combination (2 * sP * cP) * (cQ ^ 2 - sQ ^ 2) * hI
  · simp only
    linear_combination (-1) * hN - (2 * sP * cP) * (2 * sQ * cQ) * hI
  · simp only
    linear_combination (-(cP ^ 2 - sP ^ 2) * (2 * sI * cI)) * hQ
  · simp only
    linear_combination (2 * sQ * cQ) * (2 * sI * cI) * hP
  · simp only
    linear_combination (cQ ^ 2 - sQ ^ 2) * (2 * sI * cI) * hP
  · simp only
    linear_combination (-1) * hN + (cI ^ 2 - sI ^ 2) * hPQ

theorem tpos : (0 : ℝ) < t ∧ t ≤ 1 / 10 ^ 9 := by unfold t; norm_num

/-- The quaternion is right to thirteen units. -/
theorem quat_nr (hr : Nearest rnd) (hl : LibM sn cs) (fl : ℕ → Bool) (O i o : ℝ) :
    NrQ (13 * t) (quatD rnd sn cs fl O i o) (quatX (O / 2) (i / 2) (o / 2)) := by
  obtain ⟨t0, t1⟩ := tpos
  obtain ⟨cP, sP⟩ := trig hl (O / 2)
  obtain ⟨cI, sI⟩ := trig hl (i / 2)
  obtain ⟨cQ, sQ⟩ := trig hl (o / 2)
  have two : ∀ {p q p' q' : ℝ}, Nr 1 t 1 p p' → Nr 1 t 1 q q' → Nr 1 (301 / 100 * t) 1 (rnd (p * q)) (p' * q') :=
    fun hp hq => ((hp.mul hq unit_one (by linarith)).round hr unit_one (by linarith) (by norm_num)).weaken unit_one
      (by linarith) (by norm_num)
  have three : ∀ {p q p' q' : ℝ} (b : Bool), Nr 1 (301 / 100 * t) 1 p p' → Nr 1 t 1 q q' →
      Nr 1 (503 / 100 * t) 1 (Gravity.rq rnd b (p * q)) (p' * q') := fun b hp hq =>
    ((hp.mul hq unit_one (by linarith)).rq hr b unit_one (by linarith) (by norm_num)).weaken unit_one
      (by linarith) (by norm_num)
  have plus : ∀ {p q p' q' : ℝ}, Nr 1 (503 / 100 * t) 1 p p' → Nr 1 (503 / 100 * t) 1 q q' →
      Nr 1 (13 * t) 2 (rnd (p + q)) (p' + q') := fun hp hq =>
    ((hp.add hq).round hr unit_one (by linarith) (by norm_num)).weaken unit_one (by linarith) (by norm_num)
  have minus : ∀ {p q p' q' : ℝ}, Nr 1 (503 / 100 * t) 1 p p' → Nr 1 (503 / 100 * t) 1 q q' →
      Nr 1 (13 * t) 2 (rnd (p - q)) (p' - q') := fun hp hq =>
    ((hp.sub hq).round hr unit_one (by linarith) (by norm_num)).weaken unit_one (by linarith) (by norm_num)
  have hP : cos (O / 2) ^ 2 + sin (O / 2) ^ 2 = 1 := by linarith [sin_sq_add_cos_sq (O / 2)]
  have part : ∀ k : ℝ, k ^ 2 ≤ 1 → (k * cos (o / 2)) ^ 2 + (k * sin (o / 2)) ^ 2 ≤ 1 := fun k hk => by
    have : (k * cos (o / 2)) ^ 2 + (k * sin (o / 2)) ^ 2 = k ^ 2 * (sin (o / 2) ^ 2 + cos (o / 2) ^ 2) := by ring
    rw [this, sin_sq_add_cos_sq, mul_one]
    exact hk
  have kc := part _ (cos_sq_le_one (i / 2))
  have ks := part _ (sin_sq_le_one (i / 2))
  refine ⟨(minus (three _ (two cP cI) cQ) (three _ (two sP cI) sQ)).resize ?_,
    (plus (three _ (two cP sI) cQ) (three _ (two sP sI) sQ)).resize ?_,
    (minus (three _ (two sP sI) cQ) (three _ (two cP sI) sQ)).resize ?_,
    (plus (three _ (two cP cI) sQ) (three _ (two sP cI) cQ)).resize ?_⟩
  · have := unit_dot hP (x := cos (i / 2) * cos (o / 2)) (y := -(cos (i / 2) * sin (o / 2))) (by rw [neg_sq]; exact kc)
    convert this using 2; ring
  · have := unit_dot hP (x := sin (i / 2) * cos (o / 2)) (y := sin (i / 2) * sin (o / 2)) ks
    convert this using 2; ring
  · have := unit_dot hP (x := -(sin (i / 2) * sin (o / 2))) (y := sin (i / 2) * cos (o / 2)) (by
      rw [neg_sq]; linarith)
    convert this using 2; ring
  · have := unit_dot hP (x := cos (i / 2) * sin (o / 2)) (y := cos (i / 2) * cos (o / 2)) (by linarith)
    convert this using 2; ring

/-- The matrix of a quaternion that is right to thirteen units, the exact matrix being orthogonal. -/
theorem mat_nr (hr : Nearest rnd) (fl : ℕ → Bool) {q Q : Qt} (h : NrQ (13 * t) q Q) (ho : (matX Q).Orthogonal) :
    NrM (118 * t) (matD rnd fl q) (matX Q) := by
  obtain ⟨t0, t1⟩ := tpos
  have k := orth_self ho
  have p : ∀ {a b A B : ℝ} (c : Bool), Nr 1 (13 * t) 1 a A → Nr 1 (13 * t) 1 b B →
      Nr 1 (541 / 10 * t) 2 (Gravity.rq rnd c (2 * a * b)) (2 * A * B) := fun {a b A B} c ha hb => by
    have d : Nr 1 (26 * t) 2 (2 * a) (2 * A) := by
      have := ha.add ha
      rw [← two_mul a, ← two_mul A] at this
      exact this.weaken unit_one (by linarith) (by norm_num)
    exact ((d.mul hb unit_one (by linarith)).rq hr c unit_one (by linarith) (by norm_num)).weaken unit_one
      (by linarith) (by norm_num)
  have plus : ∀ {a b A B : ℝ}, Nr 1 (541 / 10 * t) 2 a A → Nr 1 (541 / 10 * t) 2 b B →
      Nr 1 (113 * t) 4 (rnd (a + b)) (A + B) := fun ha hb =>
    ((ha.add hb).round hr unit_one (by linarith) (by norm_num)).weaken unit_one (by linarith) (by norm_num)
  have minus : ∀ {a b A B : ℝ}, Nr 1 (541 / 10 * t) 2 a A → Nr 1 (541 / 10 * t) 2 b B →
      Nr 1 (113 * t) 4 (rnd (a - b)) (A - B) := fun ha hb =>
    ((ha.sub hb).round hr unit_one (by linarith) (by norm_num)).weaken unit_one (by linarith) (by norm_num)
  have one : Nr 1 0 1 (1 : ℝ) 1 := leaf unit_one
  have dia : ∀ {a A : ℝ}, Nr 1 (113 * t) 4 a A → |1 - A| ≤ 1 * 1 → Nr 1 (118 * t) 1 (rnd (1 - a)) (1 - A) := fun ha hA =>
    (((one.sub ha).resize hA).round hr unit_one (by linarith) le_rfl).weaken unit_one (by linarith) le_rfl
  have off : ∀ {a A : ℝ}, Nr 1 (113 * t) 4 a A → |A| ≤ 1 * 1 → Nr 1 (118 * t) 1 a A := fun ha hA =>
    (ha.resize hA).weaken unit_one (by linarith) le_rfl
  exact ⟨⟨dia (plus (p _ h.y h.y) (p _ h.z h.z)) k.r0.x.size, off (minus (p _ h.y h.x) (p _ h.z h.w)) k.r0.y.size,
      off (plus (p _ h.z h.x) (p _ h.y h.w)) k.r0.z.size⟩,
    ⟨off (plus (p _ h.y h.x) (p _ h.z h.w)) k.r1.x.size, dia (plus (p _ h.x h.x) (p _ h.z h.z)) k.r1.y.size,
      off (minus (p _ h.z h.y) (p _ h.x h.w)) k.r1.z.size⟩,
    ⟨off (minus (p _ h.z h.x) (p _ h.y h.w)) k.r2.x.size, off (plus (p _ h.z h.y) (p _ h.x h.w)) k.r2.y.size,
      dia (plus (p _ h.x h.x) (p _ h.y h.y)) k.r2.z.size⟩⟩

/-- **C183** The rotation by three angles, made from quaternions: every entry is right to 118 units, `1.5e-14`. -/
theorem angles_nr (hr : Nearest rnd) (hl : LibM sn cs) (fl : ℕ → Bool) (O i o : ℝ) :
    NrM (118 * t) (anglesD rnd sn cs fl O i o) (matT O o i) := by
  have e := matX_quatX O i o
  have := mat_nr hr fl (quat_nr hr hl fl O i o) (by rw [e]; exact (Verif.Orbit.matT_rotation O o i).orth)
  rwa [e] at this

/-- The product with a matrix that is right to 118 units. -/
theorem rot_nr' (hr : Nearest rnd) (b b' : Bool) {s d d' A B : ℝ} {T T' v v' : ℝ × ℝ} (hs : State.Unit s)
    (h1 : Nr 1 (118 * t) 1 T.1 T'.1) (h2 : Nr 1 (118 * t) 1 T.2 T'.2) (v1 : Nr s d A v.1 v'.1) (v2 : Nr s d' B v.2 v'.2)
    (hd : d ≤ 1 / 10000) (hd' : d' ≤ 1 / 10000) (hA : 1 ≤ A) (hB : 1 ≤ B) (hA' : A ≤ 20) (hB' : B ≤ 20) :
    Nr s (d + d' + (A + B) * (121 * t)) (A + B) (rotD rnd b b' T v) (T'.1 * v'.1 + T'.2 * v'.2) := by
  have p := ((v1.mul h1 hs (by linarith)).weaken (d' := d + (A + 1 / 1000) * (118 * t)) (A' := A) hs (by linarith)
    (by linarith)).rq hr b hs (by unfold t; linarith) hA
  have q := ((v2.mul h2 hs (by linarith)).weaken (d' := d' + (B + 1 / 1000) * (118 * t)) (A' := B) hs (by linarith)
    (by linarith)).rq hr b' hs (by unfold t; linarith) hB
  have r := (p.add q).round hr hs (by unfold t; linarith) (by linarith)
  unfold rotD
  rw [mul_comm T.1, mul_comm T.2, mul_comm T'.1, mul_comm T'.2]
  exact r.weaken hs (by unfold t; linarith) le_rfl

/-- Two columns of a row. -/
theorem row2_nr {m M : M3} {d : ℝ} (h : NrM d m M) (w : Ax) :
    Nr 1 d 1 (row2 m w).1 (row2 M w).1 ∧ Nr 1 d 1 (row2 m w).2 (row2 M w).2 := by
  cases w
  · exact ⟨h.r0.x, h.r0.y⟩
  · exact ⟨h.r1.x, h.r1.y⟩
  · exact ⟨h.r2.x, h.r2.y⟩

theorem row2_mul (M : M3) (v : V3) (hv : v.z = 0) (w : Ax) :
    w.of (M.mulVec v) = (row2 M w).1 * v.x + (row2 M w).2 * v.y := by
  cases w <;> simp [Ax.of, M3.mulVec, V3.dot, row2, hv]

/-- The perifocal position through any such matrix. -/
theorem pos_through (hr : Nearest rnd) (hl : LibM sn cs) (b b' : Bool) {a e E r ε : ℝ} {m M : M3} (h : NrM (118 * t) m M)
    (w : Ax) (ha : 1 / 2 ^ 100 ≤ a) (h0 : 0 ≤ e) (h1 : e ≤ 17 / 20) (hE : |E - r| ≤ ε) (hε : ε ≤ 1 / 10 ^ 6) :
    |rotD rnd b b' (row2 m w) (rfD rnd sn cs a e E) - w.of (M.mulVec (perifocalR a e r))| ≤
      (201 / 100 * ε + 44 / 10 ^ 15) * a := by
  have U : State.Unit a :=
    le_trans (one_div_le_one_div_of_le (by positivity) (pow_le_pow_right₀ (by norm_num) (by norm_num))) ha
  have ε0 := (abs_nonneg _).trans hE
  obtain ⟨p, q⟩ := rf_nr hr hl U h0 h1 hE hε
  obtain ⟨m1, m2⟩ := row2_nr h w
  have k := (rot_nr' hr b b' (v' := (a * (cos r - e), a * √((1 - e) * (1 + e)) * sin r)) U m1 m2 p q
    (by unfold t; linarith) (by unfold t; linarith) (by norm_num) (by norm_num) (by norm_num) (by norm_num)).err
  rw [row2_mul M (perifocalR a e r) rfl]
  refine k.trans (mul_le_mul_of_nonneg_right ?_ U.pos.le)
  unfold t; linarith

/-- The perifocal velocity through any such matrix. -/
theorem vel_through (hr : Nearest rnd) (hl : LibM sn cs) (b b' c : Bool) {GM a e E r ε : ℝ} {m M : M3}
    (h : NrM (118 * t) m M) (w : Ax) (hG : 1 / 2 ^ 100 ≤ GM) (ha : 1 / 2 ^ 100 ≤ a) (ha' : a ≤ 2 ^ 100) (h0 : 0 ≤ e)
    (h1 : e ≤ 17 / 20) (hE : |E - r| ≤ ε) (hε : ε ≤ 1 / 10 ^ 6) :
    |rotD rnd b b' (row2 m w) (vfD rnd sn cs c GM a e E) - w.of (M.mulVec (perifocalV GM a e r))| ≤
      (91 * ε + 27 / 10 ^ 14) * (√(GM * a) / a) := by
  have U := (vmag_nr hr hl c hG ha ha' h0 h1 hE hε).1
  have ε0 := (abs_nonneg _).trans hE
  obtain ⟨p, q⟩ := vf_nr hr hl c hG ha ha' h0 h1 hE hε
  obtain ⟨m1, m2⟩ := row2_nr h w
  have k := (rot_nr' hr b b' (v' := (-(√(GM * a) / (a * (1 - e * cos r))) * sin r,
    √(GM * a) / (a * (1 - e * cos r)) * √((1 - e) * (1 + e)) * cos r)) U m1 m2 p q
    (by unfold t; linarith) (by unfold t; linarith) (by norm_num) (by norm_num) (by norm_num) (by norm_num)).err
  rw [row2_mul M (perifocalV GM a e r) rfl]
  refine k.trans (mul_le_mul_of_nonneg_right ?_ U.pos.le)
  unfold t; linarith

/-- **C183** `propagate_state`: for an eccentric anomaly that is right to `ε`, position and velocity of the exact orbit. -/
theorem propagate_error (hr : Nearest rnd) (hl : LibM sn cs) (fl : ℕ → Bool) {GM a e E r ε : ℝ} (i O o : ℝ) (w : Ax)
    (hG : 1 / 2 ^ 100 ≤ GM) (ha : 1 / 2 ^ 100 ≤ a) (ha' : a ≤ 2 ^ 100) (h0 : 0 ≤ e) (h1 : e ≤ 17 / 20)
    (hE : |E - r| ≤ ε) (hε : ε ≤ 1 / 10 ^ 6) :
    |posD rnd sn cs fl a e i O o E w - w.of ((matT O o i).mulVec (perifocalR a e r))| ≤
        (201 / 100 * ε + 44 / 10 ^ 15) * a ∧
      |velD rnd sn cs fl GM a e i O o E w - w.of ((matT O o i).mulVec (perifocalV GM a e r))| ≤
        (91 * ε + 27 / 10 ^ 14) * (√(GM * a) / a) :=
  ⟨pos_through hr hl _ _ (angles_nr hr hl fl O i o) w ha h0 h1 hE hε,
    vel_through hr hl _ _ _ (angles_nr hr hl fl O i o) w hG ha ha' h0 h1 hE hε⟩

/-- The transposed rotation by the negative angles is the one with node and argument of perigee exchanged (C47). -/
theorem negative_transposed (O i o : ℝ) : (matT (-O) (-o) (-i)).transpose = matT o O i := by
  rw [Verif.Orbit.matT_eq]
  exact Verif.Orbit.matR_transpose O o i

/-- **C183** The Eigen overload of `elements2state` returns the state of the exact orbit whose node and argument of perigee
are exchanged, with the same errors: the exchange (C47) is no rounding matter. -/
theorem eigen_error (hr : Nearest rnd) (hl : LibM sn cs) (fl : ℕ → Bool) {GM a e E r ε : ℝ} (i O o : ℝ) (w : Ax)
    (hG : 1 / 2 ^ 100 ≤ GM) (ha : 1 / 2 ^ 100 ≤ a) (ha' : a ≤ 2 ^ 100) (h0 : 0 ≤ e) (h1 : e ≤ 17 / 20)
    (hE : |E - r| ≤ ε) (hε : ε ≤ 1 / 10 ^ 6) :
    |posE rnd sn cs fl a e i O o E w - w.of ((matT o O i).mulVec (perifocalR a e r))| ≤
        (201 / 100 * ε + 44 / 10 ^ 15) * a ∧
      |velE rnd sn cs fl GM a e i O o E w - w.of ((matT o O i).mulVec (perifocalV GM a e r))| ≤
        (91 * ε + 27 / 10 ^ 14) * (√(GM * a) / a) := by
  have h := (angles_nr hr hl fl (-O) (-i) (-o)).transpose
  rw [negative_transposed] at h
  exact ⟨pos_through hr hl _ _ h w ha h0 h1 hE hε, vel_through hr hl _ _ _ h w hG ha ha' h0 h1 hE hε⟩

/-- **C183** `propagate_state` at the epoch, for a mean anomaly in the first revolution: the position is right to `5.5e-14`
semi-major axes, the velocity to `7.5e-13` mean velocities, and the solver of Kepler's equation does not fail. -/
theorem propagate_epoch (hr : Nearest rnd) (hl : LibM sn cs) (fused b : Bool) (fl : ℕ → Bool) {GM a e M0 r : ℝ} (i O o : ℝ)
    (w : Ax) (hG : 1 / 2 ^ 100 ≤ GM) (ha : 1 / 2 ^ 100 ≤ a) (ha' : a ≤ 2 ^ 100) (h0 : 0 ≤ e) (h1 : e ≤ 17 / 20)
    (hM : IsDouble M0) (hM0 : 0 ≤ M0) (hM1 : M0 < rnd (2 * π)) (hsol : Solves e M0 r) :
    let k := keplerD rnd sn cs fused e (meanD rnd b GM a M0 0) (100 * 2 ^ (-52 : ℤ))
    k.2 = 0 ∧
      |posD rnd sn cs fl a e i O o k.1 w - w.of ((matT O o i).mulVec (perifocalR a e r))| ≤ 55 / 10 ^ 15 * a ∧
      |velD rnd sn cs fl GM a e i O o k.1 w - w.of ((matT O o i).mulVec (perifocalV GM a e r))| ≤
        75 / 10 ^ 14 * (√(GM * a) / a) := by
  rw [mean_epoch hr b GM a hM]
  intro k
  have s := (kepler_double_partial hr hl fused h0 h1 hM tolOk_default).1
  have E := (first_revolution hr hl fused h0 h1 hM hM0 hM1 tolOk_default hsol).1
  have a0 : 0 ≤ a := le_trans (by positivity) ha
  have h := propagate_error hr hl fl i O o w hG ha ha' h0 h1 E (by norm_num)
  exact ⟨s, h.1.trans (mul_le_mul_of_nonneg_right (by norm_num) a0), h.2.trans (mul_le_mul_of_nonneg_right (by norm_num)
      (div_nonneg (Real.sqrt_nonneg _) a0))⟩

/-- **C183** `propagate_state` and the vector overload of `elements2state` need not agree to the last bit, but for the same
eccentric anomaly they agree to `5.1e-14` semi-major axes and `3.6e-13` mean velocities. -/
theorem routes_agree (hr : Nearest rnd) (hl : LibM sn cs) (fl fl' : ℕ → Bool) {GM a e : ℝ} (E i O o : ℝ) (w : Ax)
    (hG : 1 / 2 ^ 100 ≤ GM) (ha : 1 / 2 ^ 100 ≤ a) (ha' : a ≤ 2 ^ 100) (h0 : 0 ≤ e) (h1 : e ≤ 17 / 20) :
    |posD rnd sn cs fl a e i O o E w - State.posD rnd sn cs fl' a e i O o E w| ≤ 51 / 10 ^ 15 * a ∧
      |velD rnd sn cs fl GM a e i O o E w - State.velD rnd sn cs fl' GM a e i O o E w| ≤
        36 / 10 ^ 14 * (√(GM * a) / a) := by
  have z : |E - E| ≤ 0 := by simp
  obtain ⟨p, v⟩ := propagate_error hr hl fl i O o w hG ha ha' h0 h1 z (by norm_num)
  have p' := State.pos_error hr hl fl' i O o w ha h0 h1 z (by norm_num)
  have v' := State.vel_error hr hl fl' i O o w hG ha ha' h0 h1 z (by norm_num)
  have a0 : 0 ≤ a := le_trans (by positivity) ha
  have c0 : 0 ≤ √(GM * a) / a := div_nonneg (Real.sqrt_nonneg _) a0
  constructor
  · have := abs_sub_le (posD rnd sn cs fl a e i O o E w) (w.of ((matT O o i).mulVec (perifocalR a e E)))
      (State.posD rnd sn cs fl' a e i O o E w)
    rw [abs_sub_comm (w.of _)] at this
    generalize w.of ((matT O o i).mulVec (perifocalR a e E)) = X at *
    clear hG ha ha' v v'
    linarith
  · have := abs_sub_le (velD rnd sn cs fl GM a e i O o E w) (w.of ((matT O o i).mulVec (perifocalV GM a e E)))
      (State.velD rnd sn cs fl' GM a e i O o E w)
    rw [abs_sub_comm (w.of _)] at this
    generalize w.of ((matT O o i).mulVec (perifocalV GM a e E)) = X at *
    generalize √(GM * a) / a = c at *
    clear hG ha ha' p p'
    linarith

/-- **C183** `propagate_state` at any time: the state of the exact orbit at the computed mean anomaly, with the error of the
eccentric anomaly that grows with the number of revolutions (C140); the error of the mean anomaly is that of C179. -/
theorem propagate_later (hr : Nearest rnd) (hl : LibM sn cs) (fused b : Bool) (fl : ℕ → Bool) {GM a e M0 dt : ℝ} (i O o : ℝ)
    (w : Ax) (hG : 1 / 2 ^ 100 ≤ GM) (ha : 1 / 2 ^ 100 ≤ a) (ha' : a ≤ 2 ^ 100) (h0 : 0 ≤ e) (h1 : e ≤ 17 / 20)
    (hM : |meanD rnd b GM a M0 dt| ≤ 10 ^ 8) :
    let M := meanD rnd b GM a M0 dt
    let k := keplerD rnd sn cs fused e M (100 * 2 ^ (-52 : ℤ))
    k.2 = 0 ∧ ∃ r, Solves e M r ∧
      |posD rnd sn cs fl a e i O o k.1 w - w.of ((matT O o i).mulVec (perifocalR a e r))| ≤
        (91 / 10 ^ 15 + 6 / 10 ^ 16 * |M|) * a ∧
      |velD rnd sn cs fl GM a e i O o k.1 w - w.of ((matT O o i).mulVec (perifocalV GM a e r))| ≤
        (14 / 10 ^ 13 + 26 / 10 ^ 15 * |M|) * (√(GM * a) / a) := by
  obtain ⟨s, r, hsol, hp, hv⟩ := State.later_state hr hl fused b fl i O o w hG ha ha' h0 h1 hM
  intro M k
  obtain ⟨p, v⟩ := routes_agree hr hl fl fl k.1 i O o w hG ha ha' h0 h1
  refine ⟨s, r, hsol, ?_, ?_⟩
  · have := abs_sub_le (posD rnd sn cs fl a e i O o k.1 w) (State.posD rnd sn cs fl a e i O o k.1 w)
      (w.of ((matT O o i).mulVec (perifocalR a e r)))
    have e1 : (91 / 10 ^ 15 + 6 / 10 ^ 16 * |M|) * a = 51 / 10 ^ 15 * a + (4 / 10 ^ 14 + 6 / 10 ^ 16 * |M|) * a := by ring
    rw [e1]
    exact this.trans (add_le_add p hp)
  · have := abs_sub_le (velD rnd sn cs fl GM a e i O o k.1 w) (State.velD rnd sn cs fl GM a e i O o k.1 w)
      (w.of ((matT O o i).mulVec (perifocalV GM a e r)))
    have e1 : (14 / 10 ^ 13 + 26 / 10 ^ 15 * |M|) * (√(GM * a) / a) =
        36 / 10 ^ 14 * (√(GM * a) / a) + (1 / 10 ^ 12 + 26 / 10 ^ 15 * |M|) * (√(GM * a) / a) +
          4 / 10 ^ 14 * (√(GM * a) / a) := by ring
    have a0 : 0 ≤ a := le_trans (by positivity) ha
    have c0 : 0 ≤ 4 / 10 ^ 14 * (√(GM * a) / a) := mul_nonneg (by norm_num) (div_nonneg (Real.sqrt_nonneg _) a0)
    rw [e1]
    exact (this.trans (add_le_add v hv)).trans (le_add_of_nonneg_right c0)

/-- A satellite at 7700 km, at the epoch: the hypothesis on the mean anomaly holds. -/
example (hr : Nearest rnd) (fl : ℕ → Bool) (i O o : ℝ) (w : Ax) :=
  propagate_later hr (libM_rnd hr) false false fl (GM := 398600441500000) (a := 7700000) (e := 1 / 100) (M0 := 1) (dt := 0)
    i O o w (by norm_num) (by norm_num) (by norm_num) (by norm_num) (by norm_num) (by
      rw [mean_epoch hr false _ _ (by simpa using isDouble_int (K := ℝ) 1 (by norm_num))]; norm_num)

/-- **C183** `core::elements2perifocal` computes, to the last bit, the perifocal coordinates of the two overloads of
`elements2state`. -/
theorem perifocal_same (b : Bool) (GM E e a : ℝ) :
    perifocalD rnd sn cs b GM E e a = (rfD rnd sn cs a e E, vfD rnd sn cs b GM a e E) := by
  unfold perifocalD rfD vfD vmagD rootD
  simp only [mul_comm (rnd (1 + e))]

/-- **C183** And so they are those of the exact orbit up to `1.01 ε + 1.4e-15` semi-major axes and
`45.3 ε + 3.7e-14` mean velocities. -/
theorem perifocal_error (hr : Nearest rnd) (hl : LibM sn cs) (b : Bool) {GM a e E r ε : ℝ} (hG : 1 / 2 ^ 100 ≤ GM)
    (ha : 1 / 2 ^ 100 ≤ a) (ha' : a ≤ 2 ^ 100) (h0 : 0 ≤ e) (h1 : e ≤ 17 / 20) (hE : |E - r| ≤ ε) (hε : ε ≤ 1 / 10 ^ 6) :
    let y := perifocalD rnd sn cs b GM E e a
    (|y.1.1 - (perifocalR a e r).x| ≤ (101 / 100 * ε + 14 / 10 ^ 16) * a ∧
      |y.1.2 - (perifocalR a e r).y| ≤ (101 / 100 * ε + 14 / 10 ^ 16) * a) ∧
      |y.2.1 - (perifocalV GM a e r).x| ≤ (453 / 10 * ε + 37 / 10 ^ 15) * (√(GM * a) / a) ∧
      |y.2.2 - (perifocalV GM a e r).y| ≤ (453 / 10 * ε + 37 / 10 ^ 15) * (√(GM * a) / a) := by
  rw [perifocal_same]
  have U : State.Unit a :=
    le_trans (one_div_le_one_div_of_le (by positivity) (pow_le_pow_right₀ (by norm_num) (by norm_num))) ha
  have V := (vmag_nr hr hl b hG ha ha' h0 h1 hE hε).1
  have ε0 := (abs_nonneg _).trans hE
  obtain ⟨p, q⟩ := rf_nr hr hl U h0 h1 hE hε
  obtain ⟨p', q'⟩ := vf_nr hr hl b hG ha ha' h0 h1 hE hε
  refine ⟨⟨p.err.trans (mul_le_mul_of_nonneg_right ?_ U.pos.le), q.err.trans (mul_le_mul_of_nonneg_right ?_ U.pos.le)⟩,
    p'.err.trans (mul_le_mul_of_nonneg_right ?_ V.pos.le), q'.err.trans (mul_le_mul_of_nonneg_right ?_ V.pos.le)⟩ <;>
    (unfold t; linarith)

/-! ### Examples -/

/-- A satellite at 7700 km with eccentricity 1/100 and mean anomaly 1: the hypotheses hold. -/
example (hr : Nearest rnd) (fl : ℕ → Bool) (i O o : ℝ) (w : Ax) : ∃ r, Solves (1 / 100) 1 r ∧
    |posD rnd (fun x => rnd (sin x)) (fun x => rnd (cos x)) fl 7700000 (1 / 100) i O o
      (keplerD rnd (fun x => rnd (sin x)) (fun x => rnd (cos x)) false (1 / 100)
        (meanD rnd false 398600441500000 7700000 1 0) (100 * 2 ^ (-52 : ℤ))).1 w -
      w.of ((matT O o i).mulVec (perifocalR 7700000 (1 / 100) r))| ≤ 55 / 10 ^ 15 * 7700000 := by
  obtain ⟨r, sol, -⟩ := Verif.Astro.kepler_unique (1 / 100) 1 (by norm_num) (by norm_num)
  have d1 : IsDouble (1 : ℝ) := by simpa using isDouble_int (K := ℝ) 1 (by norm_num)
  have two : (1 : ℝ) < rnd (2 * π) := by rw [rnd_two_pi hr]; norm_num
  exact ⟨r, sol, (propagate_epoch hr (libM_rnd hr) false false fl i O o w (by norm_num) (by norm_num) (by norm_num)
    (by norm_num) (by norm_num) d1 (by norm_num) two sol).2.1⟩

/-- The two routes for an orbit with eccentricity 1/2. -/
example (fl : ℕ → Bool) (w : Ax) :
    |posD rnd64 (fun x => rnd64 (sin x)) (fun x => rnd64 (cos x)) fl 10000000 (1 / 2) 1 2 3 4 w -
      State.posD rnd64 (fun x => rnd64 (sin x)) (fun x => rnd64 (cos x)) fl 10000000 (1 / 2) 1 2 3 4 w| ≤ 1 / 10 ^ 6 :=
  ((routes_agree rnd64_nearest (libM_rnd rnd64_nearest) fl fl (GM := 398600441500000) 4 1 2 3 w (by norm_num) (by norm_num)
    (by norm_num) (by norm_num) (by norm_num)).1).trans (by norm_num)

end Verif.Float.Quat
