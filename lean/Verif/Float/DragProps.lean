import Verif.Float.DragModel
import Verif.Float.ForceProps
import Verif.Float.InterpProps

/-
C174: atmospheric drag and its partials in double arithmetic.
-/
namespace Verif.Float.Drag

open Verif.Astro (V3 M3)

variable {rnd : ℝ → ℝ}

/-! ### Vectors -/

theorem dot_le_norm (a b : V3) : a.dot b ≤ a.norm * b.norm := by
  rw [V3.norm, V3.norm, ← Real.sqrt_mul a.dot_self_nonneg]
  refine Real.le_sqrt_of_sq_le ?_
  unfold V3.dot
  nlinarith [sq_nonneg (a.x * b.y - a.y * b.x), sq_nonneg (a.x * b.z - a.z * b.x), sq_nonneg (a.y * b.z - a.z * b.y)]

theorem norm_le_of_sq {a : V3} {k : ℝ} (hk : 0 ≤ k) (h : a.dot a ≤ k * k) : a.norm ≤ k := by
  rw [V3.norm, ← Real.sqrt_mul_self hk]
  exact Real.sqrt_le_sqrt h

theorem norm_sub_le (a b : V3) : |a.norm - b.norm| ≤ (a.sub b).norm := by
  have key : ∀ p q : V3, p.norm ≤ q.norm + (p.sub q).norm := by
    intro p q
    refine norm_le_of_sq (add_nonneg q.norm_nonneg (p.sub q).norm_nonneg) ?_
    have c := dot_le_norm q (p.sub q)
    have h1 := V3.norm_sq q
    have h2 := V3.norm_sq (p.sub q)
    have e : p.dot p = q.dot q + 2 * q.dot (p.sub q) + (p.sub q).dot (p.sub q) := by
      simp only [V3.dot, V3.sub]; ring
    nlinarith
  have s : (b.sub a).norm = (a.sub b).norm := by
    unfold V3.norm; congr 1; simp only [V3.dot, V3.sub]; ring
  have h1 := key a b
  have h2 := key b a
  rw [abs_le]
  constructor <;> linarith

theorem abs_of_le_norm (v : V3) (a : Ax) : |a.of v| ≤ v.norm := by
  rw [V3.norm, ← Real.sqrt_mul_self_eq_abs]
  refine Real.sqrt_le_sqrt ?_
  unfold V3.dot
  cases a <;> simp only [Ax.of] <;> nlinarith [mul_self_nonneg v.x, mul_self_nonneg v.y, mul_self_nonneg v.z]

theorem norm_smul (k : ℝ) (v : V3) : (v.smul k).norm = |k| * v.norm := by
  rw [V3.norm, V3.norm, ← Real.sqrt_mul_self_eq_abs, ← Real.sqrt_mul (mul_self_nonneg k)]
  congr 1
  simp only [V3.dot, V3.smul]
  ring

/-- Componentwise bounds bound the length. -/
theorem norm_le_of_comp {e v c : V3} {p q : ℝ} (hp : 0 ≤ p) (hq : 0 ≤ q)
    (h : ∀ a : Ax, |a.of e| ≤ p * |a.of v| + q * |a.of c|) : e.norm ≤ p * v.norm + q * c.norm := by
  have hv := v.norm_nonneg
  have hc := c.norm_nonneg
  refine norm_le_of_sq (by positivity) ?_
  have cs := dot_le_norm (⟨|v.x|, |v.y|, |v.z|⟩ : V3) ⟨|c.x|, |c.y|, |c.z|⟩
  have n : ∀ t : V3, (⟨|t.x|, |t.y|, |t.z|⟩ : V3).norm = t.norm := by
    intro t
    unfold V3.norm V3.dot
    simp only [abs_mul_abs_self]
  rw [n, n] at cs
  simp only [V3.dot] at cs
  have sq : ∀ {s t : ℝ}, |s| ≤ t → s * s ≤ t * t := by
    intro s t hst
    rw [← abs_mul_abs_self s]
    exact mul_self_le_mul_self (abs_nonneg s) hst
  have hx := sq (h .x)
  have hy := sq (h .y)
  have hz := sq (h .z)
  simp only [Ax.of] at hx hy hz
  have v2 := V3.norm_sq v
  have c2 := V3.norm_sq c
  simp only [V3.dot] at v2 c2 ⊢
  have x1 := abs_mul_abs_self v.x
  have y1 := abs_mul_abs_self v.y
  have z1 := abs_mul_abs_self v.z
  have x2 := abs_mul_abs_self c.x
  have y2 := abs_mul_abs_self c.y
  have z2 := abs_mul_abs_self c.z
  have pq := mul_le_mul_of_nonneg_left cs (mul_nonneg hp hq)
  calc _ ≤ (p * |v.x| + q * |c.x|) * (p * |v.x| + q * |c.x|) + (p * |v.y| + q * |c.y|) * (p * |v.y| + q * |c.y|) +
        (p * |v.z| + q * |c.z|) * (p * |v.z| + q * |c.z|) := by linarith
    _ = p * p * (|v.x| * |v.x| + |v.y| * |v.y| + |v.z| * |v.z|) +
        2 * (p * q * (|v.x| * |c.x| + |v.y| * |c.y| + |v.z| * |c.z|)) +
        q * q * (|c.x| * |c.x| + |c.y| * |c.y| + |c.z| * |c.z|) := by ring
    _ ≤ p * p * (v.norm * v.norm) + 2 * (p * q * (v.norm * c.norm)) + q * q * (c.norm * c.norm) := by
        rw [x1, y1, z1, x2, y2, z2, v2, c2]
        linarith
    _ = _ := by ring

/-! ### The relative velocity -/

theorem sub2_right (hr : Nearest rnd) (m : FuseP) {q : ℝ} (hq : Big 1000 q) : Rel 1 (sub2D rnd m 0 q) (-q) := by
  have r := (Rel.refl q).rb hr (by omega) hq
  have n : rnd (0 - rnd q) = -rnd q := by rw [zero_sub]; exact hr.exact (hr.mem q).neg
  cases m with
  | none => simp only [sub2D, hr.zero, n]; exact r.neg
  | left => simp only [sub2D, n]; exact r.neg
  | right =>
    simp only [sub2D, hr.zero, zero_sub]
    exact (Rel.refl (-q)).rb hr (by omega) (by rcases hq with rfl | h; exact Or.inl (by simp); exact Or.inr (by rwa [abs_neg]))

theorem sub2_left (hr : Nearest rnd) (m : FuseP) {p : ℝ} (hp : Big 1000 p) : Rel 1 (sub2D rnd m p 0) p := by
  have r := (Rel.refl p).rb hr (by omega) hp
  have n : rnd (rnd p - 0) = rnd p := by rw [sub_zero]; exact hr.exact (hr.mem p)
  cases m with
  | none => simp only [sub2D, hr.zero, n]; exact r
  | left => simp only [sub2D, hr.zero, sub_zero]; exact r
  | right => simp only [sub2D, n]; exact r

theorem sub2_mem (hr : Nearest rnd) (m : FuseP) (p q : ℝ) : IsDouble (sub2D rnd m p q) := by
  cases m <;> exact hr.mem _

/-- The velocity of the rotating air, up to one rounding. -/
theorem cross_rel (hr : Nearest rnd) (m : FuseP) {w : ℝ} {r : V3} (bw : Big 100 w) (br : Fit r) (a : Ax) :
    Rel 1 (a.of (crossD rnd m ⟨0, 0, w⟩ r)) (a.of ((Forces.earthRate w).cross r)) := by
  cases a with
  | x =>
    simp only [Ax.of, crossD, V3.cross, Forces.earthRate, zero_mul, zero_sub]
    exact sub2_right hr m ((bw.mul br.2.1).mono (by norm_num))
  | y =>
    simp only [Ax.of, crossD, V3.cross, Forces.earthRate, zero_mul, sub_zero]
    exact sub2_left hr m ((bw.mul br.1).mono (by norm_num))
  | z =>
    simp only [Ax.of, crossD, V3.cross, Forces.earthRate, zero_mul, sub_zero]
    exact sub2_left hr m (Or.inl rfl)

/-- **C174.**  Every component of the relative velocity: one rounding of its own and three of the velocity of the air. -/
theorem relVel_error (hr : Nearest rnd) (m : FuseP) {w : ℝ} {r v : V3} (bw : Big 100 w) (br : Fit r)
    (hv : ∀ a : Ax, IsDouble (a.of v)) (a : Ax) :
    |a.of (relVelD rnd m w r v) - a.of (Forces.relVel w r v)| ≤
      u * |a.of (Forces.relVel w r v)| + 3 * u * |a.of ((Forces.earthRate w).cross r)| := by
  have c := (cross_rel hr m bw br a).err ((mul_u_le (by norm_num)).trans (by norm_num))
  have md : IsDouble (a.of (crossD rnd m ⟨0, 0, w⟩ r)) := by
    cases a <;> exact sub2_mem hr m _ _
  have s : |rnd (a.of v - a.of (crossD rnd m ⟨0, 0, w⟩ r)) - (a.of v - a.of (crossD rnd m ⟨0, 0, w⟩ r))| ≤
      u * |a.of v - a.of (crossD rnd m ⟨0, 0, w⟩ r)| := hr.sub_rel (hv a) md
  have e1 : a.of (relVelD rnd m w r v) = rnd (a.of v - a.of (crossD rnd m ⟨0, 0, w⟩ r)) := by cases a <;> rfl
  have e2 : a.of (Forces.relVel w r v) = a.of v - a.of ((Forces.earthRate w).cross r) := by cases a <;> rfl
  rw [e1, e2]
  generalize a.of (crossD rnd m ⟨0, 0, w⟩ r) = C at *
  generalize a.of ((Forces.earthRate w).cross r) = c0 at *
  generalize a.of v = V at *
  have u0 := u_pos
  have u1 : u ≤ 1 / 4 := u_le.trans (by norm_num)
  norm_num at c
  have t1 : |rnd (V - C) - (V - c0)| ≤ |rnd (V - C) - (V - C)| + |C - c0| := by
    have := abs_add_le (rnd (V - C) - (V - C)) (-(C - c0))
    rw [abs_neg] at this
    refine le_trans (le_of_eq ?_) this
    congr 1; ring
  have t2 : |V - C| ≤ |V - c0| + |C - c0| := by
    have := abs_add_le (V - c0) (-(C - c0))
    rw [abs_neg] at this
    refine le_trans (le_of_eq ?_) this
    congr 1; ring
  have c0n := abs_nonneg c0
  generalize |rnd (V - C) - (V - c0)| = A at *
  generalize |rnd (V - C) - (V - C)| = B at *
  generalize |C - c0| = D at *
  generalize |V - C| = E at *
  generalize |V - c0| = F at *
  generalize |c0| = G at *
  generalize u = k at *
  have h1 : k * E ≤ k * (F + D) := mul_le_mul_of_nonneg_left t2 u0.le
  have h2 : k * D ≤ k * (2 * k * G) := mul_le_mul_of_nonneg_left c u0.le
  have h3 : k * (k * G) ≤ 1 / 4 * (k * G) := mul_le_mul_of_nonneg_right u1 (by positivity)
  have h4 : 0 ≤ k * G := by positivity
  nlinarith

/-! ### The acceleration -/

theorem sqD_nonneg (hr : Nearest rnd) (f : FuseN) (x y z : ℝ) : 0 ≤ sqD rnd f x y z := by
  have i : 0 ≤ sum2D rnd f.inner (y * y) (z * z) := by
    cases f.inner
    · exact hr.nonneg (add_nonneg (hr.nonneg (mul_self_nonneg _)) (hr.nonneg (mul_self_nonneg _)))
    · exact hr.nonneg (add_nonneg (mul_self_nonneg _) (hr.nonneg (mul_self_nonneg _)))
    · exact hr.nonneg (add_nonneg (hr.nonneg (mul_self_nonneg _)) (mul_self_nonneg _))
  unfold sqD
  simp only
  split_ifs
  · exact hr.nonneg (add_nonneg (mul_self_nonneg _) i)
  · exact hr.nonneg (add_nonneg (hr.nonneg (mul_self_nonneg _)) i)

theorem area_rel (hr : Nearest rnd) {CD Area Mass : ℝ} (bC : Big 100 CD) (bA : Big 100 Area) (m0 : Mass ≠ 0)
    (m1 : |Mass| ≤ 2 ^ 100) : Rel 3 (areaD rnd CD Area Mass) (-(1 / 2) * CD * (Area / Mass)) ∧
      Big 301 (-(1 / 2) * CD * (Area / Mass)) := by
  have bh : Big 1 (-(1 / 2) : ℝ) := Or.inr (by norm_num)
  have b1 := bh.mul bC
  have b2 := bA.div m1 m0
  have k1 := ((Rel.refl (-(1 / 2) : ℝ)).mul (Rel.refl CD)).rb hr (by omega) (b1.mono (by norm_num))
  have k2 := ((Rel.refl Area).div (Rel.refl Mass)).rb hr (by omega) (b2.mono (by norm_num))
  exact ⟨(k1.mul k2).rb hr (by omega) ((b1.mul b2).mono (by norm_num)), (b1.mul b2).mono (by norm_num)⟩

/-- **C174.**  For the relative velocity it is given, the acceleration is that of the law up to 14 roundings. -/
theorem acc_rel (hr : Nearest rnd) (f g : FuseN) {CD Area Mass dens : ℝ} (v : V3) (a : Ax) (bC : Big 100 CD)
    (bA : Big 100 Area) (m0 : Mass ≠ 0) (m1 : |Mass| ≤ 2 ^ 100) (bd : Big 100 dens) (hv : Fit v)
    (v1 : v.norm ≤ 2 ^ 100) :
    Rel 14 (accD rnd f g CD Area Mass dens v a) (-(1 / 2) * CD * (Area / Mass) * dens * v.norm * a.of v) := by
  obtain ⟨k, bk⟩ := area_rel hr bC bA m0 m1
  unfold accD
  generalize areaD rnd CD Area Mass = K at *
  generalize -(1 / 2) * CD * (Area / Mass) = K' at *
  have k3 := (k.mul (Rel.refl dens)).rb hr (by omega) ((bk.mul bd).mono (by norm_num))
  have s := sq_rel hr f (by omega) (RelV.refl v) hv
  have s' := sq_rel hr g (by omega) (RelV.refl v) hv
  have k4 := (k3.mul s).rb hr (by omega) (((bk.mul bd).mul (dot_big hv)).mono (by norm_num))
  by_cases h0 : v = ⟨0, 0, 0⟩
  · have e : a.of v = 0 := by rw [h0]; cases a <;> rfl
    have n0 : normalizedD rnd g v a = 0 := by
      unfold normalizedD
      split_ifs
      · rw [e, zero_div, hr.zero]
      · exact e
    rw [n0, e, mul_zero, mul_zero, hr.zero]
    exact (Rel.refl 0).mono (by omega)
  · have np := V3.norm_pos v h0
    have dp : 0 < v.dot v := by rw [← V3.norm_sq]; positivity
    have sp : 0 < sqD rnd g v.x v.y v.z := by
      refine lt_of_le_of_ne (sqD_nonneg hr g _ _ _) fun e => ?_
      obtain ⟨ρ, h1, -, h3⟩ := s'
      rw [← e] at h3
      have : 0 < ρ * v.dot v := mul_pos ((pow_u_pos _).trans_le h1) dp
      linarith
    have hn : normalizedD rnd g v a = rnd (a.of v / nrmD rnd g v) := by
      unfold normalizedD nrmD
      rw [if_pos sp]
    rw [hn]
    have n := nrm_rel hr g (by omega) (RelV.refl v) hv
    have bq := (hv.of a).div (n := 100) (by rwa [abs_of_pos np]) np.ne'
    have q := ((Rel.refl (a.of v)).div n).rb hr (by omega) (bq.mono (by norm_num))
    have fin := (k4.mul q).rb hr (by omega) ((((bk.mul bd).mul (dot_big hv)).mul bq).mono (by norm_num))
    have e : K' * dens * v.dot v * (a.of v / v.norm) = K' * dens * v.norm * a.of v := by
      rw [← V3.norm_sq]; field_simp
    rw [e] at fin
    exact fin.mono (by omega)

/-- **C174.**  The computed acceleration never has the direction of the computed relative velocity, in any component
and for inputs of any size. -/
theorem acc_opposes (hr : Nearest rnd) (f g : FuseN) {CD Area Mass dens : ℝ} (v : V3) (a : Ax) (hC : 0 ≤ CD)
    (hA : 0 ≤ Area) (hM : 0 ≤ Mass) (hd : 0 ≤ dens) :
    (0 ≤ a.of v → accD rnd f g CD Area Mass dens v a ≤ 0) ∧ (a.of v ≤ 0 → 0 ≤ accD rnd f g CD Area Mass dens v a) := by
  have k1 : areaD rnd CD Area Mass ≤ 0 :=
    hr.nonpos (mul_nonpos_of_nonpos_of_nonneg (hr.nonpos (by nlinarith)) (hr.nonneg (div_nonneg hA hM)))
  have k2 : rnd (rnd (areaD rnd CD Area Mass * dens) * sqD rnd f v.x v.y v.z) ≤ 0 :=
    hr.nonpos (mul_nonpos_of_nonpos_of_nonneg (hr.nonpos (mul_nonpos_of_nonpos_of_nonneg k1 hd)) (sqD_nonneg hr f _ _ _))
  have s : 0 ≤ rnd (√(sqD rnd g v.x v.y v.z)) := hr.nonneg (Real.sqrt_nonneg _)
  unfold accD normalizedD
  constructor <;> intro h <;> split_ifs
  · exact hr.nonpos (mul_nonpos_of_nonpos_of_nonneg k2 (hr.nonneg (div_nonneg h s)))
  · exact hr.nonpos (mul_nonpos_of_nonpos_of_nonneg k2 h)
  · exact hr.nonneg (mul_nonneg_of_nonpos_of_nonpos k2 (hr.nonpos (div_nonpos_of_nonpos_of_nonneg h s)))
  · exact hr.nonneg (mul_nonneg_of_nonpos_of_nonpos k2 h)

/-- **C174.**  A satellite at rest with respect to the air feels exactly nothing: the length zero is not divided by. -/
theorem acc_rest (hr : Nearest rnd) (f g : FuseN) (CD Area Mass dens : ℝ) (a : Ax) :
    accD rnd f g CD Area Mass dens ⟨0, 0, 0⟩ a = 0 := by
  have e : a.of (⟨0, 0, 0⟩ : V3) = 0 := by cases a <;> rfl
  unfold accD normalizedD
  split_ifs
  · rw [e, zero_div, hr.zero, mul_zero, hr.zero]
  · rw [e, mul_zero, hr.zero]

/-- **C174.**  `drag_accel` in double arithmetic: where the air does not move faster than the satellite moves through
it, every component is within 5e-15 of the size of the acceleration. -/
theorem drag_error (hr : Nearest rnd) (m : FuseP) (f g : FuseN) {w CD Area Mass dens : ℝ} {r v : V3} (a : Ax)
    (bw : Big 100 w) (br : Fit r) (hv : ∀ a : Ax, IsDouble (a.of v)) (bC : Big 100 CD) (bA : Big 100 Area)
    (m0 : Mass ≠ 0) (m1 : |Mass| ≤ 2 ^ 100) (bd : Big 100 dens) (hf : Fit (relVelD rnd m w r v))
    (slow : ((Forces.earthRate w).cross r).norm ≤ (Forces.relVel w r v).norm)
    (v1 : (Forces.relVel w r v).norm ≤ 2 ^ 99) :
    |dragD rnd m f g w r v Area CD Mass dens a - a.of (Forces.drag w r v Area CD Mass dens)| ≤
      5 / 10 ^ 15 * (Forces.drag w r v Area CD Mass dens).norm := by
  rw [Forces.drag_law, norm_smul]
  have hl : a.of ((Forces.relVel w r v).smul (-(1 / 2) * CD * (Area / Mass) * dens * (Forces.relVel w r v).norm)) =
      -(1 / 2) * CD * (Area / Mass) * dens * (Forces.relVel w r v).norm * a.of (Forces.relVel w r v) := by
    cases a <;> rfl
  rw [hl]
  unfold dragD
  have E : ((relVelD rnd m w r v).sub (Forces.relVel w r v)).norm ≤
      u * (Forces.relVel w r v).norm + 3 * u * ((Forces.earthRate w).cross r).norm := by
    refine norm_le_of_comp u_pos.le (by have := u_pos; linarith) fun b => ?_
    have := relVel_error hr m bw br hv b
    refine le_trans (le_of_eq ?_) this
    cases b <;> rfl
  have u0 := u_pos
  have ul := u_le
  have u1 : u ≤ 1 / 10 ^ 15 := u_le.trans (by norm_num)
  have E4 : ((relVelD rnd m w r v).sub (Forces.relVel w r v)).norm ≤ 4 * u * (Forces.relVel w r v).norm := by
    have := mul_le_mul_of_nonneg_left slow u0.le
    nlinarith
  have vn := (Forces.relVel w r v).norm_nonneg
  have dn := abs_le.1 (norm_sub_le (relVelD rnd m w r v) (Forces.relVel w r v))
  have da : |a.of (relVelD rnd m w r v) - a.of (Forces.relVel w r v)| ≤
      ((relVelD rnd m w r v).sub (Forces.relVel w r v)).norm := by
    refine le_trans (le_of_eq ?_) (abs_of_le_norm _ a)
    cases a <;> rfl
  have va := abs_of_le_norm (Forces.relVel w r v) a
  have wa := abs_of_le_norm (relVelD rnd m w r v) a
  have wn := (relVelD rnd m w r v).norm_nonneg
  generalize hW : relVelD rnd m w r v = W at *
  generalize hV : Forces.relVel w r v = V at *
  have small : 4 * u * V.norm ≤ 4 / 10 ^ 15 * V.norm := mul_le_mul_of_nonneg_right (by linarith) vn
  have W1 : W.norm ≤ 2 ^ 100 := by
    norm_num at v1 small ⊢
    linarith [dn.2]
  have rel := (acc_rel hr f g W a bC bA m0 m1 bd hf W1).err ((mul_u_le (by norm_num)).trans (by norm_num))
  generalize accD rnd f g CD Area Mass dens W a = R at *
  generalize -(1 / 2) * CD * (Area / Mass) * dens = K at *
  rw [abs_mul, abs_of_nonneg vn]
  rw [abs_mul, abs_mul, abs_of_nonneg wn] at rel
  have dd := dn.2
  have ee : |W.norm - V.norm| ≤ (W.sub V).norm := abs_le.2 dn
  generalize (W.sub V).norm = ε at *
  generalize W.norm = p at *
  generalize V.norm = q at *
  generalize hx : a.of W = x at *
  generalize hy : a.of V = y at *
  have K0 := abs_nonneg K
  -- the two parts of the error
  have t1 : |K * p * x - K * q * y| ≤ |K| * (ε * (p + q)) := by
    have e : K * p * x - K * q * y = K * (p * (x - y) + (p - q) * y) := by ring
    rw [e, abs_mul]
    refine mul_le_mul_of_nonneg_left ((abs_add_le _ _).trans ?_) K0
    rw [abs_mul, abs_mul, abs_of_nonneg wn]
    have h1 := mul_le_mul_of_nonneg_left da wn
    have h2 := mul_le_mul ee va (abs_nonneg y) ((abs_nonneg _).trans ee)
    linarith
  have t0 : |R - K * q * y| ≤ |R - K * p * x| + |K * p * x - K * q * y| := by
    have := abs_add_le (R - K * p * x) (K * p * x - K * q * y)
    rwa [sub_add_sub_cancel] at this
  norm_num at rel
  have pq : p ≤ q * (1 + 1 / 10 ^ 10) := by
    norm_num at small ⊢
    linarith
  have r1 : |R - K * p * x| ≤ 28 * u * (|K| * (p * p)) := by
    refine rel.trans (mul_le_mul_of_nonneg_left ?_ (by linarith))
    rw [mul_assoc]
    exact mul_le_mul_of_nonneg_left (mul_le_mul_of_nonneg_left wa wn) K0
  have pp : p * p ≤ (q * (1 + 1 / 10 ^ 10)) * (q * (1 + 1 / 10 ^ 10)) := mul_self_le_mul_self wn pq
  have qq : 0 ≤ q * q := mul_self_nonneg q
  have r2 : |K| * (p * p) ≤ |K| * (q * q * (1 + 3 / 10 ^ 10)) := by
    refine mul_le_mul_of_nonneg_left ?_ K0
    norm_num at pp ⊢
    nlinarith
  have r3 : |K| * (ε * (p + q)) ≤ |K| * (4 * u * (q * q) * (2 + 1 / 10 ^ 10)) := by
    refine mul_le_mul_of_nonneg_left ?_ K0
    have : ε * (p + q) ≤ 4 * u * q * (q * (2 + 1 / 10 ^ 10)) := by
      refine mul_le_mul E4 ?_ (by linarith) (by positivity)
      norm_num at pq ⊢
      linarith
    linarith
  have Kq : 0 ≤ |K| * (q * q) := by positivity
  have r4 : 28 * u * (|K| * (p * p)) ≤ 28 * u * (|K| * (q * q * (1 + 3 / 10 ^ 10))) :=
    mul_le_mul_of_nonneg_left r2 (by linarith)
  have tot : |R - K * q * y| ≤ u * 37 * (|K| * (q * q)) := by
    have h0 : 0 ≤ u * (|K| * (q * q)) := by positivity
    norm_num at r3 r4 ⊢
    nlinarith
  have fin : u * 37 * (|K| * (q * q)) ≤ 5 / 10 ^ 15 * (|K| * (q * q)) := by
    refine mul_le_mul_of_nonneg_right ?_ Kq
    norm_num at ul ⊢
    linarith
  linarith

/-! ### The partials -/

/-- **C174.**  Partials with respect to the coefficient: ten roundings. -/
theorem dc_rel (hr : Nearest rnd) (f : FuseN) {Area Mass dens : ℝ} (v : V3) (a : Ax) (bA : Big 100 Area) (m0 : Mass ≠ 0)
    (m1 : |Mass| ≤ 2 ^ 100) (bd : Big 100 dens) (hv : Fit v) :
    Rel 10 (dcD rnd f Area Mass dens v a) (-(1 / 2) * (Area / Mass) * dens * v.norm * a.of v) := by
  have bh : Big 1 (-(1 / 2) : ℝ) := Or.inr (by norm_num)
  have b1 := bA.div m1 m0
  have b2 := bh.mul b1
  have b3 := b2.mul bd
  have b4 := b3.mul (norm_big hv)
  have k1 := ((Rel.refl Area).div (Rel.refl Mass)).rb hr (by omega) (b1.mono (by norm_num))
  have k2 := ((Rel.refl (-(1 / 2) : ℝ)).mul k1).rb hr (by omega) (b2.mono (by norm_num))
  have k3 := (k2.mul (Rel.refl dens)).rb hr (by omega) (b3.mono (by norm_num))
  have k4 := (k3.mul (nrm_rel hr f (by omega) (RelV.refl v) hv)).rb hr (by omega) (b4.mono (by norm_num))
  exact ((k4.mul (Rel.refl (a.of v))).rb hr (by omega) ((b4.mul (hv.of a)).mono (by norm_num))).mono (by omega)

/-- Entry of the exact partials with respect to velocity. -/
noncomputable def dvE (CD Area Mass dens : ℝ) (v : V3) (a b : Ax) : ℝ :=
  -(1 / 2) * CD * (Area / Mass) * dens * ((if a = b then v.norm else 0) + a.of v * b.of v / v.norm)

/-- **C174.**  Partials with respect to velocity: twelve roundings in every entry. -/
theorem dv_rel (hr : Nearest rnd) (f g : FuseN) {CD Area Mass dens : ℝ} (v : V3) (a b : Ax) (bC : Big 100 CD)
    (bA : Big 100 Area) (m0 : Mass ≠ 0) (m1 : |Mass| ≤ 2 ^ 100) (bd : Big 100 dens) (hv : Fit v) (h0 : v ≠ ⟨0, 0, 0⟩)
    (v1 : v.norm ≤ 2 ^ 100) : Rel 12 (dvD rnd f g CD Area Mass dens v a b) (dvE CD Area Mass dens v a b) ∧
      Big 701 (dvE CD Area Mass dens v a b) := by
  obtain ⟨k, bk⟩ := area_rel hr bC bA m0 m1
  unfold dvD dvE
  generalize areaD rnd CD Area Mass = K at *
  generalize -(1 / 2) * CD * (Area / Mass) = K' at *
  have np := V3.norm_pos v h0
  have k3 := (k.mul (Rel.refl dens)).rb hr (by omega) ((bk.mul bd).mono (by norm_num))
  have n := nrm_rel hr f (by omega) (RelV.refl v) hv
  have n' := nrm_rel hr g (by omega) (RelV.refl v) hv
  have bp := (hv.of a).mul (hv.of b)
  have bq := bp.div (n := 100) (by rwa [abs_of_pos np]) np.ne'
  have p := ((Rel.refl (a.of v)).mul (Rel.refl (b.of v))).rb hr (by omega) (bp.mono (by norm_num))
  have q := (p.div n').rb hr (by omega) (bq.mono (by norm_num))
  by_cases h : a = b
  · subst h
    simp only [if_true]
    rw [mul_one]
    have q0 : 0 ≤ a.of v * a.of v / v.norm := div_nonneg (mul_self_nonneg _) np.le
    have b := ((norm_big hv).mono (n := 300) (by norm_num)).add bq np.le q0
    have s := (((n.rb hr (by omega) ((norm_big hv).mono (by norm_num))).mono (n := 6) (by omega)).add
      (q.mono (n := 6) (by omega)) np.le q0).rb hr (by omega) (b.mono (by norm_num))
    exact ⟨((k3.mul s).rb hr (by omega) (((bk.mul bd).mul b).mono (by norm_num))).mono (by omega),
      ((bk.mul bd).mul b).mono (by norm_num)⟩
  · rw [if_neg h, if_neg h, mul_zero, hr.zero, zero_add, zero_add]
    have s := q.rb hr (by omega) (bq.mono (by norm_num))
    exact ⟨((k3.mul s).rb hr (by omega) (((bk.mul bd).mul bq).mono (by norm_num))).mono (by omega),
      ((bk.mul bd).mul bq).mono (by norm_num)⟩

/-- **C174.**  The computed partials with respect to velocity are exactly symmetric. -/
theorem dv_symm (f g : FuseN) (CD Area Mass dens : ℝ) (v : V3) (a b : Ax) :
    dvD rnd f g CD Area Mass dens v a b = dvD rnd f g CD Area Mass dens v b a := by
  unfold dvD
  by_cases h : a = b
  · rw [h]
  · rw [mul_comm (a.of v), if_neg h, if_neg (fun e => h e.symm)]

/-- Entry of the product of a row `e` with the cross-product matrix of the rotation. -/
def rowX (w : ℝ) (e : V3) : Ax → ℝ
  | .x => e.y * w
  | .y => e.x * -w
  | .z => 0

/-- Entry of the product of the exact partials with the cross-product matrix of the rotation. -/
noncomputable def dvXE (w CD Area Mass dens : ℝ) (v : V3) (a b : Ax) : ℝ :=
  rowX w ⟨dvE CD Area Mass dens v a .x, dvE CD Area Mass dens v a .y, dvE CD Area Mass dens v a .z⟩ b

/-- Row of a matrix. -/
def rowOf : Ax → M3 → V3
  | .x, m => m.r0
  | .y, m => m.r1
  | .z, m => m.r2

/-- The entries are those of the exact model of the partials with respect to velocity. -/
theorem dragDV_entry (w : ℝ) (r v : V3) (Area CD Mass dens : ℝ) (a b : Ax) :
    b.of (rowOf a (Forces.dragDV w r v Area CD Mass dens)) = dvE CD Area Mass dens (Forces.relVel w r v) a b := by
  cases a <;> cases b <;>
    simp only [rowOf, Ax.of, Forces.dragDV, dvE, M3.smul, M3.add, M3.one, M3.outer, V3.smul, V3.add, if_true,
      reduceCtorEq, if_false] <;> ring

/-- The entries are those of the exact model of the partials with respect to position. -/
theorem dragDR_entry (w : ℝ) (r v grad : V3) (Area CD Mass dens : ℝ) (a b : Ax) :
    b.of (rowOf a (Forces.dragDR w r v Area CD Mass dens grad)) =
      -(1 / 2) * CD * (Area / Mass) * (Forces.relVel w r v).norm * a.of (Forces.relVel w r v) * b.of grad -
        dvXE w CD Area Mass dens (Forces.relVel w r v) a b := by
  cases a <;> cases b <;>
    simp only [rowOf, Ax.of, Forces.dragDR, Forces.dragDV, Forces.xOmega, dvXE, rowX, dvE, M3.smul, M3.add, M3.mul,
      M3.mulVec, M3.transpose, M3.one, M3.outer, V3.smul, V3.add, V3.dot, if_true, reduceCtorEq, if_false] <;> ring

/-- The products with zero do not add roundings. -/
theorem mulX_rel (hr : Nearest rnd) {w : ℝ} (bw : Big 100 w) {d e : V3} {k : ℕ} (hk : k ≤ 900) (h : RelV k d e)
    (bx : Big 701 e.x) (bY : Big 701 e.y) (b : Ax) :
    Rel (k + 1) (mulXD rnd d (xOmegaCol w b)) (rowX w e b) := by
  cases b with
  | x =>
    simp only [mulXD, xOmegaCol, mul_zero, hr.zero, zero_add, add_zero]
    rw [hr.exact (hr.mem _), hr.exact (hr.mem _)]
    exact (h.2.1.mul (Rel.refl w)).rb hr (by omega) ((bY.mul bw).mono (by norm_num))
  | y =>
    simp only [mulXD, xOmegaCol, mul_zero, hr.zero, zero_add, add_zero]
    rw [hr.exact (hr.mem _), hr.exact (hr.mem _)]
    have bn : Big 100 (-w) := by rcases bw with rfl | q; exact Or.inl (by simp); exact Or.inr (by rwa [abs_neg])
    exact (h.1.mul (Rel.refl (-w))).rb hr (by omega) ((bx.mul bn).mono (by norm_num))
  | z =>
    simp only [mulXD, xOmegaCol, mul_zero, hr.zero, add_zero]
    exact (Rel.refl 0).mono (by omega)

/-- **C174.**  Partials with respect to position, for the relative velocity they are given: the error is a few roundings
of the two terms whose difference they are. -/
theorem dr_error (hr : Nearest rnd) (f g h : FuseN) {w CD Area Mass dens : ℝ} (v grad : V3) (a b : Ax) (bw : Big 100 w)
    (bC : Big 100 CD) (bA : Big 100 Area) (m0 : Mass ≠ 0) (m1 : |Mass| ≤ 2 ^ 100) (bd : Big 100 dens) (bg : Fit grad)
    (hv : Fit v) (h0 : v ≠ ⟨0, 0, 0⟩) (v1 : v.norm ≤ 2 ^ 100) :
    |drD rnd f g h w CD Area Mass dens v grad a b -
      (-(1 / 2) * CD * (Area / Mass) * v.norm * a.of v * b.of grad - dvXE w CD Area Mass dens v a b)| ≤
      28 * u * (|-(1 / 2) * CD * (Area / Mass) * v.norm * a.of v * b.of grad| + |dvXE w CD Area Mass dens v a b|) := by
  have dv := fun c => dv_rel hr f g (CD := CD) (Area := Area) (Mass := Mass) (dens := dens) v a c bC bA m0 m1 bd hv h0 v1
  have M := mulX_rel hr bw (d := ⟨dvD rnd f g CD Area Mass dens v a .x, dvD rnd f g CD Area Mass dens v a .y,
    dvD rnd f g CD Area Mass dens v a .z⟩) (e := ⟨dvE CD Area Mass dens v a .x, dvE CD Area Mass dens v a .y,
    dvE CD Area Mass dens v a .z⟩) (k := 12) (by omega) ⟨(dv .x).1, (dv .y).1, (dv .z).1⟩ (dv .x).2 (dv .y).2 b
  change Rel (12 + 1) _ (dvXE w CD Area Mass dens v a b) at M
  obtain ⟨k, bk⟩ := area_rel hr bC bA m0 m1
  have b1 := bk.mul (norm_big hv)
  have b2 := b1.mul (hv.of a)
  have k1 := (k.mul (nrm_rel hr h (by omega) (RelV.refl v) hv)).rb hr (by omega) (b1.mono (by norm_num))
  have k2 := (k1.mul (Rel.refl (a.of v))).rb hr (by omega) (b2.mono (by norm_num))
  have A := ((k2.mul (Rel.refl (b.of grad))).rb hr (by omega) ((b2.mul (bg.of b)).mono (by norm_num))).mono (n := 13)
    (by omega)
  have eA := A.err ((mul_u_le (by norm_num)).trans (by norm_num))
  have eM' := M.err ((mul_u_le (by norm_num)).trans (by norm_num))
  unfold drD
  simp only
  have mM : IsDouble (mulXD rnd ⟨dvD rnd f g CD Area Mass dens v a .x, dvD rnd f g CD Area Mass dens v a .y,
    dvD rnd f g CD Area Mass dens v a .z⟩ (xOmegaCol w b)) := hr.mem _
  generalize mulXD rnd ⟨dvD rnd f g CD Area Mass dens v a .x, dvD rnd f g CD Area Mass dens v a .y,
    dvD rnd f g CD Area Mass dens v a .z⟩ (xOmegaCol w b) = P at *
  have mA := hr.mem (rnd (rnd (areaD rnd CD Area Mass * nrmD rnd h v) * a.of v) * b.of grad)
  generalize rnd (rnd (rnd (areaD rnd CD Area Mass * nrmD rnd h v) * a.of v) * b.of grad) = Q at *
  generalize -(1 / 2) * CD * (Area / Mass) * v.norm * a.of v * b.of grad = Q' at *
  generalize dvXE w CD Area Mass dens v a b = P' at *
  have s : |rnd (Q - P) - (Q - P)| ≤ u * |Q - P| := hr.sub_rel mA mM
  have u0 := u_pos
  have u1 : u ≤ 1 / 1000 := u_le.trans (by norm_num)
  norm_num at eA eM'
  have t0 : |rnd (Q - P) - (Q' - P')| ≤ |rnd (Q - P) - (Q - P)| + (|Q - Q'| + |P - P'|) := by
    have h1 := abs_add_le (rnd (Q - P) - (Q - P)) ((Q - Q') + -(P - P'))
    have h2 := abs_add_le (Q - Q') (-(P - P'))
    rw [abs_neg] at h2
    rw [show rnd (Q - P) - (Q - P) + (Q - Q' + -(P - P')) = rnd (Q - P) - (Q' - P') by ring] at h1
    linarith
  have t1 : |Q - P| ≤ |Q'| + |P'| + (|Q - Q'| + |P - P'|) := by
    have h1 := abs_add_le (Q' + -P') ((Q - Q') + -(P - P'))
    have h2 := abs_add_le (Q - Q') (-(P - P'))
    have h3 := abs_add_le Q' (-P')
    rw [abs_neg] at h2 h3
    rw [show Q' + -P' + (Q - Q' + -(P - P')) = Q - P by ring] at h1
    linarith
  have q0 := abs_nonneg Q'
  have p0 := abs_nonneg P'
  generalize |rnd (Q - P) - (Q' - P')| = x1 at *
  generalize |rnd (Q - P) - (Q - P)| = x2 at *
  generalize |Q - Q'| = x3 at *
  generalize |P - P'| = x4 at *
  generalize |Q - P| = x5 at *
  generalize |Q'| = x6 at *
  generalize |P'| = x7 at *
  generalize u = z at *
  have h1 : z * x5 ≤ z * (x6 + x7 + (x3 + x4)) := mul_le_mul_of_nonneg_left t1 u0.le
  have h2 : x3 + x4 ≤ 26 * z * (x6 + x7) := by linarith
  have h3 : z * (x3 + x4) ≤ z * (26 * z * (x6 + x7)) := mul_le_mul_of_nonneg_left h2 u0.le
  have h4 : z * (z * (x6 + x7)) ≤ 1 / 1000 * (z * (x6 + x7)) := mul_le_mul_of_nonneg_right u1 (by positivity)
  have h5 : 0 ≤ z * (x6 + x7) := by positivity
  nlinarith

/-- **C174.**  Within the range of doubles and away from rest the IEEE value of an entry is the rounded one. -/
theorem dvI_fin (f g : FuseN) (CD Area Mass dens : ℝ) (v : V3) (a b : Ax) (h0 : nrmD rnd g v ≠ 0)
    (q : |rnd (rnd (a.of v * b.of v) / nrmD rnd g v)| < 2 ^ 1024)
    (s : |rnd (rnd (nrmD rnd f v * (if a = b then 1 else 0)) + rnd (rnd (a.of v * b.of v) / nrmD rnd g v))| < 2 ^ 1024)
    (t : |dvD rnd f g CD Area Mass dens v a b| < 2 ^ 1024) :
    dvI rnd f g CD Area Mass dens v a b = .fin (dvD rnd f g CD Area Mass dens v a b) := by
  unfold dvI dvD
  simp only [D.div, h0, if_false, out_fin q, D.add, out_fin s, D.mul]
  exact out_fin t

/-- At rest with respect to the air, where the acceleration is zero, every entry of the partials with respect to velocity
is 0/0 (drag.cpp:91 divides by the norm without the test that `normalized()` makes): NaN. -/
theorem partials_at_rest_counterexample (hr : Nearest rnd) (f g : FuseN) (CD Area Mass dens : ℝ) (a b : Ax) :
    accD rnd f g CD Area Mass dens ⟨0, 0, 0⟩ a = 0 ∧ dvI rnd f g CD Area Mass dens ⟨0, 0, 0⟩ a b = .nan := by
  refine ⟨acc_rest hr f g CD Area Mass dens a, ?_⟩
  have n : nrmD rnd g ⟨0, 0, 0⟩ = 0 := by
    have s : sqD rnd g (0 : ℝ) 0 0 = 0 := by
      unfold sqD sum2D
      cases g.inner <;> simp [hr.zero]
    unfold nrmD
    rw [s, Real.sqrt_zero, hr.zero]
  unfold dvI
  simp [n, D.div, D.add, D.mul]

/-! ### Examples -/

/-- A satellite at 7340 km whose velocity through the air is (0, 7000, 1000) m/s: the hypotheses hold. -/
example (hr : Nearest rnd) (a : Ax) :
    |dragD rnd .none ⟨.none, false⟩ ⟨.left, true⟩ (1 / 2 ^ 14) ⟨7340032, 0, 0⟩ ⟨0, 7448, 1000⟩ 10 2 2000 (1 / 2 ^ 40) a -
      a.of (Forces.drag (1 / 2 ^ 14) ⟨7340032, 0, 0⟩ ⟨0, 7448, 1000⟩ 10 2 2000 (1 / 2 ^ 40))| ≤
      5 / 10 ^ 15 * (Forces.drag (1 / 2 ^ 14) ⟨7340032, 0, 0⟩ ⟨0, 7448, 1000⟩ 10 2 2000 (1 / 2 ^ 40)).norm := by
  have e : ∀ n : ℤ, |n| ≤ 2 ^ 53 → rnd (n : ℝ) = n := fun n hn => hr.exact (isDouble_int n hn)
  have i448 : rnd 448 = 448 := by simpa using e 448 (by norm_num)
  have i7000 : rnd 7000 = 7000 := by simpa using e 7000 (by norm_num)
  have i1000 : rnd 1000 = 1000 := by simpa using e 1000 (by norm_num)
  have ew : (1 / 2 ^ 14 * 7340032 : ℝ) = 448 := by norm_num
  have hw : relVelD rnd .none (1 / 2 ^ 14) ⟨7340032, 0, 0⟩ ⟨0, 7448, 1000⟩ = ⟨0, 7000, 1000⟩ := by
    simp only [relVelD, subD, crossD, sub2D, mul_zero, zero_mul, hr.zero, sub_zero, ew, i448, i1000]
    rw [show (7448 - 448 : ℝ) = 7000 by norm_num, i7000]
  have hx : Forces.relVel (1 / 2 ^ 14) ⟨7340032, 0, 0⟩ ⟨0, 7448, 1000⟩ = ⟨0, 7000, 1000⟩ := by
    simp only [Forces.relVel, V3.sub, V3.cross, Forces.earthRate, mul_zero, zero_mul, sub_zero, ew]
    rw [show (7448 - 448 : ℝ) = 7000 by norm_num]
  have hc : (Forces.earthRate (1 / 2 ^ 14)).cross ⟨7340032, 0, 0⟩ = ⟨0, 448, 0⟩ := by
    simp only [V3.cross, Forces.earthRate, mul_zero, zero_mul, sub_zero, ew]
  have big : ∀ x : ℝ, 1 / 2 ^ 100 ≤ x → Big 100 x := fun x h => Or.inr (by
    rw [abs_of_nonneg (le_trans (by norm_num) h)]; rw [div_pow, one_pow]; exact h)
  refine drag_error hr _ _ _ a (big _ (by norm_num)) ⟨big _ (by norm_num), Or.inl rfl, Or.inl rfl⟩ ?_
    (big _ (by norm_num)) (big _ (by norm_num)) (by norm_num) (by norm_num) (big _ (by norm_num)) ?_ ?_ ?_
  · intro b
    have z : IsDouble (0 : ℝ) := by simpa using (isDouble_int (K := ℝ) 0 (by norm_num))
    have y : IsDouble (7448 : ℝ) := by simpa using (isDouble_int (K := ℝ) 7448 (by norm_num))
    have t : IsDouble (1000 : ℝ) := by simpa using (isDouble_int (K := ℝ) 1000 (by norm_num))
    cases b
    · exact z
    · exact y
    · exact t
  · rw [hw]; exact ⟨Or.inl rfl, big _ (by norm_num), big _ (by norm_num)⟩
  · rw [hx, hc]
    refine Real.sqrt_le_sqrt ?_
    unfold V3.dot; norm_num
  · rw [hx]
    refine norm_le_of_sq (by positivity) ?_
    unfold V3.dot; norm_num

end Verif.Float.Drag
