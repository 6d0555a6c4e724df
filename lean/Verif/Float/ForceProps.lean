import Verif.Float.Rel
import Verif.Float.ForceModel
import Verif.Float.EkfProps
import Verif.Float.RangeRateProps
import Verif.Forces.Props
import Mathlib.Tactic.Linarith
import Mathlib.Tactic.FieldSimp
import Mathlib.Tactic.LinearCombination

/-
C173: third-body acceleration, radiation pressure and relativistic clock correction in double arithmetic.
-/
namespace Verif.Float

open Verif.Astro (V3)

variable {rnd : ℝ → ℝ}

/-- Zero, or not below `2^-n` in size. -/
def Big (n : ℕ) (x : ℝ) : Prop := x = 0 ∨ (1 / 2) ^ n ≤ |x|

theorem half_pow_mono {m n : ℕ} (h : m ≤ n) : (1 / 2 : ℝ) ^ n ≤ (1 / 2) ^ m :=
  pow_le_pow_of_le_one (by norm_num) (by norm_num) h

theorem Big.mono {m n : ℕ} {x : ℝ} (h : Big m x) (hn : m ≤ n) : Big n x :=
  h.imp_right (half_pow_mono hn).trans

theorem Big.mul {m n : ℕ} {x y : ℝ} (h : Big m x) (h' : Big n y) : Big (m + n) (x * y) := by
  rcases h with rfl | h
  · left; simp
  rcases h' with rfl | h'
  · left; simp
  right
  rw [pow_add, abs_mul]
  exact mul_le_mul h h' (by positivity) (abs_nonneg _)

theorem Big.div {m n : ℕ} {x y : ℝ} (h : Big m x) (hy : |y| ≤ 2 ^ n) (hy0 : y ≠ 0) : Big (m + n) (x / y) := by
  rcases h with rfl | h
  · left; simp
  right
  rw [abs_div, le_div_iff₀ (abs_pos.2 hy0), pow_add]
  calc (1 / 2 : ℝ) ^ m * (1 / 2) ^ n * |y| ≤ (1 / 2) ^ m * (1 / 2) ^ n * 2 ^ n :=
        mul_le_mul_of_nonneg_left hy (by positivity)
    _ = (1 / 2) ^ m := by rw [mul_assoc, ← mul_pow]; norm_num
    _ ≤ _ := h

theorem Big.add {n : ℕ} {x y : ℝ} (h : Big n x) (h' : Big n y) (hx : 0 ≤ x) (hy : 0 ≤ y) : Big n (x + y) := by
  rcases h with rfl | h
  · rw [zero_add]; exact h'
  right
  rw [abs_of_nonneg (add_nonneg hx hy)]
  rw [abs_of_nonneg hx] at h
  linarith

theorem Big.sqrt {n : ℕ} {x : ℝ} (h : Big n x) (hx : 0 ≤ x) : Big n (√x) := by
  rcases h with rfl | h
  · left; simp
  right
  rw [abs_of_nonneg (Real.sqrt_nonneg _)]
  rw [abs_of_nonneg hx] at h
  refine Real.le_sqrt_of_sq_le (le_trans ?_ h)
  have p : (0 : ℝ) < (1 / 2) ^ n := by positivity
  have q : (1 / 2 : ℝ) ^ n ≤ 1 := pow_le_one₀ (by norm_num) (by norm_num)
  nlinarith

theorem Rel.rb (hr : Nearest rnd) {n : ℕ} {x y : ℝ} (h : Rel n x y) (hn : n ≤ 1000) (hy : Big 1000 y) :
    Rel (n + 1) (rnd x) y := by
  refine h.round' hr hn (hy.imp_right fun q => ?_)
  refine le_trans (le_of_eq ?_) q
  rw [one_div, inv_pow, zpow_neg, ← zpow_natCast]; rfl

/-- Every component is zero or not below `2^-100`. -/
def Fit (v : V3) : Prop := Big 100 v.x ∧ Big 100 v.y ∧ Big 100 v.z

/-- The components of `w` are those of `v` up to `k` roundings. -/
def RelV (k : ℕ) (w v : V3) : Prop := Rel k w.x v.x ∧ Rel k w.y v.y ∧ Rel k w.z v.z

theorem RelV.refl (v : V3) : RelV 0 v v := ⟨Rel.refl _, Rel.refl _, Rel.refl _⟩

theorem sum2_rel (hr : Nearest rnd) (m : FuseP) {k : ℕ} {p q p' q' : ℝ} (hk : k ≤ 900) (hp : Rel k p p')
    (hq : Rel k q q') (p0 : 0 ≤ p') (q0 : 0 ≤ q') (bp : Big 200 p') (bq : Big 200 q') :
    Rel (k + 2) (sum2D rnd m p q) (p' + q') := by
  have rp := hp.rb hr (by omega) (bp.mono (by norm_num))
  have rq := hq.rb hr (by omega) (bq.mono (by norm_num))
  have b : Big 1000 (p' + q') := (bp.add bq p0 q0).mono (by norm_num)
  cases m with
  | none => exact (rp.add rq p0 q0).rb hr (by omega) b
  | left => exact ((hp.mono (Nat.le_succ k)).add rq p0 q0).rb hr (by omega) b
  | right => exact (rp.add (hq.mono (Nat.le_succ k)) p0 q0).rb hr (by omega) b

/-- Squared norm: three roundings more than the squares of the components. -/
theorem sq_rel (hr : Nearest rnd) (f : FuseN) {k : ℕ} {w v : V3} (hk : k ≤ 100) (h : RelV k w v) (hv : Fit v) :
    Rel (2 * k + 3) (sqD rnd f w.x w.y w.z) (v.dot v) := by
  obtain ⟨hx, hy, hz⟩ := h
  obtain ⟨bx, bY, bz⟩ := hv
  have sx := hx.mul hx
  have i := sum2_rel hr f.inner (by omega) (hy.mul hy) (hz.mul hz) (mul_self_nonneg _) (mul_self_nonneg _)
    (bY.mul bY) (bz.mul bz)
  have x0 := mul_self_nonneg v.x
  have i0 : 0 ≤ v.y * v.y + v.z * v.z := add_nonneg (mul_self_nonneg _) (mul_self_nonneg _)
  have b : Big 1000 (v.x * v.x + (v.y * v.y + v.z * v.z)) :=
    ((bx.mul bx).add ((bY.mul bY).add (bz.mul bz) (mul_self_nonneg _) (mul_self_nonneg _)) x0 i0).mono (by norm_num)
  rw [show v.dot v = v.x * v.x + (v.y * v.y + v.z * v.z) by unfold V3.dot; ring]
  unfold sqD
  simp only
  split_ifs
  · exact (((sx.mono (by omega)).add i x0 i0).rb hr (by omega) b).mono (by omega)
  · have rx := sx.rb hr (by omega) ((bx.mul bx).mono (by norm_num))
    exact (((rx.mono (by omega)).add i x0 i0).rb hr (by omega) b).mono (by omega)

theorem dot_big {v : V3} (hv : Fit v) : Big 200 (v.dot v) := by
  obtain ⟨bx, bY, bz⟩ := hv
  exact ((bx.mul bx).add (bY.mul bY) (mul_self_nonneg _) (mul_self_nonneg _)).add (bz.mul bz)
    (add_nonneg (mul_self_nonneg _) (mul_self_nonneg _)) (mul_self_nonneg _)

theorem norm_big {v : V3} (hv : Fit v) : Big 200 v.norm := (dot_big hv).sqrt v.dot_self_nonneg

/-- Norm: one rounding more. -/
theorem nrm_rel (hr : Nearest rnd) (f : FuseN) {k : ℕ} {w v : V3} (hk : k ≤ 100) (h : RelV k w v) (hv : Fit v) :
    Rel (2 * k + 4) (nrmD rnd f w) v.norm :=
  (sq_rel hr f hk h hv).sqrt.rb hr (by omega) ((norm_big hv).mono (by norm_num))

theorem sub_rel (hr : Nearest rnd) (a b : V3) (h : Fit (a.sub b)) : RelV 1 (subD rnd a b) (a.sub b) := by
  obtain ⟨bx, bY, bz⟩ := h
  exact ⟨(Rel.refl _).rb hr (by omega) (bx.mono (by norm_num)), (Rel.refl _).rb hr (by omega) (bY.mono (by norm_num)),
    (Rel.refl _).rb hr (by omega) (bz.mono (by norm_num))⟩

theorem RelV.of {k : ℕ} {w v : V3} (h : RelV k w v) (a : Ax) : Rel k (a.of w) (a.of v) := by
  cases a
  · exact h.1
  · exact h.2.1
  · exact h.2.2

theorem Fit.of {v : V3} (h : Fit v) (a : Ax) : Big 100 (a.of v) := by
  cases a
  · exact h.1
  · exact h.2.1
  · exact h.2.2

theorem u_le : u ≤ 1 / 2 ^ 53 := by unfold u; norm_num [zpow_neg]

theorem mul_u_le {n : ℕ} (hn : n ≤ 100) : (n : ℝ) * u ≤ 1 / 2 ^ 46 := by
  have : (n : ℝ) ≤ 100 := by exact_mod_cast hn
  calc (n : ℝ) * u ≤ 100 * (1 / 2 ^ 53) := mul_le_mul this u_le u_pos.le (by norm_num)
    _ ≤ _ := by norm_num

/-- One component of a vector over the cube of its length. -/
theorem cube_rel (hr : Nearest rnd) (f f' : FuseN) {k : ℕ} {w v : V3} (hk : k ≤ 50) (h : RelV k w v) (hv : Fit v)
    (h0 : v ≠ ⟨0, 0, 0⟩) (h1 : v.norm ≤ 2 ^ 100) (a : Ax) :
    Rel (5 * k + 9) (cubeD rnd f f' w (a.of w)) (a.of v / (v.norm * v.dot v)) := by
  have n := nrm_rel hr f (by omega) h hv
  have s := sq_rel hr f' (by omega) h hv
  have np := V3.norm_pos v h0
  have dv : v.dot v = v.norm * v.norm := (V3.norm_sq v).symm
  have p := (n.mul s).rb hr (by omega) (((norm_big hv).mul (dot_big hv)).mono (by norm_num))
  have c0 : v.norm * v.dot v ≠ 0 := by rw [dv]; positivity
  have c1 : |v.norm * v.dot v| ≤ 2 ^ 300 := by
    rw [dv, abs_of_pos (by positivity)]
    calc v.norm * (v.norm * v.norm) ≤ 2 ^ 100 * (2 ^ 100 * 2 ^ 100) :=
          mul_le_mul h1 (mul_le_mul h1 h1 np.le (by positivity)) (by positivity) (by positivity)
      _ = 2 ^ 300 := by rw [← pow_add, ← pow_add]
  have q := ((h.of a).div p).rb hr (by omega) (((hv.of a).div c1 c0).mono (by norm_num))
  exact q.mono (by omega)

theorem pointMass_comp (GM : ℝ) (rsat robj : V3) (a : Ax) :
    a.of (Forces.pointMass GM rsat robj) =
      -GM * (a.of (rsat.sub robj) / ((rsat.sub robj).norm * (rsat.sub robj).dot (rsat.sub robj)) +
        a.of robj / (robj.norm * robj.dot robj)) := by
  cases a <;> simp only [Forces.pointMass, V3.smul, V3.add, Ax.of] <;> ring

/-- **C173.**  The acceleration by a third body: the error is a few roundings of the two terms, whose difference the
acceleration is (the tiny `eta` covers results near zero). -/
theorem pointMass_error (hr : Nearest rnd) (f f' g g' : FuseN) {GM : ℝ} (hG : 0 ≤ GM) (rsat robj : V3) (a : Ax)
    (hd : Fit (rsat.sub robj)) (ho : Fit robj) (hd0 : rsat.sub robj ≠ ⟨0, 0, 0⟩) (ho0 : robj ≠ ⟨0, 0, 0⟩)
    (hd1 : (rsat.sub robj).norm ≤ 2 ^ 100) (ho1 : robj.norm ≤ 2 ^ 100) :
    |pointMassD rnd f f' g g' GM rsat robj a - a.of (Forces.pointMass GM rsat robj)| ≤
      34 * u * (GM * (|a.of (rsat.sub robj)| / ((rsat.sub robj).norm * (rsat.sub robj).dot (rsat.sub robj)) +
        |a.of robj| / (robj.norm * robj.dot robj))) + 2 * (GM + 1) * eta := by
  rw [pointMass_comp]
  unfold pointMassD
  simp only
  have r1 := cube_rel hr f f' (by omega) (sub_rel hr rsat robj hd) hd hd0 hd1 a
  have r2 := (cube_rel hr g g' (by omega) (RelV.refl robj) ho ho0 ho1 a).mono (n := 14) (by omega)
  have e1 := r1.err ((mul_u_le (by norm_num)).trans (by norm_num))
  have e2 := r2.err ((mul_u_le (by norm_num)).trans (by norm_num))
  have n1 := V3.norm_pos _ hd0
  have n2 := V3.norm_pos _ ho0
  have p1 : 0 ≤ (rsat.sub robj).norm * (rsat.sub robj).dot (rsat.sub robj) := mul_nonneg n1.le (V3.dot_self_nonneg _)
  have p2 : 0 ≤ robj.norm * robj.dot robj := mul_nonneg n2.le (V3.dot_self_nonneg _)
  rw [abs_div, abs_of_nonneg p1] at e1
  rw [abs_div, abs_of_nonneg p2] at e2
  generalize hA : cubeD rnd f f' (subD rnd rsat robj) (a.of (subD rnd rsat robj)) = A at *
  generalize hB : cubeD rnd g g' robj (a.of robj) = B at *
  have q1 : |a.of (rsat.sub robj) / ((rsat.sub robj).norm * (rsat.sub robj).dot (rsat.sub robj))| =
      |a.of (rsat.sub robj)| / ((rsat.sub robj).norm * (rsat.sub robj).dot (rsat.sub robj)) := by
    rw [abs_div, abs_of_nonneg p1]
  have q2 : |a.of robj / (robj.norm * robj.dot robj)| = |a.of robj| / (robj.norm * robj.dot robj) := by
    rw [abs_div, abs_of_nonneg p2]
  rw [← q1] at e1 ⊢
  rw [← q2] at e2 ⊢
  generalize a.of (rsat.sub robj) / ((rsat.sub robj).norm * (rsat.sub robj).dot (rsat.sub robj)) = A' at *
  generalize a.of robj / (robj.norm * robj.dot robj) = B' at *
  have es := hr.err_both (A + B)
  have ep := hr.err_both (-GM * rnd (A + B))
  have hu : (un : ℝ) = u := rfl
  rw [hu] at es ep
  have u0 := u_pos
  have u1 : u ≤ 1 / 1000000 := u_le.trans (by norm_num)
  have et : (0 : ℝ) < eta := eta_pos
  generalize (eta : ℝ) = η at *
  generalize u = v at *
  norm_num at e1 e2
  have a1 := abs_nonneg A'
  have a2 := abs_nonneg B'
  have hsum : |A + B - (A' + B')| ≤ 28 * v * (|A'| + |B'|) := by
    have := abs_add_le (A - A') (B - B')
    rw [show A - A' + (B - B') = A + B - (A' + B') by ring] at this
    nlinarith
  have habs : |A' + B'| ≤ |A'| + |B'| := abs_add_le _ _
  generalize |A'| + |B'| = S at *
  have S0 : 0 ≤ S := (abs_nonneg _).trans habs
  have vS : v * S ≤ 1 / 1000000 * S := mul_le_mul_of_nonneg_right u1 S0
  have hAB : |A + B| ≤ S + 28 * v * S := by
    have := abs_add_le (A + B - (A' + B')) (A' + B')
    rw [sub_add_cancel] at this
    linarith
  have hR : |rnd (A + B) - (A' + B')| ≤ 30 * v * S + η := by
    have := abs_add_le (rnd (A + B) - (A + B)) (A + B - (A' + B'))
    rw [sub_add_sub_cancel] at this
    have k : v * |A + B| ≤ v * (S + 28 * v * S) := mul_le_mul_of_nonneg_left hAB u0.le
    nlinarith
  have hRa : |rnd (A + B)| ≤ 2 * S + η := by
    have := abs_add_le (rnd (A + B) - (A' + B')) (A' + B')
    rw [sub_add_cancel] at this
    linarith
  rw [abs_mul, abs_neg, abs_of_nonneg hG] at ep
  have fin := abs_add_le (rnd (-GM * rnd (A + B)) - -GM * rnd (A + B)) (-GM * rnd (A + B) - -GM * (A' + B'))
  rw [sub_add_sub_cancel] at fin
  have m : |-GM * rnd (A + B) - -GM * (A' + B')| ≤ GM * (30 * v * S + η) := by
    rw [← mul_sub, abs_mul, abs_neg, abs_of_nonneg hG]
    exact mul_le_mul_of_nonneg_left hR hG
  have k2 : v * (GM * |rnd (A + B)|) ≤ v * (GM * (2 * S + η)) :=
    mul_le_mul_of_nonneg_left (mul_le_mul_of_nonneg_left hRa hG) u0.le
  have k3 : v * (GM * η) ≤ 1 / 1000000 * (GM * η) := mul_le_mul_of_nonneg_right u1 (mul_nonneg hG et.le)
  have k4 : 0 ≤ GM * η := mul_nonneg hG et.le
  have k5 : 0 ≤ v * (GM * S) := mul_nonneg u0.le (mul_nonneg hG S0)
  calc _ ≤ v * (GM * (2 * S + η)) + η + GM * (30 * v * S + η) := by linarith
    _ ≤ _ := by nlinarith

/-- Exact radiation pressure, component by component. -/
theorem srp_comp (AU : ℝ) (rsat rsun : V3) (Area mass C : ℝ) (a : Ax) :
    a.of (Forces.srp AU rsat rsun Area mass C) =
      C * (Area / mass) * (456316 / 10 ^ 11) * (AU * AU) * a.of (rsat.sub rsun) /
        ((rsat.sub rsun).norm * (rsat.sub rsun).norm * (rsat.sub rsun).norm) := by
  cases a <;> simp only [Forces.srp, Forces.P0, V3.smul, Ax.of] <;> ring

/-- **C173.**  Radiation pressure: every component is that of the formula up to 29 roundings. -/
theorem srp_rel (hr : Nearest rnd) (f : FuseN) {AU Area mass C : ℝ} (rsat rsun : V3) (a : Ax)
    (hd : Fit (rsat.sub rsun)) (hd0 : rsat.sub rsun ≠ ⟨0, 0, 0⟩) (hd1 : (rsat.sub rsun).norm ≤ 2 ^ 100)
    (bA : Big 100 AU) (bR : Big 100 Area) (m0 : mass ≠ 0) (m1 : |mass| ≤ 2 ^ 100) (bC : Big 100 C) :
    Rel 29 (srpD rnd f AU rsat rsun Area mass C a) (a.of (Forces.srp AU rsat rsun Area mass C)) := by
  rw [srp_comp]
  unfold srpD
  simp only
  have sv := sub_rel hr rsat rsun hd
  have np := V3.norm_pos _ hd0
  have nb := norm_big hd
  have n := nrm_rel hr f (by omega) sv hd
  have n2 := (n.mul n).rb hr (by omega) ((nb.mul nb).mono (by norm_num))
  have n3 := (n2.mul n).rb hr (by omega) (((nb.mul nb).mul nb).mono (by norm_num))
  have bP : Big 20 (456316 / 10 ^ 11 : ℝ) := by
    right
    rw [abs_of_pos (by norm_num)]
    norm_num
  have c1 := ((Rel.refl Area).div (Rel.refl mass)).rb hr (by omega) ((bR.div m1 m0).mono (by norm_num))
  have bC1 := bC.mul (bR.div m1 m0)
  have c2 := ((Rel.refl C).mul c1).rb hr (by omega) (bC1.mono (by norm_num))
  have bC2 := bC1.mul bP
  have c3 := (c2.mul ((Rel.refl (456316 / 10 ^ 11 : ℝ)).rb hr (by omega) (bP.mono (by norm_num)))).rb hr (by omega)
    (bC2.mono (by norm_num))
  have bC3 := bC2.mul (bA.mul bA)
  have c4 := (c3.mul (((Rel.refl AU).mul (Rel.refl AU)).rb hr (by omega) ((bA.mul bA).mono (by norm_num)))).rb hr
    (by omega) (bC3.mono (by norm_num))
  have bC4 := bC3.mul (hd.of a)
  have c5 := (c4.mul (sv.of a)).rb hr (by omega) (bC4.mono (by norm_num))
  have d0 : (rsat.sub rsun).norm * (rsat.sub rsun).norm * (rsat.sub rsun).norm ≠ 0 := by positivity
  have d1 : |(rsat.sub rsun).norm * (rsat.sub rsun).norm * (rsat.sub rsun).norm| ≤ 2 ^ 300 := by
    rw [abs_of_pos (by positivity)]
    calc _ ≤ (2 : ℝ) ^ 100 * 2 ^ 100 * 2 ^ 100 :=
          mul_le_mul (mul_le_mul hd1 hd1 np.le (by positivity)) hd1 np.le (by positivity)
      _ = 2 ^ 300 := by rw [← pow_add, ← pow_add]
  exact ((c5.div n3).rb hr (by omega) ((bC4.div d1 d0).mono (by norm_num))).mono (by omega)

/-- The relative error of a component of the radiation pressure. -/
theorem srp_error (hr : Nearest rnd) (f : FuseN) {AU Area mass C : ℝ} (rsat rsun : V3) (a : Ax)
    (hd : Fit (rsat.sub rsun)) (hd0 : rsat.sub rsun ≠ ⟨0, 0, 0⟩) (hd1 : (rsat.sub rsun).norm ≤ 2 ^ 100)
    (bA : Big 100 AU) (bR : Big 100 Area) (m0 : mass ≠ 0) (m1 : |mass| ≤ 2 ^ 100) (bC : Big 100 C) :
    |srpD rnd f AU rsat rsun Area mass C a - a.of (Forces.srp AU rsat rsun Area mass C)| ≤
      1 / 10 ^ 14 * |a.of (Forces.srp AU rsat rsun Area mass C)| := by
  have h := srp_rel hr f rsat rsun a hd hd0 hd1 bA bR m0 m1 bC
  refine (h.err ((mul_u_le (by norm_num)).trans (by norm_num))).trans ?_
  refine mul_le_mul_of_nonneg_right ?_ (abs_nonneg _)
  have := u_le
  norm_num at this ⊢
  linarith

/-- **C173.**  Clock correction without J2: seven roundings. -/
theorem clock_rel (hr : Nearest rnd) (f g : FuseN) {c GM : ℝ} (r v : V3) (hv : Fit v) (hrr : Fit r)
    (r0 : r ≠ ⟨0, 0, 0⟩) (r1 : r.norm ≤ 2 ^ 100) (c0 : c ≠ 0) (c1 : |c| ≤ 2 ^ 100) (hG : 0 ≤ GM) (bG : Big 100 GM) :
    Rel 7 (clockD rnd f g c r v GM) (Forces.clock c r v GM) := by
  unfold clockD Forces.clock
  have np := V3.norm_pos _ r0
  have bU := bG.div (n := 100) (by rwa [abs_of_pos np]) np.ne'
  have U := ((Rel.refl GM).div (nrm_rel hr f (by omega) (RelV.refl r) hrr)).rb hr (by omega) (bU.mono (by norm_num))
  have bV : Big 201 (v.dot v / 2) := (dot_big hv).div (n := 1) (by norm_num) (by norm_num)
  have V := ((sq_rel hr g (by omega) (RelV.refl v) hv).div (Rel.refl 2)).rb hr (by omega) (bV.mono (by norm_num))
  have U0 : 0 ≤ GM / r.norm := div_nonneg hG np.le
  have V0 : 0 ≤ v.dot v / 2 := div_nonneg v.dot_self_nonneg (by norm_num)
  have b := (bU.mono (n := 201) (by norm_num)).add bV U0 V0
  have s := ((U.mono (n := 5) (by omega)).add (V.mono (n := 5) (by omega)) U0 V0).rb hr (by omega) (b.mono (by norm_num))
  exact ((s.div (Rel.refl c)).rb hr (by omega) ((b.div c1 c0).mono (by norm_num))).mono (by omega)

/-- The factor `1 - (Re/R)^2 J2 (3 s^2 - 1)/2` is computed to two roundings. -/
theorem factor_err (hr : Nearest rnd) (fs : Bool) {s p p' : ℝ} (hs : |s| ≤ 1) (p0 : 0 ≤ p) (p1 : p ≤ 1 / 500)
    (hp : |p' - p| ≤ 24 * u * p) :
    |rnd (1 - rnd (rnd (p' * (if fs then rnd (rnd (3 * s) * s - 1) else rnd (rnd (rnd (3 * s) * s) - 1))) / 2)) -
      (1 - p * (3 * s * s - 1) / 2)| ≤ 2 * u * |1 - p * (3 * s * s - 1) / 2| := by
  have s2 := abs_le.1 hs
  have ss : s * s ≤ 1 := by nlinarith
  have ss0 := mul_self_nonneg s
  have hu : u = 1 / 2 ^ 53 := by unfold u; norm_num [zpow_neg]
  rw [hu] at hp ⊢
  have e1 : |rnd (3 * s) - 3 * s| ≤ 1 / 2 ^ 52 :=
    hr.err_num (-51) (by norm_num) (B := 3) (by rw [abs_le]; constructor <;> linarith) (by norm_num) (by norm_num)
  have e2 : |rnd (3 * s) * s - 3 * s * s| ≤ 1 / 2 ^ 52 := by
    rw [← sub_mul, abs_mul]
    exact (mul_le_mul e1 hs (abs_nonneg _) (by norm_num)).trans_eq (mul_one _)
  have h2 := abs_le.1 e2
  have e3 : |(if fs then rnd (rnd (3 * s) * s - 1) else rnd (rnd (rnd (3 * s) * s) - 1)) - (3 * s * s - 1)| ≤
      3 / 2 ^ 52 := by
    split_ifs
    · have k : |rnd (rnd (3 * s) * s - 1) - (rnd (3 * s) * s - 1)| ≤ 1 / 2 ^ 52 :=
        hr.err_num (-51) (by norm_num) (B := 4) (by rw [abs_le]; norm_num at h2 ⊢; constructor <;> linarith [h2.1, h2.2])
          (by norm_num) (by norm_num)
      have := near_trans k (near_sub e2 (by simp : |(1 : ℝ) - 1| ≤ 0))
      refine this.trans ?_
      norm_num
    · have k1 : |rnd (rnd (3 * s) * s) - rnd (3 * s) * s| ≤ 1 / 2 ^ 52 :=
        hr.err_num (-51) (by norm_num) (B := 4) (by rw [abs_le]; norm_num at h2 ⊢; constructor <;> linarith [h2.1, h2.2])
          (by norm_num) (by norm_num)
      have k2 := near_trans k1 e2
      have h3 := abs_le.1 k2
      have k : |rnd (rnd (rnd (3 * s) * s) - 1) - (rnd (rnd (3 * s) * s) - 1)| ≤ 1 / 2 ^ 52 :=
        hr.err_num (-51) (by norm_num) (B := 4) (by rw [abs_le]; norm_num at h3 ⊢; constructor <;> linarith [h3.1, h3.2])
          (by norm_num) (by norm_num)
      have := near_trans k (near_sub k2 (by simp : |(1 : ℝ) - 1| ≤ 0))
      refine this.trans ?_
      norm_num
  generalize (if fs then rnd (rnd (3 * s) * s - 1) else rnd (rnd (rnd (3 * s) * s) - 1)) = t' at *
  have ht : |3 * s * s - 1| ≤ 2 := by rw [abs_le]; constructor <;> nlinarith
  generalize 3 * s * s - 1 = t at *
  clear h2 e2 e1
  have p'1 : |p'| ≤ 1 / 400 := by
    have := abs_near hp (by rw [abs_of_nonneg p0]; exact p1 : |p| ≤ 1 / 500)
    refine this.trans ?_
    have : 24 * (1 / 2 ^ 53) * p ≤ 24 * (1 / 2 ^ 53) * (1 / 500) := mul_le_mul_of_nonneg_left p1 (by norm_num)
    norm_num at this ⊢
    linarith
  have hp' : |p' - p| ≤ 24 * (1 / 2 ^ 53) * (1 / 500) := hp.trans (mul_le_mul_of_nonneg_left p1 (by norm_num))
  have m := near_mul hp' e3 p'1 ht
  have pt : |p * t| ≤ 1 / 500 * 2 := abs_mul_le' (by rw [abs_of_nonneg p0]; exact p1) ht
  have pt' : |p' * t'| ≤ 1 / 128 := (abs_near m pt).trans (by norm_num)
  have r1 : |rnd (p' * t') - p' * t'| ≤ 1 / 2 ^ 61 :=
    hr.err_num (-60) (by norm_num) pt' (by norm_num) (by norm_num)
  have a1 := near_trans r1 m
  have a2 : |rnd (p' * t') / 2 - p * t / 2| ≤ 1 / 2 ^ 56 := by
    rw [← sub_div, abs_div, abs_of_pos (by norm_num : (0 : ℝ) < 2)]
    norm_num at a1 ⊢
    linarith
  have pt2 : |p * t / 2| ≤ 1 / 500 := by
    rw [abs_div, abs_of_pos (by norm_num : (0 : ℝ) < 2)]
    linarith
  have r2 : |rnd (rnd (p' * t') / 2) - rnd (p' * t') / 2| ≤ 1 / 2 ^ 61 :=
    hr.err_num (-60) (by norm_num) (B := 1 / 128) ((abs_near a2 pt2).trans (by norm_num)) (by norm_num) (by norm_num)
  have a3 := near_trans r2 a2
  have a4 := near_sub (by simp : |(1 : ℝ) - 1| ≤ 0) a3
  have f2 := abs_le.1 pt2
  have fb : |1 - p * t / 2| ≤ 3 / 2 := by rw [abs_le]; constructor <;> linarith [f2.1, f2.2]
  have r3 : |rnd (1 - rnd (rnd (p' * t') / 2)) - (1 - rnd (rnd (p' * t') / 2))| ≤ 1 / 2 ^ 53 :=
    hr.err_num (-52) (by norm_num) (B := 2) ((abs_near a4 fb).trans (by norm_num)) (by norm_num) (by norm_num)
  have a5 := near_trans r3 a4
  have low : (99 / 100 : ℝ) ≤ |1 - p * t / 2| := by
    rw [abs_of_nonneg (by linarith [f2.2])]; linarith [f2.2]
  refine a5.trans ?_
  norm_num at low ⊢
  linarith

/-- **C173.**  Clock correction with J2, for the sine `s` delivered by the library: twelve roundings. -/
theorem clockJ2_rel (hr : Nearest rnd) (f g : FuseN) (fs : Bool) {c GM J2 Re s : ℝ} (r v : V3) (hv : Fit v)
    (hrr : Fit r) (r0 : r ≠ ⟨0, 0, 0⟩) (r1 : r.norm ≤ 2 ^ 100) (c0 : c ≠ 0) (c1 : |c| ≤ 2 ^ 100) (hG : 0 ≤ GM)
    (bG : Big 100 GM) (hs : |s| ≤ 1) (bR : Big 100 Re) (R0 : 0 ≤ Re) (R1 : Re ≤ r.norm) (bJ : Big 100 J2) (J0 : 0 ≤ J2)
    (J1 : J2 ≤ 1 / 500) (lat : V3 → ℝ) (hlat : Real.sin (lat r) = s) :
    Rel 12 (clockJ2D rnd f g fs c s r v GM J2 Re) (Forces.clockJ2 c lat r v GM J2 Re) := by
  unfold clockJ2D Forces.clockJ2
  simp only
  rw [hlat]
  have np := V3.norm_pos _ r0
  have nr := nrm_rel hr f (by omega) (RelV.refl r) hrr
  have bU := bG.div (n := 100) (by rwa [abs_of_pos np]) np.ne'
  have U := ((Rel.refl GM).div nr).rb hr (by omega) (bU.mono (by norm_num))
  have bk := bR.div (n := 100) (by rwa [abs_of_pos np]) np.ne'
  have k := ((Rel.refl Re).div nr).rb hr (by omega) (bk.mono (by norm_num))
  have k2 := (k.mul k).rb hr (by omega) ((bk.mul bk).mono (by norm_num))
  have bp := (bk.mul bk).mul bJ
  have p := (k2.mul (Rel.refl J2)).rb hr (by omega) (bp.mono (by norm_num))
  have kk0 : 0 ≤ Re / r.norm := div_nonneg R0 np.le
  have kk1 : Re / r.norm ≤ 1 := (div_le_one np).2 R1
  have p0 : 0 ≤ Re / r.norm * (Re / r.norm) * J2 := mul_nonneg (mul_nonneg kk0 kk0) J0
  have p1 : Re / r.norm * (Re / r.norm) * J2 ≤ 1 / 500 := by
    have : Re / r.norm * (Re / r.norm) ≤ 1 := mul_le_one₀ kk1 kk0 kk1
    calc _ ≤ 1 * J2 := mul_le_mul_of_nonneg_right this J0
      _ ≤ _ := by linarith
  have pe := p.err ((mul_u_le (by norm_num)).trans (by norm_num))
  rw [abs_of_nonneg p0] at pe
  have F := factor_err hr fs hs p0 p1 (by norm_num at pe ⊢; linarith)
  generalize Re / r.norm * (Re / r.norm) * J2 = q at *
  have s2 := abs_le.1 hs
  have fl : 99 / 100 ≤ 1 - q * (3 * s * s - 1) / 2 := by
    have : s * s ≤ 1 := by nlinarith
    have := mul_self_nonneg s
    nlinarith
  have fr := Rel.of_err (k := 2) (by have := u_le; norm_num at this ⊢; linarith) (by exact_mod_cast F) (by linarith)
  have bF : Big 1 (1 - q * (3 * s * s - 1) / 2) := by
    right
    rw [abs_of_nonneg (by linarith)]
    norm_num
    linarith
  have bUF := bU.mul bF
  have UF := (U.mul fr).rb hr (by omega) (bUF.mono (by norm_num))
  have bV : Big 201 (v.dot v / 2) := (dot_big hv).div (n := 1) (by norm_num) (by norm_num)
  have V := ((sq_rel hr g (by omega) (RelV.refl v) hv).div (Rel.refl 2)).rb hr (by omega) (bV.mono (by norm_num))
  have U0 : 0 ≤ GM / r.norm * (1 - q * (3 * s * s - 1) / 2) := mul_nonneg (div_nonneg hG np.le) (by linarith)
  have V0 : 0 ≤ v.dot v / 2 := div_nonneg v.dot_self_nonneg (by norm_num)
  have b := (bUF.mono (n := 201) (by norm_num)).add bV U0 V0
  have sm := ((UF.mono (n := 10) (by omega)).add (V.mono (n := 10) (by omega)) U0 V0).rb hr (by omega)
    (b.mono (by norm_num))
  exact ((sm.div (Rel.refl c)).rb hr (by omega) ((b.div c1 c0).mono (by norm_num))).mono (by omega)

/-- **C173.**  The difference of receiver and emitter (test/rinex_pod.cpp:1125) is right to 3e-15 m/s. -/
theorem drel_error (hr : Nearest rnd) {S B S' B' : ℝ} (hS : Rel 12 S' S) (hB : Rel 7 B' B) (S0 : |S| ≤ 1 / 2)
    (B0 : |B| ≤ 1 / 2) : |rnd (S' - B') - (S - B)| ≤ 3 / 10 ^ 15 := by
  have eS := hS.err ((mul_u_le (by norm_num)).trans (by norm_num))
  have eB := hB.err ((mul_u_le (by norm_num)).trans (by norm_num))
  have hu := u_le
  have u0 := u_pos
  have eS' : |S' - S| ≤ 12 / 2 ^ 53 := by
    have : 2 * ((12 : ℕ) : ℝ) * u * |S| ≤ 2 * 12 * (1 / 2 ^ 53) * (1 / 2) := by
      push_cast
      exact mul_le_mul (by linarith) S0 (abs_nonneg _) (by norm_num)
    refine (eS.trans this).trans ?_
    norm_num
  have eB' : |B' - B| ≤ 7 / 2 ^ 53 := by
    have : 2 * ((7 : ℕ) : ℝ) * u * |B| ≤ 2 * 7 * (1 / 2 ^ 53) * (1 / 2) := by
      push_cast
      exact mul_le_mul (by linarith) B0 (abs_nonneg _) (by norm_num)
    refine (eB.trans this).trans ?_
    norm_num
  have d := near_sub eS' eB'
  have db : |S - B| ≤ 1 := (abs_sub _ _).trans (by linarith)
  have r : |rnd (S' - B') - (S' - B')| ≤ 1 / 2 ^ 53 :=
    hr.err_num (-52) (by norm_num) (B := 2) ((abs_near d db).trans (by norm_num)) (by norm_num) (by norm_num)
  exact (near_trans r d).trans (by norm_num)

/-- **C173.**  For the Sun and the Moon seen from Earth (each term of the acceleration at most 0.01 m/s²) the error of
a component is below 1e-16 m/s². -/
theorem pointMass_small (hr : Nearest rnd) (f f' g g' : FuseN) {GM : ℝ} (hG : 0 ≤ GM) (hG1 : GM ≤ 10 ^ 21)
    (rsat robj : V3) (a : Ax) (hd : Fit (rsat.sub robj)) (ho : Fit robj) (hd0 : rsat.sub robj ≠ ⟨0, 0, 0⟩)
    (ho0 : robj ≠ ⟨0, 0, 0⟩) (hd1 : (rsat.sub robj).norm ≤ 2 ^ 100) (ho1 : robj.norm ≤ 2 ^ 100)
    (t1 : GM * (|a.of (rsat.sub robj)| / ((rsat.sub robj).norm * (rsat.sub robj).dot (rsat.sub robj))) ≤ 1 / 100)
    (t2 : GM * (|a.of robj| / (robj.norm * robj.dot robj)) ≤ 1 / 100) :
    |pointMassD rnd f f' g g' GM rsat robj a - a.of (Forces.pointMass GM rsat robj)| ≤ 1 / 10 ^ 16 := by
  refine (pointMass_error hr f f' g g' hG rsat robj a hd ho hd0 ho0 hd1 ho1).trans ?_
  rw [mul_add GM]
  generalize GM * (|a.of (rsat.sub robj)| / ((rsat.sub robj).norm * (rsat.sub robj).dot (rsat.sub robj))) = x at *
  generalize GM * (|a.of robj| / (robj.norm * robj.dot robj)) = y at *
  have e : (eta : ℝ) ≤ 1 / 2 ^ 200 := by
    unfold eta
    have : (2 : ℝ) ^ (-1074 : ℤ) ≤ 2 ^ (-200 : ℤ) := zpow_le_zpow_right₀ (by norm_num) (by norm_num)
    have k : (2 : ℝ) ^ (-200 : ℤ) = 1 / 2 ^ 200 := by norm_num [zpow_neg]
    have p : (0 : ℝ) < 2 ^ (-1074 : ℤ) := zpow_pos (by norm_num) _
    rw [k] at this
    linarith
  have b1 : 2 * (GM + 1) * eta ≤ 2 * (10 ^ 21 + 1) * (1 / 2 ^ 200) :=
    mul_le_mul (by linarith) e eta_pos.le (by norm_num)
  have b2 : 34 * u * (x + y) ≤ 34 * (1 / 2 ^ 53) * (1 / 50) := by
    refine (mul_le_mul_of_nonneg_left (by linarith : x + y ≤ 1 / 50) (by linarith [u_pos])).trans ?_
    exact mul_le_mul_of_nonneg_right (by linarith [u_le]) (by norm_num)
  refine (add_le_add b2 b1).trans ?_
  norm_num

/-! Instances of the hypotheses. -/

example : Fit ⟨7700000, -1234567 / 8, 0⟩ := by
  refine ⟨Or.inr ?_, Or.inr ?_, Or.inl rfl⟩
  · rw [abs_of_pos (by norm_num)]; norm_num
  · norm_num [abs_of_neg]

example : (⟨7700000, 0, 0⟩ : V3) ≠ ⟨0, 0, 0⟩ := by
  intro h
  have := congrArg V3.x h
  norm_num at this

example : (⟨7700000, 0, 0⟩ : V3).norm ≤ 2 ^ 100 := by
  unfold V3.norm V3.dot
  refine Real.sqrt_le_iff.2 ⟨by positivity, by norm_num⟩

example : Rel 12 (1 / 4) (1 / 4) ∧ |(1 / 4 : ℝ)| ≤ 1 / 2 :=
  ⟨(Rel.refl _).mono (by norm_num), by rw [abs_of_pos (by norm_num)]; norm_num⟩

/-- The Moon on the x axis. -/
example : |pointMassD rnd64 ⟨.none, false⟩ ⟨.left, true⟩ ⟨.none, false⟩ ⟨.none, false⟩ 4902800066163 ⟨7700000, 0, 0⟩
    ⟨384400000, 0, 0⟩ .x - Ax.x.of (Forces.pointMass 4902800066163 ⟨7700000, 0, 0⟩ ⟨384400000, 0, 0⟩)| ≤ 1 / 10 ^ 16 := by
  have hd : V3.sub ⟨7700000, 0, 0⟩ ⟨384400000, 0, 0⟩ = ⟨-376700000, 0, 0⟩ := by
    unfold V3.sub; norm_num
  have n1 : V3.norm ⟨-376700000, 0, 0⟩ = 376700000 := by
    unfold V3.norm V3.dot
    rw [show (-376700000 * -376700000 + 0 * 0 + 0 * 0 : ℝ) = 376700000 ^ 2 by norm_num, Real.sqrt_sq (by norm_num)]
  have n2 : V3.norm ⟨384400000, 0, 0⟩ = 384400000 := by
    unfold V3.norm V3.dot
    rw [show (384400000 * 384400000 + 0 * 0 + 0 * 0 : ℝ) = 384400000 ^ 2 by norm_num, Real.sqrt_sq (by norm_num)]
  have ne : ∀ x : ℝ, x ≠ 0 → (⟨x, 0, 0⟩ : V3) ≠ ⟨0, 0, 0⟩ := fun x hx h => hx (congrArg V3.x h)
  refine pointMass_small rnd64_nearest _ _ _ _ (by norm_num) (by norm_num) _ _ _ ?_ ?_ ?_ ?_ ?_ ?_ ?_ ?_
  · rw [hd]
    exact ⟨Or.inr (by norm_num [abs_of_neg]), Or.inl rfl, Or.inl rfl⟩
  · exact ⟨Or.inr (by norm_num), Or.inl rfl, Or.inl rfl⟩
  · rw [hd]; exact ne _ (by norm_num)
  · exact ne _ (by norm_num)
  · rw [hd, n1]; norm_num
  · rw [n2]; norm_num
  · rw [hd, n1]
    norm_num [Ax.of, V3.dot, abs_of_neg]
  · rw [n2]
    norm_num [Ax.of, V3.dot]

end Verif.Float
