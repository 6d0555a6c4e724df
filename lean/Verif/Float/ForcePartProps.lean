import Verif.Float.ForcePartModel
import Verif.Float.RecurProps

/-
C181: partials of the third-body acceleration and of the radiation pressure in double arithmetic.
-/
namespace Verif.Float.ForcePart

open Verif.Astro Verif.Float.Gravity Verif.Float.Recur

variable {rnd : ℝ → ℝ}

/-- Entry of a matrix. -/
def ent (a b : Ax) (m : M3) : ℝ :=
  match a with
  | .x => b.of m.r0
  | .y => b.of m.r1
  | .z => b.of m.r2

theorem pm_ent (GM : ℝ) (rsat robj : V3) (a b : Ax) :
    ent a b (Forces.pointMassPartials GM rsat robj).2 =
      -GM * (delta a b / ((rsat.sub robj).norm * (rsat.sub robj).dot (rsat.sub robj)) +
        3 * (a.of (rsat.sub robj) * b.of (rsat.sub robj)) / (robj.dot robj * robj.dot robj * robj.norm)) := by
  cases a <;> cases b <;>
    simp only [ent, Forces.pointMassPartials, M3.one, M3.outer, M3.smul, M3.add, V3.smul, V3.add, Ax.of, delta, if_true,
      reduceCtorEq, if_false] <;> ring

theorem srp_ent (AU : ℝ) (rsat rsun : V3) (Area mass C : ℝ) (a b : Ax) :
    ent a b (Forces.srpPartials AU rsat rsun Area mass C).2.1 =
      456316 / 10 ^ 11 * C * (Area / mass) * (AU * AU) *
        (delta a b / ((rsat.sub rsun).norm * (rsat.sub rsun).norm * (rsat.sub rsun).norm) -
          3 * (a.of (rsat.sub rsun) * b.of (rsat.sub rsun)) /
            ((rsat.sub rsun).norm * (rsat.sub rsun).norm * (rsat.sub rsun).norm * (rsat.sub rsun).norm *
              (rsat.sub rsun).norm)) := by
  cases a <;> cases b <;>
    simp only [ent, Forces.srpPartials, Forces.P0, M3.one, M3.outer, M3.smul, M3.add, V3.smul, V3.add, Ax.of, delta,
      if_true, reduceCtorEq, if_false] <;> ring

theorem outer3_rel (hr : Nearest rnd) {w v : V3} (h : RelV 1 w v) (hv : Fit v) (a b : Ax) :
    Rel 4 (outer3D rnd w a b) (3 * (a.of v * b.of v)) := by
  have p := ((h.of a).mul (h.of b)).rb hr (by omega) (((hv.of a).mul (hv.of b)).mono (by norm_num))
  have b3 : Big 0 (3 : ℝ) := Or.inr (by norm_num)
  exact (((Rel.refl 3).mul p).rb hr (by omega) ((b3.mul ((hv.of a).mul (hv.of b))).mono (by norm_num))).mono (by omega)

theorem outer3_big {v : V3} (hv : Fit v) (a b : Ax) : Big 200 (3 * (a.of v * b.of v)) :=
  (Big.mul (m := 0) (Or.inr (by norm_num)) ((hv.of a).mul (hv.of b))).mono (by norm_num)

theorem outer3_comm (w : V3) (a b : Ax) : outer3D rnd w a b = outer3D rnd w b a := by
  unfold outer3D; rw [mul_comm (a.of w)]

theorem delta_comm (a b : Ax) : delta a b = delta b a := by unfold delta; simp only [eq_comm]

theorem delta_big (a b : Ax) : Big 0 (delta a b) := by
  unfold delta; split_ifs
  · right; norm_num
  · left; rfl

theorem pow_abs {x : ℝ} (h0 : 0 ≤ x) (h1 : x ≤ 2 ^ 100) (n : ℕ) : |x ^ n| ≤ 2 ^ (100 * n) := by
  rw [abs_of_nonneg (pow_nonneg h0 n), pow_mul]; exact pow_le_pow_left₀ h0 h1 n

/-- **C181.**  The partials of the third-body acceleration are exactly symmetric as computed. -/
theorem pm_symmetric (f f' g g' : FuseN) (GM : ℝ) (rsat robj : V3) (a b : Ax) :
    pmPartD rnd f f' g g' GM rsat robj a b = pmPartD rnd f f' g g' GM rsat robj b a := by
  simp only [pmPartD, delta_comm a b, outer3_comm _ a b]

/-- **C181.**  So are those of the radiation pressure. -/
theorem srp_symmetric (f : FuseN) (AU : ℝ) (rsat rsun : V3) (Area mass C : ℝ) (a b : Ax) :
    srpPartD rnd f AU rsat rsun Area mass C a b = srpPartD rnd f AU rsat rsun Area mass C b a := by
  simp only [srpPartD, delta_comm a b, outer3_comm _ a b]

/-- **C181.**  Every entry of the partials of the third-body acceleration is that of the formula of the code up to 19
roundings: both terms of an entry on the diagonal have the same sign. -/
theorem pm_rel (hr : Nearest rnd) (f f' g g' : FuseN) {GM : ℝ} (rsat robj : V3) (a b : Ax) (bG : Big 100 GM)
    (hd : Fit (rsat.sub robj)) (ho : Fit robj) (hd0 : rsat.sub robj ≠ ⟨0, 0, 0⟩) (ho0 : robj ≠ ⟨0, 0, 0⟩)
    (hd1 : (rsat.sub robj).norm ≤ 2 ^ 100) (ho1 : robj.norm ≤ 2 ^ 100) :
    Rel 19 (pmPartD rnd f f' g g' GM rsat robj a b) (ent a b (Forces.pointMassPartials GM rsat robj).2) := by
  rw [pm_ent]
  unfold pmPartD
  simp only
  have sv := sub_rel hr rsat robj hd
  have o := outer3_rel hr sv hd a b
  have ob := outer3_big hd a b
  have n1 := V3.norm_pos _ hd0
  have n2 := V3.norm_pos _ ho0
  have e1 : (rsat.sub robj).dot (rsat.sub robj) = (rsat.sub robj).norm * (rsat.sub robj).norm := (V3.norm_sq _).symm
  have e2 : robj.dot robj = robj.norm * robj.norm := (V3.norm_sq _).symm
  have dn := nrm_rel hr f (by omega) sv hd
  have dn2 := sq_rel hr f' (by omega) sv hd
  have sn := nrm_rel hr g (by omega) (RelV.refl robj) ho
  have sn2 := sq_rel hr g' (by omega) (RelV.refl robj) ho
  have dc := (dn.mul dn2).rb hr (by omega) (((norm_big hd).mul (dot_big hd)).mono (by norm_num))
  have s4 := (sn2.mul sn2).rb hr (by omega) (((dot_big ho).mul (dot_big ho)).mono (by norm_num))
  have s5 := (s4.mul sn).rb hr (by omega) ((((dot_big ho).mul (dot_big ho)).mul (norm_big ho)).mono (by norm_num))
  have c1 : |(rsat.sub robj).norm * (rsat.sub robj).dot (rsat.sub robj)| ≤ 2 ^ 300 := by
    rw [e1, show ∀ t : ℝ, t * (t * t) = t ^ 3 by intro t; ring]; exact pow_abs n1.le hd1 3
  have c1' : (rsat.sub robj).norm * (rsat.sub robj).dot (rsat.sub robj) ≠ 0 := by rw [e1]; positivity
  have c2 : |robj.dot robj * robj.dot robj * robj.norm| ≤ 2 ^ 500 := by
    rw [e2, show ∀ t : ℝ, t * t * (t * t) * t = t ^ 5 by intro t; ring]; exact pow_abs n2.le ho1 5
  have c2' : robj.dot robj * robj.dot robj * robj.norm ≠ 0 := by rw [e2]; positivity
  have bq := (delta_big a b).div c1 c1'
  have by' := ob.div c2 c2'
  have q := ((Rel.refl (delta a b)).div dc).rb hr (by omega) (bq.mono (by norm_num))
  have y := (o.div s5).rb hr (by omega) (by'.mono (by norm_num))
  have key : Rel 18 (rnd (rnd (delta a b / rnd (nrmD rnd f (subD rnd rsat robj) * sqD rnd f' (subD rnd rsat robj).x
      (subD rnd rsat robj).y (subD rnd rsat robj).z)) + rnd (outer3D rnd (subD rnd rsat robj) a b /
      rnd (rnd (sqD rnd g' robj.x robj.y robj.z * sqD rnd g' robj.x robj.y robj.z) * nrmD rnd g robj))))
      (delta a b / ((rsat.sub robj).norm * (rsat.sub robj).dot (rsat.sub robj)) +
        3 * (a.of (rsat.sub robj) * b.of (rsat.sub robj)) / (robj.dot robj * robj.dot robj * robj.norm)) ∧
      Big 700 (delta a b / ((rsat.sub robj).norm * (rsat.sub robj).dot (rsat.sub robj)) +
        3 * (a.of (rsat.sub robj) * b.of (rsat.sub robj)) / (robj.dot robj * robj.dot robj * robj.norm)) := by
    by_cases h : a = b
    · subst h
      have p1 : 0 ≤ delta a a / ((rsat.sub robj).norm * (rsat.sub robj).dot (rsat.sub robj)) := by
        rw [e1]; unfold delta; rw [if_pos rfl]; positivity
      have p2 : 0 ≤ 3 * (a.of (rsat.sub robj) * a.of (rsat.sub robj)) / (robj.dot robj * robj.dot robj * robj.norm) := by
        rw [e2]; exact div_nonneg (mul_nonneg (by norm_num) (mul_self_nonneg _)) (by positivity)
      have bb := (bq.mono (n := 700) (by norm_num)).add by' p1 p2
      exact ⟨(((q.mono (n := 17) (by omega)).add (y.mono (by omega)) p1 p2).rb hr (by omega) (bb.mono (by norm_num))).mono
        (by omega), bb⟩
    · have d0 : delta a b = 0 := if_neg h
      rw [d0] at q ⊢
      rw [zero_div, hr.zero, zero_add, zero_div, zero_add]
      exact ⟨(y.rb hr (by omega) (by'.mono (by norm_num))).mono (by omega), by'⟩
  have g1 : Rel 0 (-GM) (-GM) := Rel.refl _
  have bG' : Big 100 (-GM) := bG.imp (fun h => by rw [h, neg_zero]) (fun h => by rwa [abs_neg])
  exact ((g1.mul key.1).rb hr (by omega) ((bG'.mul key.2).mono (by norm_num))).mono (by omega)

/-- The relative error of the partials of the third-body acceleration. -/
theorem pm_error (hr : Nearest rnd) (f f' g g' : FuseN) {GM : ℝ} (rsat robj : V3) (a b : Ax) (bG : Big 100 GM)
    (hd : Fit (rsat.sub robj)) (ho : Fit robj) (hd0 : rsat.sub robj ≠ ⟨0, 0, 0⟩) (ho0 : robj ≠ ⟨0, 0, 0⟩)
    (hd1 : (rsat.sub robj).norm ≤ 2 ^ 100) (ho1 : robj.norm ≤ 2 ^ 100) :
    |pmPartD rnd f f' g g' GM rsat robj a b - ent a b (Forces.pointMassPartials GM rsat robj).2| ≤
      5 / 10 ^ 15 * |ent a b (Forces.pointMassPartials GM rsat robj).2| := by
  have h := pm_rel hr f f' g g' rsat robj a b bG hd ho hd0 ho0 hd1 ho1
  refine (h.err ((mul_u_le (by norm_num)).trans (by norm_num))).trans ?_
  refine mul_le_mul_of_nonneg_right ?_ (abs_nonneg _)
  have := u_le
  norm_num at this ⊢
  linarith

theorem srpFac_rel (hr : Nearest rnd) {AU Area mass C : ℝ} (bA : Big 50 AU) (bR : Big 50 Area) (m0 : mass ≠ 0)
    (m1 : |mass| ≤ 2 ^ 50) (bC : Big 50 C) :
    Rel 6 (srpFacD rnd AU Area mass C) (456316 / 10 ^ 11 * C * (Area / mass) * (AU * AU)) ∧
      Big 270 (456316 / 10 ^ 11 * C * (Area / mass) * (AU * AU)) := by
  have bP : Big 20 (456316 / 10 ^ 11 : ℝ) := by
    right
    rw [abs_of_pos (by norm_num)]
    norm_num
  have b1 := bP.mul bC
  have b2 := b1.mul (bR.div m1 m0)
  have b3 := b2.mul (bA.mul bA)
  have c0 := (Rel.refl (456316 / 10 ^ 11 : ℝ)).rb hr (by omega) (bP.mono (by norm_num))
  have c1 := (c0.mul (Rel.refl C)).rb hr (by omega) (b1.mono (by norm_num))
  have c2 := ((Rel.refl Area).div (Rel.refl mass)).rb hr (by omega) ((bR.div m1 m0).mono (by norm_num))
  have c3 := (c1.mul c2).rb hr (by omega) (b2.mono (by norm_num))
  have c4 := ((Rel.refl AU).mul (Rel.refl AU)).rb hr (by omega) ((bA.mul bA).mono (by norm_num))
  exact ⟨((c3.mul c4).rb hr (by omega) (b3.mono (by norm_num))).mono (by omega), b3⟩

/-- The two terms of an entry. -/
theorem srp_terms (hr : Nearest rnd) (f : FuseN) (rsat rsun : V3) (a b : Ax) (hd : Fit (rsat.sub rsun))
    (hd0 : rsat.sub rsun ≠ ⟨0, 0, 0⟩) (hd1 : (rsat.sub rsun).norm ≤ 2 ^ 100) :
    let D := nrmD rnd f (subD rnd rsat rsun)
    let D3 := rnd (rnd (D * D) * D)
    let n := (rsat.sub rsun).norm
    let y := 3 * (a.of (rsat.sub rsun) * b.of (rsat.sub rsun)) / (n * n * n * n * n)
    Rel 21 (rnd (delta a b / D3)) (delta a b / (n * n * n)) ∧
      Rel 39 (rnd (outer3D rnd (subD rnd rsat rsun) a b / rnd (rnd (D3 * D) * D))) y ∧ Big 700 y := by
  intro D D3 n y
  have sv := sub_rel hr rsat rsun hd
  have np : 0 < n := V3.norm_pos _ hd0
  have nb : Big 100 n := by
    obtain ⟨x0, y0, z0⟩ := hd
    have le : ∀ t : ℝ, t * t ≤ n * n → Big 100 t → t ≠ 0 → Big 100 n := by
      intro t ht bt t0
      right
      refine (bt.resolve_left t0).trans ?_
      rw [abs_of_pos np]
      exact abs_le_of_sq_le_sq' (by rw [sq, sq]; exact ht) np.le |> abs_le.2
    have nn : n * n = (rsat.sub rsun).x * (rsat.sub rsun).x + (rsat.sub rsun).y * (rsat.sub rsun).y +
        (rsat.sub rsun).z * (rsat.sub rsun).z := V3.norm_sq _
    by_cases hx : (rsat.sub rsun).x = 0
    · by_cases hy : (rsat.sub rsun).y = 0
      · by_cases hz : (rsat.sub rsun).z = 0
        · exact absurd (V3.ext hx hy hz) hd0
        · exact le _ (by nlinarith [mul_self_nonneg (rsat.sub rsun).x, mul_self_nonneg (rsat.sub rsun).y]) z0 hz
      · exact le _ (by nlinarith [mul_self_nonneg (rsat.sub rsun).x, mul_self_nonneg (rsat.sub rsun).z]) y0 hy
    · exact le _ (by nlinarith [mul_self_nonneg (rsat.sub rsun).y, mul_self_nonneg (rsat.sub rsun).z]) x0 hx
  have d1 : Rel 6 D n := nrm_rel hr f (by omega) sv hd
  have d2 := (d1.mul d1).rb hr (by omega) ((nb.mul nb).mono (by norm_num))
  have d3 : Rel 20 D3 (n * n * n) := (d2.mul d1).rb hr (by omega) (((nb.mul nb).mul nb).mono (by norm_num))
  have d4 := (d3.mul d1).rb hr (by omega) ((((nb.mul nb).mul nb).mul nb).mono (by norm_num))
  have d5 := (d4.mul d1).rb hr (by omega) (((((nb.mul nb).mul nb).mul nb).mul nb).mono (by norm_num))
  have c3 : |n * n * n| ≤ 2 ^ 300 := by
    rw [show n * n * n = n ^ 3 by ring]; exact pow_abs np.le hd1 3
  have c5 : |n * n * n * n * n| ≤ 2 ^ 500 := by
    rw [show n * n * n * n * n = n ^ 5 by ring]; exact pow_abs np.le hd1 5
  have bq := (delta_big a b).div c3 (by positivity)
  have bY : Big 700 y := (outer3_big hd a b).div c5 (by positivity)
  exact ⟨(((Rel.refl (delta a b)).div d3).rb hr (by omega) (bq.mono (by norm_num))).mono (by omega),
    (((outer3_rel hr sv hd a b).div d5).rb hr (by omega) (bY.mono (by norm_num))).mono (by omega), bY⟩

/-- **C181.**  Every entry off the diagonal of the partials of the radiation pressure is that of the formula up to 47
roundings. -/
theorem srp_off_rel (hr : Nearest rnd) (f : FuseN) {AU Area mass C : ℝ} (rsat rsun : V3) {a b : Ax} (hab : a ≠ b)
    (hd : Fit (rsat.sub rsun)) (hd0 : rsat.sub rsun ≠ ⟨0, 0, 0⟩) (hd1 : (rsat.sub rsun).norm ≤ 2 ^ 100)
    (bA : Big 50 AU) (bR : Big 50 Area) (m0 : mass ≠ 0) (m1 : |mass| ≤ 2 ^ 50) (bC : Big 50 C) :
    Rel 47 (srpPartD rnd f AU rsat rsun Area mass C a b) (ent a b (Forces.srpPartials AU rsat rsun Area mass C).2.1) := by
  obtain ⟨k, bk⟩ := srpFac_rel hr bA bR m0 m1 bC
  obtain ⟨-, y, bY⟩ := srp_terms hr f rsat rsun a b hd hd0 hd1
  have d0 : delta a b = 0 := if_neg hab
  rw [srp_ent]
  unfold srpPartD
  simp only at y bY ⊢
  rw [d0, zero_div, zero_div, hr.zero, zero_sub, zero_sub]
  have bn : Big 700 (-(3 * (a.of (rsat.sub rsun) * b.of (rsat.sub rsun)) / ((rsat.sub rsun).norm * (rsat.sub rsun).norm *
      (rsat.sub rsun).norm * (rsat.sub rsun).norm * (rsat.sub rsun).norm))) :=
    bY.imp (fun h => by rw [h, neg_zero]) (fun h => by rwa [abs_neg])
  have z := y.neg.rb hr (by omega) (bn.mono (by norm_num))
  exact ((k.mul z).rb hr (by omega) ((bk.mul bn).mono (by norm_num))).mono (by omega)

/-- **C181.**  Every entry of the partials of the radiation pressure is right to 1e-13 of the factor over the cube of the
distance, which is the size of the matrix. -/
theorem srp_part_error (hr : Nearest rnd) (f : FuseN) {AU Area mass C : ℝ} (rsat rsun : V3) (a b : Ax)
    (hd : Fit (rsat.sub rsun)) (hd0 : rsat.sub rsun ≠ ⟨0, 0, 0⟩) (hd1 : (rsat.sub rsun).norm ≤ 2 ^ 100)
    (bA : Big 50 AU) (bR : Big 50 Area) (m0 : mass ≠ 0) (m1 : |mass| ≤ 2 ^ 50) (bC : Big 50 C) :
    |srpPartD rnd f AU rsat rsun Area mass C a b - ent a b (Forces.srpPartials AU rsat rsun Area mass C).2.1| ≤
      1 / 10 ^ 13 * (|456316 / 10 ^ 11 * C * (Area / mass) * (AU * AU)| / (rsat.sub rsun).norm ^ 3) +
        2 * (|456316 / 10 ^ 11 * C * (Area / mass) * (AU * AU)| + 1) * eta := by
  obtain ⟨k, -⟩ := srpFac_rel hr bA bR m0 m1 bC
  obtain ⟨q, y, -⟩ := srp_terms hr f rsat rsun a b hd hd0 hd1
  have np := V3.norm_pos _ hd0
  rw [srp_ent]
  unfold srpPartD
  simp only at q y ⊢
  have e := (Ev.mulF' ((((Ev.ofRel q (by omega)).mono (n := 78) (by omega) le_rfl).sub ((Ev.ofRel y (by omega)).mono (n := 78)
    (by omega) le_rfl)).round hr) (rel_gam k (by omega))).round hr
  have hs : |delta a b / ((rsat.sub rsun).norm * (rsat.sub rsun).norm * (rsat.sub rsun).norm)| +
      |3 * (a.of (rsat.sub rsun) * b.of (rsat.sub rsun)) / ((rsat.sub rsun).norm * (rsat.sub rsun).norm *
        (rsat.sub rsun).norm * (rsat.sub rsun).norm * (rsat.sub rsun).norm)| ≤ 4 / (rsat.sub rsun).norm ^ 3 := by
    have nn := V3.norm_sq (rsat.sub rsun)
    have cmp : ∀ c : Ax, |c.of (rsat.sub rsun)| ≤ (rsat.sub rsun).norm := by
      intro c
      refine abs_le_of_sq_le_sq' ?_ np.le |> abs_le.2
      unfold V3.dot at nn
      cases c <;> simp only [Ax.of] <;>
        nlinarith [mul_self_nonneg (rsat.sub rsun).x, mul_self_nonneg (rsat.sub rsun).y,
          mul_self_nonneg (rsat.sub rsun).z]
    have da : |delta a b| ≤ 1 := by unfold delta; split_ifs <;> norm_num
    have pr : |a.of (rsat.sub rsun) * b.of (rsat.sub rsun)| ≤ (rsat.sub rsun).norm * (rsat.sub rsun).norm := by
      rw [abs_mul]; exact mul_le_mul (cmp a) (cmp b) (abs_nonneg _) np.le
    generalize (rsat.sub rsun).norm = n at *
    have n3 : 0 < n * n * n := by positivity
    have n5 : 0 < n * n * n * n * n := by positivity
    rw [abs_div, abs_div, abs_of_pos n3, abs_of_pos n5, abs_mul, abs_of_pos (by norm_num : (0 : ℝ) < 3)]
    have t1 : |delta a b| / (n * n * n) ≤ 1 / n ^ 3 := by
      rw [show n ^ 3 = n * n * n by ring]; exact div_le_div_of_nonneg_right da n3.le
    have t2 : 3 * |a.of (rsat.sub rsun) * b.of (rsat.sub rsun)| / (n * n * n * n * n) ≤ 3 / n ^ 3 := by
      rw [div_le_div_iff₀ n5 (by positivity)]
      have := mul_le_mul_of_nonneg_right pr n3.le
      nlinarith
    calc _ ≤ 1 / n ^ 3 + 3 / n ^ 3 := add_le_add t1 t2
      _ = 4 / n ^ 3 := by ring
  have g : (gam (78 + 1 + 2 * 6 + 1) : ℝ) ≤ 1 + 5 / 2 / 10 ^ 14 := by
    have ku : ((92 : ℕ) : ℝ) * u ≤ 92 * (1 / 2 ^ 53) := by
      push_cast; exact mul_le_mul_of_nonneg_left u_le (by norm_num)
    have := gam_le (n := 92) (ku.trans (by norm_num))
    norm_num at ku this ⊢
  refine e.hv.trans ?_
  have e0 := eta_pos (K := ℝ)
  have K0 := abs_nonneg (456316 / 10 ^ 11 * C * (Area / mass) * (AU * AU))
  rw [div_eq_mul_inv _ ((rsat.sub rsun).norm ^ 3)]
  rw [div_eq_mul_inv (4 : ℝ)] at hs
  generalize |456316 / 10 ^ 11 * C * (Area / mass) * (AU * AU)| = K at *
  have N0 : 0 ≤ ((rsat.sub rsun).norm ^ 3)⁻¹ := by positivity
  generalize ((rsat.sub rsun).norm ^ 3)⁻¹ = N at *
  generalize |delta a b / ((rsat.sub rsun).norm * (rsat.sub rsun).norm * (rsat.sub rsun).norm)| +
      |3 * (a.of (rsat.sub rsun) * b.of (rsat.sub rsun)) / ((rsat.sub rsun).norm * (rsat.sub rsun).norm *
        (rsat.sub rsun).norm * (rsat.sub rsun).norm * (rsat.sub rsun).norm)| = S at *
  have g1 := gam_one_le (K := ℝ) (78 + 1 + 2 * 6 + 1)
  generalize (gam (78 + 1 + 2 * 6 + 1) : ℝ) = G at *
  generalize (eta : ℝ) = η at *
  have h1 : K * S ≤ K * (4 * N) := mul_le_mul_of_nonneg_left hs K0
  have h2 : (G - 1) * (K * S) ≤ (5 / 2 / 10 ^ 14) * (K * (4 * N)) := by
    calc (G - 1) * (K * S) ≤ (G - 1) * (K * (4 * N)) := mul_le_mul_of_nonneg_left h1 (by linarith)
      _ ≤ _ := mul_le_mul_of_nonneg_right (by linarith) (mul_nonneg K0 (by linarith))
  have h3 : (K * (0 + 0 + η) + η) * G ≤ (K * η + η) * 2 := by
    rw [zero_add, zero_add]
    exact mul_le_mul_of_nonneg_left (g.trans (by norm_num)) (by positivity)
  norm_num at h2 ⊢
  linarith

/-- **C181.**  The partials of the radiation pressure with respect to the coefficient: 30 roundings. -/
theorem srp_dc_rel (hr : Nearest rnd) (f : FuseN) {AU Area mass C : ℝ} (rsat rsun : V3) (a : Ax)
    (hd : Fit (rsat.sub rsun)) (hd0 : rsat.sub rsun ≠ ⟨0, 0, 0⟩) (hd1 : (rsat.sub rsun).norm ≤ 2 ^ 100)
    (bA : Big 50 AU) (bR : Big 50 Area) (m0 : mass ≠ 0) (m1 : |mass| ≤ 2 ^ 50) (bC : Big 50 C) (C0 : C ≠ 0)
    (C1 : |C| ≤ 2 ^ 50) :
    ∃ v, (Forces.srpPartials AU rsat rsun Area mass C).2.2 = some v ∧
      Rel 30 (srpDCD rnd f AU rsat rsun Area mass C a) (a.of v) := by
  refine ⟨(Forces.srp AU rsat rsun Area mass C).smul (1 / C), ?_, ?_⟩
  · simp only [Forces.srpPartials, Forces.srp]; rw [if_neg C0]
  have r := srp_rel hr f rsat rsun a hd hd0 hd1 (bA.mono (by norm_num)) (bR.mono (by norm_num)) m0
    (m1.trans (by norm_num)) (bC.mono (by norm_num))
  have np := V3.norm_pos _ hd0
  have bP : Big 20 (456316 / 10 ^ 11 : ℝ) := by
    right
    rw [abs_of_pos (by norm_num)]
    norm_num
  have c3 : |(rsat.sub rsun).norm * (rsat.sub rsun).norm * (rsat.sub rsun).norm| ≤ 2 ^ 300 := by
    rw [show ∀ t : ℝ, t * t * t = t ^ 3 by intro t; ring]; exact pow_abs np.le hd1 3
  have b := (((((bC.mul (bR.div m1 m0)).mul bP).mul (bA.mul bA)).mul (hd.of a)).div c3 (by positivity)).div C1 C0
  have e : a.of ((Forces.srp AU rsat rsun Area mass C).smul (1 / C)) = a.of (Forces.srp AU rsat rsun Area mass C) / C := by
    cases a <;> simp only [Ax.of, V3.smul] <;> ring
  rw [e]
  rw [← srp_comp] at b
  exact ((r.div (Rel.refl C)).rb hr (by omega) (b.mono (by norm_num))).mono (by omega)

/-- The Moon on the x axis and the satellite on the y axis: the hypotheses hold, and the entry xy is not zero. -/
example : |pmPartD rnd64 ⟨.none, false⟩ ⟨.left, true⟩ ⟨.none, false⟩ ⟨.none, false⟩ 4902800066163 ⟨0, 7700000, 0⟩
    ⟨384400000, 0, 0⟩ .x .y - ent .x .y (Forces.pointMassPartials 4902800066163 ⟨0, 7700000, 0⟩ ⟨384400000, 0, 0⟩).2| ≤
      5 / 10 ^ 15 * |ent .x .y (Forces.pointMassPartials 4902800066163 ⟨0, 7700000, 0⟩ ⟨384400000, 0, 0⟩).2| := by
  have hd : V3.sub ⟨0, 7700000, 0⟩ ⟨384400000, 0, 0⟩ = ⟨-384400000, 7700000, 0⟩ := by
    unfold V3.sub; norm_num
  have big : ∀ x : ℝ, 1 ≤ |x| → Big 100 x := fun x h =>
    Or.inr ((pow_le_one₀ (by norm_num) (by norm_num)).trans h)
  refine pm_error rnd64_nearest _ _ _ _ _ _ _ _ (big _ (by norm_num)) ?_ ?_ ?_ ?_ ?_ ?_
  · rw [hd]
    exact ⟨big _ (by norm_num [abs_of_neg]), big _ (by norm_num), Or.inl rfl⟩
  · exact ⟨big _ (by norm_num), Or.inl rfl, Or.inl rfl⟩
  · rw [hd]; intro h; have := congrArg V3.y h; norm_num at this
  · intro h; have := congrArg V3.x h; norm_num at this
  · rw [hd]
    refine Real.sqrt_le_iff.2 ⟨by positivity, ?_⟩
    norm_num [V3.dot]
  · refine Real.sqrt_le_iff.2 ⟨by positivity, ?_⟩
    norm_num [V3.dot]

end Verif.Float.ForcePart
