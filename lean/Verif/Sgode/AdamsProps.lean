import Verif.Sgode.AdamsRun

/-!
C79: each step of the integrator is the Adams formula for the points passed.  With `k` the order of
the step, the predicted solution is the old one plus the integral of the polynomial through the
last `k` derivatives; the corrected one uses the polynomial that also takes the derivative at the
predicted point; between points the solution is continued with the polynomial through the last
`k+1` derivatives.

Proved for the histories of `Run`, in which two situations are excluded where the code uses
coefficients of other points (`stale_psi_counterexample`, `stale_v_counterexample`).
-/
namespace Verif.Sgode

open Finset

variable {n : Nat}

/-- **C79** The prediction.  Partial: histories of `Run`; without the control of rounding errors
(`nornd`), whose code has no defined value (see `Ext.tau1`). -/
theorem predictor_partial (e : Ext ℝ n) (he : e.Ok) (d : ℝ) (s : St ℝ n) (N : Nat) (X : Nat → ℝ) (D : Nat → Vec ℝ n)
    (hr : Run e d s N X D) (hn : s.nornd = true) (c : Fin n) (P : Polynomial ℝ) (hd : P.degree < s.k)
    (hv : ∀ j, j < s.k → P.eval (X j) = D j c) :
    s.k ≤ N ∧ (attempt e s).p c = s.yy c + ∫ t in s.x..s.x + s.h, P.eval t := by
  have hi := hr.atAttempt.inv he
  have ha := hr.ainv he
  have hlen := ha.len
  refine ⟨hlen, ?_⟩
  have hinc := predict_increment hi ha
  have hnb : (block1 s).nornd = s.nornd := by
    unfold block1; simp only; split <;> rfl
  have hyb : (block1 s).yy = s.yy := by
    unfold block1; simp only; split <;> rfl
  have hp : (attempt e s).p = s.yy + s.h • (predict (block1 s).g (block1 s).k 0 (shifted (block1 s))).1 := by
    unfold attempt predicted
    simp only [hnb, hn, if_true, hyb, (block1_fields s).2.1]
  rw [hp, hinc, ha.x, integral_poly X (fun j => D j c) s.h s.k (fun i j h1 h2 => ha.distinct i j h1 (by omega))
    (fun j hj => ha.new hi j (by omega)) P hd hv]
  simp only [Pi.add_apply, Pi.smul_apply, Finset.sum_apply, smul_eq_mul, star, dd_comp]
  rfl

/-- **C79** The correction: the polynomial also takes the derivative at the predicted point. -/
theorem corrector_partial (e : Ext ℝ n) (he : e.Ok) (d : ℝ) (s : St ℝ n) (N : Nat) (X : Nat → ℝ) (D : Nat → Vec ℝ n)
    (hr : Run e d s N X D) (hn : s.nornd = true) (p5eps : ℝ) (q : Est ℝ) (c : Fin n) (P : Polynomial ℝ)
    (hd : P.degree < (s.k + 1 : Nat)) (hv : ∀ j, j < s.k → P.eval (X j) = D j c)
    (hnew : P.eval (s.x + s.h) = e.f (s.x + s.h) (attempt e s).p c) :
    (accept e p5eps q (attempt e s)).yy c = s.yy c + ∫ t in s.x..s.x + s.h, P.eval t := by
  have hi := hr.atAttempt.inv he
  have ha := hr.ainv he
  have hlen := ha.len
  have hk1 := hi.k1
  have hpost := block1_post hi ha
  have hinc := predict_increment hi ha
  have hnb : (block1 s).nornd = s.nornd := by
    unfold block1; simp only; split <;> rfl
  have hyb : (block1 s).yy = s.yy := by
    unfold block1; simp only; split <;> rfl
  have hp : (attempt e s).p = s.yy + s.h • (predict (block1 s).g (block1 s).k 0 (shifted (block1 s))).1 := by
    unfold attempt predicted
    simp only [hnb, hn, if_true, hyb, (block1_fields s).2.1]
  have hna : (attempt e s).nornd = true := by
    unfold attempt predicted
    simp only [hnb, hn]
  have hyp : (attempt e s).yp = e.f (s.x + s.h) (attempt e s).p := by
    unfold attempt predicted
    simp only [(block1_fields s).2.1, (block1_fields s).2.2.2.2.1]
  have hphi0 := attempt_phi e hi ha s.k 0 (by omega)
  rw [Nat.Ico_zero_eq_range] at hphi0
  obtain ⟨a1, a2, a3, a4, a5, a6, a7⟩ := attempt_fields e s
  obtain ⟨b1, b2, b3, b4, b5⟩ := attempt_arrays e s
  have hyy : (accept e p5eps q (attempt e s)).yy =
      (attempt e s).p + (s.h * table (quots X s.h) s.k 0) • ((attempt e s).yp - (attempt e s).phi 0) := by
    simp only [accept, corrected, hna, if_true]
    rw [a1, a2, b3, hpost.g s.k le_rfl]
  -- the nodes with the new point last
  let Y : Nat → ℝ := fun j => if j < s.k then X j else X 0 + s.h
  let E : Nat → ℝ := fun j => if j < s.k then D j c else (attempt e s).yp c
  have hY : ∀ j, j < s.k → Y j = X j := fun j hj => if_pos hj
  have hE : ∀ j, j < s.k → E j = D j c := fun j hj => if_pos hj
  have hYk : Y s.k = X 0 + s.h := if_neg (lt_irrefl _)
  have hEk : E s.k = (attempt e s).yp c := if_neg (lt_irrefl _)
  have hdist : ∀ i j, i < j → j < s.k + 1 → Y i ≠ Y j := by
    intro i j h1 h2
    rw [hY i (by omega)]
    by_cases hj : j < s.k
    · rw [hY j hj]
      exact ha.distinct i j h1 (by omega)
    · rw [show j = s.k by omega, hYk]
      exact (sub_ne_zero.1 (ha.new hi i (by omega))).symm
  have hval : ∀ j, j < s.k + 1 → P.eval (Y j) = E j := by
    intro j hj
    by_cases hjk : j < s.k
    · rw [hY j hjk, hE j hjk, hv j hjk]
    · rw [show j = s.k by omega, hYk, hEk, ← ha.x, hnew, hyp]
  have hY0 : Y 0 = X 0 := hY 0 (by omega)
  have hint := integral_poly Y E s.h (s.k + 1) hdist
    (fun j hj => by rw [hY0, hY j (by omega)]; exact ha.new hi j (by omega)) P hd hval
  -- the terms
  have hdd : ∀ i, i < s.k → dd Y E 0 i = dd X D 0 i c := by
    intro i h
    rw [dd_comp]
    exact dd_congr _ _ _ _ i 0 fun j _ h2 => ⟨hY j (by omega), hE j (by omega)⟩
  have hnod : ∀ i, i ≤ s.k → nodal Y (X 0 + s.h) i = nodal X (X 0 + s.h) i :=
    fun i h => nodal_congr _ _ _ _ fun j hj => hY j (by omega)
  have htab : ∀ i, i ≤ s.k → table (fun j => s.h / (X 0 + s.h - Y j)) i 0 = table (quots X s.h) i 0 := by
    intro i h
    refine table_congr _ _ i 0 fun j hj => ?_
    rw [hY j (by omega)]
    rfl
  -- the last term
  have hlast : nodal X (X 0 + s.h) s.k * dd Y E 0 s.k =
      (attempt e s).yp c - ∑ i ∈ range s.k, nodal X (X 0 + s.h) i * dd X D 0 i c := by
    have h1 := newton_eval Y E (s.k + 1) hdist s.k (by omega)
    rw [hYk, hEk] at h1
    unfold newton at h1
    rw [sum_range_succ, hnod s.k le_rfl, smul_eq_mul] at h1
    rw [← h1]
    rw [sum_congr rfl (fun i hi' => by
      rw [hnod i (mem_range.1 hi').le, hdd i (mem_range.1 hi'), smul_eq_mul] :
        ∀ i ∈ range s.k, nodal Y (X 0 + s.h) i • dd Y E 0 i = nodal X (X 0 + s.h) i * dd X D 0 i c)]
    ring
  rw [hY0, sum_range_succ, htab s.k le_rfl, hnod s.k le_rfl, hlast,
    sum_congr rfl (fun i hi' => by
      rw [htab i (mem_range.1 hi').le, hnod i (mem_range.1 hi').le, hdd i (mem_range.1 hi')] :
        ∀ i ∈ range s.k, table (fun j => s.h / (X 0 + s.h - Y j)) i 0 * (nodal Y (X 0 + s.h) i * dd Y E 0 i) =
          table (quots X s.h) i 0 * (nodal X (X 0 + s.h) i * dd X D 0 i c))] at hint
  rw [hyy, hp, hinc, hphi0, ha.x, hint]
  simp only [Pi.add_apply, Pi.smul_apply, Pi.sub_apply, Finset.sum_apply, smul_eq_mul, star]
  ring

/-- **C79** The coefficients of any attempt are those of the points passed: `psi(i)` is the distance
of the new abscissa from the point `i` back, `alpha` the step relative to it, `sig(i)` is `i!` times
their product, and the differences kept are `∏ (x − X (j+1))` times the divided differences. -/
theorem coefficients_partial (e : Ext ℝ n) (he : e.Ok) (d : ℝ) (s : St ℝ n) (N : Nat) (X : Nat → ℝ) (D : Nat → Vec ℝ n)
    (hr : Run e d s N X D) :
    (∀ i, i < s.k → (attempt e s).psi i = s.x + s.h - X i) ∧
    (∀ i, i < s.k → (attempt e s).alpha i = s.h / (s.x + s.h - X i)) ∧
    (∀ i, i ≤ s.k → (attempt e s).sig i = (i.factorial : ℝ) * ∏ j ∈ range i, (s.h / (s.x + s.h - X j))) ∧
    (∀ i, i < s.k → s.phi i = (∏ j ∈ range i, (s.x - X (j + 1))) • dd X D 0 i) := by
  have hi := hr.atAttempt.inv he
  have ha := hr.ainv he
  have hpost := block1_post hi ha
  obtain ⟨a1, a2, a3, a4, a5, a6, a7⟩ := attempt_fields e s
  obtain ⟨b1, b2, b3, b4, b5⟩ := attempt_arrays e s
  rw [a6, b1, b2, ha.x]
  refine ⟨hpost.psi, hpost.alpha, fun i h => ?_, fun i h => by rw [ha.phi i h]; rfl⟩
  rw [hpost.sig i h, prod_mul_distrib, ← prod_range_add_one_eq_factorial]
  push_cast
  rfl

/-! ### Interpolation -/

theorem sumDown_eq {K : Type} [Field K] (a : Nat → K) (phi : Nat → Vec K n) : ∀ (m : Nat) (b : Vec K n),
    sumDown a phi m b = b + ∑ i ∈ range m, a i • phi i
  | 0, b => by simp [sumDown]
  | m + 1, b => by
    rw [sumDown, sumDown_eq a phi m, sum_range_succ]
    abel

theorem intrpLoop_spec (psi X : Nat → ℝ) (hi : ℝ) (kip1 : Nat) : ∀ (m j : Nat) (g w rho : Nat → ℝ) (term : ℝ),
    1 ≤ j → j + m < kip1 → (∀ l, l + 1 < kip1 - 1 → psi l = X 0 - X (l + 1)) →
    term = X 0 - X (j - 1) →
    (∀ i, i + j < kip1 → w i = table2 (fun l => (X 0 + hi - X l) / (X 0 - X (l + 1))) (fun l => hi / (X 0 - X (l + 1)))
      (j - 1) i) →
    (∀ i, i < j → g i = table2 (fun l => (X 0 + hi - X l) / (X 0 - X (l + 1))) (fun l => hi / (X 0 - X (l + 1))) i 0) →
    (∀ i, i < j → rho i = ∏ l ∈ range i, ((X 0 + hi - X l) / (X 0 - X (l + 1)))) →
    ∀ i, i < j + m →
      (intrpLoop psi hi kip1 m j g w rho term).1 i =
        table2 (fun l => (X 0 + hi - X l) / (X 0 - X (l + 1))) (fun l => hi / (X 0 - X (l + 1))) i 0 ∧
      (intrpLoop psi hi kip1 m j g w rho term).2 i = ∏ l ∈ range i, ((X 0 + hi - X l) / (X 0 - X (l + 1)))
  | 0, j, g, w, rho, term, _, _, _, _, _, hg, hrho, i, hi' => ⟨hg i hi', hrho i hi'⟩
  | m + 1, j, g, w, rho, term, hj, hm, hpsi, hterm, hw, hg, hrho, i, hi' => by
    have hq : psi (j - 1) = X 0 - X (j - 1 + 1) := hpsi (j - 1) (by omega)
    have hgam : (hi + term) / psi (j - 1) = (X 0 + hi - X (j - 1)) / (X 0 - X (j - 1 + 1)) := by
      rw [hq, hterm]
      congr 1
      ring
    have hw' : ∀ l, l + (j + 1) < kip1 →
        (if l + 1 < kip1 - j then (hi + term) / psi (j - 1) * w l - hi / psi (j - 1) * w (l + 1) else w l) =
        table2 (fun l => (X 0 + hi - X l) / (X 0 - X (l + 1))) (fun l => hi / (X 0 - X (l + 1))) (j + 1 - 1) l := by
      intro l hl
      rw [if_pos (by omega), hw l (by omega), hw (l + 1) (by omega), hgam, hq]
      conv_rhs => rw [show j + 1 - 1 = j - 1 + 1 by omega]
      rfl
    simp only [intrpLoop]
    refine intrpLoop_spec psi X hi kip1 m (j + 1) _ _ _ _ (by omega) (by omega) hpsi ?_ hw' ?_ ?_ i (by omega)
    · rw [hq, Nat.add_sub_cancel, show j - 1 + 1 = j by omega]
    · intro l hl
      by_cases h : l = j
      · rw [h, put_same, hw' 0 (by omega)]
        rfl
      · rw [put_ne _ _ h]
        exact hg l (by omega)
    · intro l hl
      by_cases h : l = j
      · rw [h, put_same, hrho (j - 1) (by omega), hgam]
        obtain ⟨j', rfl⟩ : ∃ j', j = j' + 1 := ⟨j - 1, by omega⟩
        rw [prod_range_succ, mul_comm]
        rfl
      · rw [put_ne _ _ h]
        exact hrho l (by omega)

/-- **C79** Between points: the interpolated solution continues with the polynomial through the
last `k+1` derivatives, and the interpolated derivative is the value of that polynomial. -/
theorem interpolation_partial (e : Ext ℝ n) (he : e.Ok) (d : ℝ) (s : St ℝ n) (N : Nat) (X : Nat → ℝ)
    (D : Nat → Vec ℝ n) (hr : Run e d s N X D) (eps : ℝ) (xout : ℝ) (c : Fin n) (P : Polynomial ℝ)
    (hd : P.degree < (s.k + 1 : Nat)) (hv : ∀ j, j < s.k → P.eval (X j) = D j c) :
    let s' := accept e (1 / 2 * eps) (estimates e (attempt e s)) (attempt e s)
    P.eval s'.x = e.f s'.x s'.yy c →
    (intrp s' xout).1 c = s'.yy c + (∫ t in s'.x..xout, P.eval t) ∧ (intrp s' xout).2 c = P.eval xout := by
  intro s' hnew
  have hi := hr.atAttempt.inv he
  have ha := hr.ainv he
  have hlen := ha.len
  have hk1 := hi.k1
  have hpost := block1_post hi ha
  obtain ⟨a1, a2, a3, a4, a5, a6, a7⟩ := attempt_fields e s
  obtain ⟨b1, b2, b3, b4, b5⟩ := attempt_arrays e s
  have hkold : s'.kold = s.k := by
    rw [(accept_fields e (1 / 2 * eps) (estimates e (attempt e s)) (attempt e s)).1, a1]
  have hpsi : s'.psi = (block1 s).psi := by
    rw [(accept_fields e (1 / 2 * eps) (estimates e (attempt e s)) (attempt e s)).2.2.2.1, a6]
  have hx : s'.x = X 0 + s.h := by
    rw [← ha.x]
    exact b5
  have hyp : s'.yp = e.f s'.x s'.yy := rfl
  have hphi : ∀ i, i ≤ s.k → s'.phi i = modDiff (push (X 0 + s.h) X) (push s'.yp D) i := fun i h =>
    accept_phi e (1 / 2 * eps) (estimates e (attempt e s)) hi ha i h
  let Y : Nat → ℝ := push (X 0 + s.h) X
  have hdist : ∀ i j, i < j → j < s.k + 1 → Y i ≠ Y j := by
    intro i j h1 h2
    obtain ⟨j', rfl⟩ : ∃ j', j = j' + 1 := ⟨j - 1, by omega⟩
    cases i with
    | zero => exact sub_ne_zero.1 (ha.new hi j' (by omega))
    | succ i => exact ha.distinct i j' (by omega) (by omega)
  have hval : ∀ j, j < s.k + 1 → P.eval (Y j) = push (s'.yp c) (fun j => D j c) j := by
    intro j hj
    cases j with
    | zero =>
      show P.eval (X 0 + s.h) = s'.yp c
      rw [← hx, hnew, hyp]
    | succ j => exact hv j (by omega)
  have hcomp : ∀ i, i ≤ s.k → s'.phi i c = modDiff Y (push (s'.yp c) (fun j => D j c)) i := by
    intro i h
    rw [hphi i h, modDiff_comp]
    congr 1
    funext j
    cases j <;> rfl
  have hloop := intrpLoop_spec s'.psi Y (xout - s'.x) (s.k + 1 + 1) (s.k + 1 - 1) 1 (put (fun _ => 0) 0 1)
    (fun i => 1 / ((i : ℝ) + 1)) (put (fun _ => 0) 0 1) 0 le_rfl (by omega)
    (by
      intro l hl
      rw [hpsi, hpost.psi l (by omega)]
      rfl)
    (by simp)
    (fun i _ => rfl)
    (by
      intro i h
      rw [show i = 0 by omega, put_same]
      simp [table2])
    (by
      intro i h
      rw [show i = 0 by omega, put_same]
      simp)
  have hY0 : Y 0 = s'.x := hx.symm
  constructor
  · have hint := integral_poly2 Y (push (s'.yp c) (fun j => D j c)) (xout - s'.x) (s.k + 1) hdist P hd hval
    rw [hY0, add_sub_cancel] at hint
    rw [hint]
    simp only [intrp, hkold, sumDown_eq, zero_add, Pi.add_apply, Pi.smul_apply, Finset.sum_apply, smul_eq_mul]
    congr 2
    refine sum_congr rfl fun i hi' => ?_
    have hi' := mem_range.1 hi'
    rw [(hloop i (by omega)).1, hcomp i (by omega), hY0, add_sub_cancel]
  · rw [eval_poly2 Y (push (s'.yp c) (fun j => D j c)) xout (s.k + 1) hdist P hd hval]
    simp only [intrp, hkold, sumDown_eq, zero_add, Finset.sum_apply, Pi.smul_apply, smul_eq_mul]
    refine sum_congr rfl fun i hi' => ?_
    have hi' := mem_range.1 hi'
    rw [(hloop i (by omega)).2, hcomp i (by omega), hY0, add_sub_cancel]

/-! ### Concrete instances -/

/-- The right-hand side `y' = x` over the reals. -/
noncomputable def extR : Ext ℝ 1 :=
  ⟨fun x _ => fun _ => x, fun v => |v 0|, Real.sqrt, fun a _ => a, 1 / 2 ^ 52,
    fun i => 1 / ((i : ℝ) + 2), fun _ _ _ => 0, fun _ _ _ => 0⟩

noncomputable def stR : St ℝ 1 :=
  ⟨true, false, false, 99, 77, 55, fun _ _ => 3, fun _ => 1, 0, 0, 0, 0, fun _ => 5, fun _ => 5, fun _ => 5,
    fun _ => 5, fun _ => 5, fun _ => 5, fun _ => 5, 1, 7, 0⟩

/-- The first attempt. -/
noncomputable def runR : St ℝ 1 := initialise extR 1 (1 / 2 * 1) 0 (initCoefs stR)

theorem runR_h : runR.h = 1 := by
  simp only [runR, initialise, extR, stR, initCoefs, copysign, quot]
  norm_num

theorem runR_run : Run extR 1 runR 1 (fun _ => 0) (fun _ _ => 0) :=
  .first stR 1 0 (by simp [stR]) one_pos

/-- The second step, of size 2. -/
noncomputable def runR2 : St ℝ 1 :=
  initCoefs { accept extR (1 / 2 * 1) (estimates extR (attempt extR runR)) (attempt extR runR) with h := 2, wt := fun _ => 1 }

theorem runR2_run : Run extR 1 runR2 2 (push (runR.x + runR.h) fun _ => 0)
    (push (accept extR (1 / 2 * 1) (estimates extR (attempt extR runR)) (attempt extR runR)).yp fun _ _ => 0) :=
  .next runR 1 _ _ 1 2 (fun _ => 1) runR_run (by norm_num) fun h => by rw [runR_h] at h; norm_num at h

/-- The hypotheses hold for it: two points, at 0 and 1, with derivatives 0 and 1; order 2. -/
example : Run extR 1 runR2 2 (push 1 fun _ => 0) (push (fun _ => 1) fun _ _ => 0) ∧ runR2.nornd = true ∧ runR2.k = 2 := by
  have h1 : (attempt extR runR).k = 1 := (attempt_fields extR runR).1
  have h2 : (attempt extR runR).phase1 = true := by
    unfold attempt predicted block1
    simp only
    split <;> rfl
  have hx : runR.x = 0 := rfl
  have h := runR2_run
  have hyp : (accept extR (1 / 2 * 1) (estimates extR (attempt extR runR)) (attempt extR runR)).yp = fun _ => 1 := by
    show extR.f (attempt extR runR).x (corrected extR (attempt extR runR)).yy = _
    rw [(attempt_arrays extR runR).2.2.2.2, hx, runR_h]
    funext c
    simp [extR]
  rw [hyp, hx, runR_h, zero_add] at h
  refine ⟨h, ?_, ?_⟩
  · show (attempt extR runR).nornd = true
    unfold attempt predicted block1
    simp only
    split <;> simp [runR, initialise]
  · show (nextOrder extR (estimates extR (attempt extR runR)) (corrected extR (attempt extR runR))).1 = 2
    have h3 : (corrected extR (attempt extR runR)).k = 1 := h1
    have h4 : (corrected extR (attempt extR runR)).phase1 = true := h2
    have h5 : (estimates extR (attempt extR runR)).knew = 1 := by
      simp [estimates, h1]
    simp [nextOrder, h3, h4, h5]

/-- A right-hand side for two steps. -/
def extPsi : Ext ℚ 1 := { ext with f := fun x _ => fun _ => if x ≤ 1 / 2 then x / 5 else 3 }

/-- `m` steps with a right-hand side. -/
def stepsOf (e : Ext ℚ 1) (s : St ℚ 1) (eps : ℚ) : Nat → Option (St ℚ 1)
  | 0 => some s
  | m + 1 => (stepsOf e s eps m).bind fun s => (step e 20 0 s eps).map (·.st)

/-- **C79, where it fails.**  After a rejection at order one that returns to the size of the step
before (here: doubled to 1, halved to 1/2) the code does not count the steps of equal size anew (the
method sets `ns` to zero), so that `psi` keeps the size of the rejected attempt: after the second
step, from 1/2 to 1, `psi(0)` is 1 and the interpolated derivative at 1/2 is 31/20, while the
derivative used there was 1/10. -/
theorem stale_psi_counterexample :
    (stepsOf extPsi st0 1 1).map (fun s => (s.x, s.yp 0)) = some (1 / 2, 1 / 10) ∧
    (stepsOf extPsi st0 1 2).map (fun s => (s.x, s.kold, s.psi 0, (intrp s (1 / 2)).2 0)) =
      some (1, 1, 1, 31 / 20) := by decide +kernel

/-- The values of a right-hand side at the points of nine steps. -/
def points : List (ℚ × ℚ) :=
  [(1 / 16, -3 / 4), (3 / 16, -29 / 16), (7 / 16, -21 / 8), (15 / 16, -21 / 16), (31 / 16, -13 / 8),
    (47 / 16, -65 / 8), (63 / 16, -157 / 16), (79 / 16, 71 / 8), (95 / 16, 65)]

/-- `gstr` (sgode_step.cpp:13-15), as far as needed. -/
def gstr : Nat → ℚ
  | 0 => 5000 / 10000 | 1 => 833 / 10000 | 2 => 417 / 10000 | 3 => 264 / 10000 | 4 => 188 / 10000
  | 5 => 143 / 10000 | _ => 114 / 10000

def extV : Ext ℚ 1 :=
  { ext with f := fun x _ => fun _ => ((points.lookup x).getD 0), gstr := gstr }

/-- **C79, where it fails.**  Orders of nine steps: 1, 2, 3, 4, 5, 4, 3, 3, 4; the last five are of
size 1.  The order is lowered at the sixth step, the second of that size, and raised again at the
eighth: the code updates the entries of `v` along the diagonal as if they had not been updated
since.  The ninth step then is not the Adams–Moulton formula
`h (251 f₉ + 646 f₈ − 264 f₇ + 106 f₆ − 19 f₅) / 720`. -/
theorem stale_v_counterexample :
    (stepsOf extV { st0 with h := 1 / 16 } 1 8).map (fun s => (s.x, s.h, s.k, s.yy 0)) =
      some (79 / 16, 1, 4, -15388697 / 785664) ∧
    (stepsOf extV { st0 with h := 1 / 16 } 1 9).map (fun s => (s.x, s.kold, s.g 4, s.yy 0)) =
      some (95 / 16, 4, 499 / 1440, -15388697 / 785664 + 21161 / 640) ∧
    (21161 / 640 : ℚ) ≠ (251 * 65 + 646 * (71 / 8) - 264 * (-157 / 16) + 106 * (-65 / 8) - 19 * (-13 / 8)) / 720 := by
  decide +kernel

end Verif.Sgode
