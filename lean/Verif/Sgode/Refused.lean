import Verif.Sgode.DriverProps

/-! C86: what a refused step hands back lets the integration go on. -/
namespace Verif.Sgode

variable {K : Type} [Field K] [LinearOrder K] [IsStrictOrderedRing K] {n : Nat}

/-! ### Specification -/

/-- The step size can be told from the abscissa. -/
def SizeOk (e : Ext K n) (s : St K n) : Prop := 4 * e.umach * |s.x| ≤ |s.h|

/-- The tolerance is above the rounding errors of the solution (relative to the weights). -/
def TolOk (e : Ext K n) (s : St K n) (eps : K) : Prop :=
  2 * e.umach * e.norm (fun i => s.yy i / s.wt i) ≤ eps / 2

/-! ### Lemmas -/

theorem copysign_abs (a b : K) : |copysign a b| = |a| := by
  unfold copysign
  split
  · exact abs_abs a
  · rw [abs_neg, abs_abs]

theorem attempt_solution (e : Ext K n) (s : St K n) : (attempt e s).yy = s.yy ∧ (attempt e s).wt = s.wt := by
  unfold attempt predicted block1
  constructor <;> simp only <;> split <;> rfl

theorem reject_solution (e : Ext K n) (p5eps : K) (q : Est K) (ifail : Int) (xold : K) (s : St K n) :
    (reject e p5eps q ifail xold s).yy = s.yy ∧ (reject e p5eps q ifail xold s).wt = s.wt := by
  simp [reject, restored]

/-- When the loop gives up: the solution is that at the start, the abscissa too, the step size the
smallest allowed, and the tolerance doubled. -/
theorem loop_crash (e : Ext K n) (hu : 0 ≤ e.umach) (eps p5eps : K) : ∀ (fuel : Nat) (ifail : Int) (s : St K n) (r : Res K n),
    loop e eps p5eps fuel ifail s = some r → r.crash = true →
    r.st.x = s.x ∧ r.st.yy = s.yy ∧ r.st.wt = s.wt ∧ |r.st.h| = 4 * e.umach * |s.x| ∧ r.eps = 2 * eps
  | 0, _, _, _, h, _ => by simp [loop] at h
  | fuel + 1, ifail, s, r, h, hc => by
    simp only [loop] at h
    split at h
    · cases h
      simp at hc
    · have hx := (reject_fields e p5eps (estimates e (attempt e s)) (ifail + 1) s.x (attempt e s)).2.2.2.2.2.2.2.1
      have hy := reject_solution e p5eps (estimates e (attempt e s)) (ifail + 1) s.x (attempt e s)
      have ha := attempt_solution e s
      split at h
      · obtain ⟨h1, h2, h3, h4, h5⟩ := loop_crash e hu eps p5eps fuel _ _ r h hc
        exact ⟨h1.trans hx, h2.trans (hy.1.trans ha.1), h3.trans (hy.2.trans ha.2), h4.trans (by rw [hx]), h5⟩
      · cases h
        refine ⟨hx, hy.1.trans ha.1, hy.2.trans ha.2, ?_, (two_mul eps).symm⟩
        simp only [copysign_abs, hx]
        exact abs_of_nonneg (mul_nonneg (mul_nonneg (by norm_num) hu) (abs_nonneg _))

/-! ### C86 -/

/-- **C86** A refused step leaves abscissa and solution as they were, and hands back a step size that is
not refused again; the tolerance is never lowered. -/
theorem refused_keeps (e : Ext K n) (hu : 0 ≤ e.umach) (fuel : Nat) (garbage : Int) (s : St K n) (eps : K) (heps : 0 ≤ eps)
    (r : Res K n) (h : step e fuel garbage s eps = some r) (hc : r.crash = true) :
    r.st.x = s.x ∧ r.st.yy = s.yy ∧ r.st.wt = s.wt ∧ SizeOk e r.st ∧ eps ≤ r.eps := by
  unfold step at h
  split at h
  · cases h
    refine ⟨rfl, rfl, rfl, ?_, le_rfl⟩
    unfold SizeOk
    simp only [copysign_abs]
    exact le_abs_self _
  · rename_i hs
    simp only at h
    split at h
    · rename_i hr
      cases h
      refine ⟨rfl, rfl, rfl, not_lt.1 hs, ?_⟩
      have hr' : 0 ≤ roundErr e s := le_trans (by linarith) hr.le
      have : 0 ≤ e.umach * roundErr e s := mul_nonneg hu hr'
      simp only
      nlinarith
    · split at h
      · obtain ⟨h1, h2, h3, h4, h5⟩ := loop_crash e hu eps _ _ _ _ _ h hc
        refine ⟨h1, h2, h3, ?_, by linarith⟩
        unfold SizeOk
        rw [h4, h1]
      · obtain ⟨h1, h2, h3, h4, h5⟩ := loop_crash e hu eps _ _ _ _ _ h hc
        refine ⟨h1, h2, h3, ?_, by linarith⟩
        unfold SizeOk
        rw [h4, h1]

/-- **C86** Unless it was refused for its size alone, the tolerance handed back is not refused again. -/
theorem refused_tolerance (e : Ext K n) (hu : 0 ≤ e.umach) (fuel : Nat) (garbage : Int) (s : St K n) (eps : K) (heps : 0 ≤ eps)
    (hs : SizeOk e s) (r : Res K n) (h : step e fuel garbage s eps = some r) (hc : r.crash = true) :
    TolOk e r.st r.eps ∧ (¬ TolOk e s eps → eps < r.eps) := by
  have hk := refused_keeps e hu fuel garbage s eps heps r h hc
  have hround : ∀ s : St K n, roundErr e s = 2 * e.umach * e.norm (fun i => s.yy i / s.wt i) := fun _ => rfl
  unfold step at h
  rw [if_neg (not_lt.2 hs)] at h
  simp only at h
  split at h
  · rename_i hr
    cases h
    have hr' : 0 ≤ roundErr e s := le_trans (by linarith) hr.le
    have hm : 0 ≤ e.umach * roundErr e s := mul_nonneg hu hr'
    refine ⟨?_, fun _ => ?_⟩
    · show roundErr e s ≤ 2 * roundErr e s * (1 + 4 * e.umach) / 2
      nlinarith
    · show eps < 2 * roundErr e s * (1 + 4 * e.umach)
      nlinarith
  · rename_i hr
    have hd : r.eps = 2 * eps := by
      split at h
      · exact (loop_crash e hu eps _ _ _ _ _ h hc).2.2.2.2
      · exact (loop_crash e hu eps _ _ _ _ _ h hc).2.2.2.2
    have hle := not_lt.1 hr
    rw [hround] at hle
    refine ⟨?_, fun hn => absurd ?_ hn⟩
    · unfold TolOk
      rw [hk.2.1, hk.2.2.1, hd]
      linarith
    · unfold TolOk
      linarith

/-- **C86** So the second retry at the latest makes an attempt: with size and tolerance in order the step is not
refused before trying. -/
theorem second_retry (e : Ext K n) (hu : 0 ≤ e.umach) (fuel : Nat) (garbage garbage' : Int) (s : St K n) (eps : K)
    (heps : 0 ≤ eps) (r r' : Res K n) (h : step e fuel garbage s eps = some r) (hc : r.crash = true)
    (h' : step e fuel garbage' r.st r.eps = some r') (hc' : r'.crash = true) :
    SizeOk e r'.st ∧ TolOk e r'.st r'.eps := by
  have hk := refused_keeps e hu fuel garbage s eps heps r h hc
  have hk' := refused_keeps e hu fuel garbage' r.st r.eps (heps.trans hk.2.2.2.2) r' h' hc'
  exact ⟨hk'.2.2.2.1, (refused_tolerance e hu fuel garbage' r.st r.eps (heps.trans hk.2.2.2.2) hk.2.2.2.1 r' h' hc').1⟩

/-- With size and tolerance in order, the step goes into the loop of attempts. -/
theorem attempt_made (e : Ext K n) (fuel : Nat) (garbage : Int) (s : St K n) (eps : K) (hs : SizeOk e s) (ht : TolOk e s eps) :
    ∃ ifail s', step e fuel garbage s eps = loop e eps (1 / 2 * eps) fuel ifail s' := by
  unfold step
  have ht' : ¬ (1 / 2 * eps < roundErr e s) := by
    have : roundErr e s ≤ eps / 2 := ht
    linarith
  rw [if_neg (not_lt.2 hs)]
  simp only
  rw [if_neg ht']
  split
  · exact ⟨0, _, rfl⟩
  · exact ⟨garbage, _, rfl⟩

/-! ### The driver -/

/-- The loop of the driver ends for a refused step with tolerances in the old ratio whose larger one is
the tolerance handed back. -/
theorem deLoop_refused (e : DExt K n) (tout t tend absdel releps abseps : K) (isn : Int) (hisn : isn = 1 ∨ isn = -1) :
    ∀ (rem : Nat) (d : Drv K n) (eps : K) (kle4 : Nat) (stiff : Bool) (o : DOut K n),
    deLoop e tout t tend absdel releps abseps isn rem d eps kle4 stiff = o → o.drv.iflag = isn * 3 →
    ∃ s eps' eps'', (e.step s eps').2 = (eps'', true) ∧ o.drv.relerr = eps'' * releps ∧ o.drv.abserr = eps'' * abseps := by
  intro rem
  induction rem with
  | zero =>
    intro d eps kle4 stiff o ho hf
    rw [deLoop] at ho
    simp only at ho
    split at ho
    · subst ho
      simp only at hf
      omega
    · split at ho
      · subst ho
        simp only at hf
        omega
      · subst ho
        simp only at hf
        split at hf <;> omega
  | succ rem ih =>
    intro d eps kle4 stiff o ho hf
    rw [deLoop] at ho
    simp only at ho
    split at ho
    · subst ho
      simp only at hf
      omega
    · split at ho
      · subst ho
        simp only at hf
        omega
      · split at ho
        · rename_i hr
          subst ho
          exact ⟨_, _, _, Prod.ext rfl hr, rfl, rfl⟩
        · exact ih _ _ _ _ _ ho hf

/-- **C86** When the driver reports a refused step (status 3 or -3), the tolerances it hands back keep their
ratio and the larger one is the tolerance the step asked for: a repeated call uses just that. -/
theorem driver_tolerances (e : DExt K n) (d : Drv K n) (t tout : K) (y0 yout : Vec K n) (hr : 0 ≤ d.relerr) (ha : 0 ≤ d.abserr)
    (hpos : 0 < max d.relerr d.abserr) (hf : (de e d t tout y0 yout).drv.iflag.natAbs = 3)
    (hc : (de e d t tout y0 yout).calls ≠ 0) :
    ∃ s eps' eps'', (e.step s eps').2 = (eps'', true) ∧
      (de e d t tout y0 yout).drv.relerr = eps'' * (d.relerr / max d.relerr d.abserr) ∧
      (de e d t tout y0 yout).drv.abserr = eps'' * (d.abserr / max d.relerr d.abserr) ∧
      (0 ≤ eps'' → max (de e d t tout y0 yout).drv.relerr (de e d t tout y0 yout).drv.abserr = eps'') := by
  generalize ho : de e d t tout y0 yout = o at *
  unfold de at ho
  simp only at ho
  split at ho
  · subst ho
    simp at hc
  · split at ho
    · subst ho
      simp at hc
    · have hisn : (if d.iflag < 0 then (-1 : Int) else 1) = 1 ∨ (if d.iflag < 0 then (-1 : Int) else 1) = -1 := by
        split
        · exact .inr rfl
        · exact .inl rfl
      have hend := fun (dd : Drv K n) (ee tend releps abseps : K) (isn : Int) =>
        deLoop_end e tout t tend |tout - t| releps abseps isn maxnum dd ee 0 false
      have hL : LoopEnd e tout t |tout - t| (if d.iflag < 0 then -1 else 1) o := ho ▸ hend _ _ _ _ _ _
      have hflag : o.drv.iflag = (if d.iflag < 0 then (-1 : Int) else 1) * 3 := by
        rcases hL.ret with h0 | h1
        · have := (hL.success h0).2.2.1
          omega
        · rcases (hL.failure h1).2.2.2 with h | h | h
          · exact h
          · rcases hisn with h' | h' <;> rw [h'] at h <;> omega
          · rcases hisn with h' | h' <;> rw [h'] at h <;> omega
      obtain ⟨s, e1, e2, h1, h2, h3⟩ := deLoop_refused e tout t _ _ _ _ _ hisn _ _ _ _ _ o ho hflag
      refine ⟨s, e1, e2, h1, h2, h3, fun h0 => ?_⟩
      rw [h2, h3, ← mul_max_of_nonneg _ _ h0]
      have : max (d.relerr / max d.relerr d.abserr) (d.abserr / max d.relerr d.abserr) = 1 := by
        rw [max_div_div_right hpos.le, div_self hpos.ne']
      rw [this, mul_one]

/-! ### Concrete instances -/

/-- A tolerance below the rounding errors. -/
example : ((step ext 5 0 { st0 with yy := fun _ => 1, wt := fun _ => 1, h := 1 } 0).map fun r => r.crash) = some true := by
  decide +kernel

/-- A driver whose step refuses. -/
example : let o := de { walk with step := fun s eps => (s, 2 * eps, true) } (drv 1 (1 / 10) (1 / 5)) 0 3 (fun _ => 5) 0
    (o.drv.iflag, o.calls, o.drv.relerr, o.drv.abserr) = (3, 1, 1 / 5, 2 / 5) := by
  decide +kernel

end Verif.Sgode
