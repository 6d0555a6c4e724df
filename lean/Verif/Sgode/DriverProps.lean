import Verif.Sgode.DriverModel
import Verif.Sgode.Props

/-! C42: the status of the integrator. -/
namespace Verif.Sgode

variable {K : Type} [Field K] [LinearOrder K] {n : Nat}

/-! ### Specification -/

/-- The arguments are invalid: no equations, nothing to integrate, a negative tolerance, status 0,
or a continuation from a point other than the one reached. -/
def Invalid (n : Nat) (d : Drv K n) (t tout : K) : Prop :=
  n = 0 ∨ t = tout ∨ d.relerr < 0 ∨ d.abserr < 0 ∨ d.iflag = 0 ∨
    (t ≠ d.told ∧ d.iflag ≠ 1 ∧ d.iflag ≠ -1)

/-! ### The loop -/

/-- What holds when the loop ends. -/
structure LoopEnd (e : DExt K n) (tout t absdel : K) (isn : Int) (o : DOut K n) : Prop where
  calls : o.calls ≤ maxnum
  ret : o.ret = 0 ∨ o.ret = 1
  success : o.ret = 0 → o.t = tout ∧ o.drv.told = tout ∧ o.drv.iflag = 2 ∧ o.drv.isnold = isn ∧
    ((|o.drv.st.x - t| ≥ absdel ∧ ∃ yp, (o.yout, o.drv.st.ypout) = e.intrp { o.drv.st with ypout := yp } tout) ∨
     (isn ≤ 0 ∧ |tout - o.drv.st.x| < e.fouru * |o.drv.st.x| ∧
        o.yout = o.drv.st.yy + (tout - o.drv.st.x) • e.f o.drv.st.x o.drv.st.yy))
  failure : o.ret = 1 → o.t = o.drv.st.x ∧ o.drv.told = o.drv.st.x ∧ o.yout = o.drv.st.yy ∧
    (o.drv.iflag = isn * 3 ∨ o.drv.iflag = isn * 4 ∨ o.drv.iflag = isn * 5)

theorem deLoop_end (e : DExt K n) (tout t tend absdel releps abseps : K) (isn : Int) :
    ∀ (rem : Nat) (d : Drv K n) (eps : K) (kle4 : Nat) (stiff : Bool),
    LoopEnd e tout t absdel isn (deLoop e tout t tend absdel releps abseps isn rem d eps kle4 stiff) := by
  intro rem
  induction rem with
  | zero =>
    intro d eps kle4 stiff
    rw [deLoop]
    by_cases h1 : |d.st.x - t| ≥ absdel
    · simp only [h1, if_true]
      refine ⟨Nat.sub_le _ _, .inl rfl, fun _ => ⟨rfl, rfl, rfl, rfl, ?_⟩, fun h => by simp at h⟩
      exact .inl ⟨h1, d.st.ypout, rfl⟩
    · simp only [h1, if_false]
      by_cases h2 : ¬ (isn > 0 ∨ |tout - d.st.x| ≥ e.fouru * |d.st.x|)
      · simp only [h2, not_false_eq_true, if_true]
        refine ⟨Nat.sub_le _ _, .inl rfl, fun _ => ⟨rfl, rfl, rfl, rfl, ?_⟩, fun h => by simp at h⟩
        rw [not_or, not_lt, not_le] at h2
        exact .inr ⟨h2.1, h2.2, rfl⟩
      · simp only [h2, if_false]
        refine ⟨le_rfl, .inr rfl, fun h => by simp at h, fun _ => ⟨rfl, rfl, rfl, ?_⟩⟩
        by_cases hs : stiff <;> simp [hs]
  | succ rem ih =>
    intro d eps kle4 stiff
    rw [deLoop]
    by_cases h1 : |d.st.x - t| ≥ absdel
    · simp only [h1, if_true]
      refine ⟨Nat.sub_le _ _, .inl rfl, fun _ => ⟨rfl, rfl, rfl, rfl, ?_⟩, fun h => by simp at h⟩
      exact .inl ⟨h1, d.st.ypout, rfl⟩
    · simp only [h1, if_false]
      by_cases h2 : ¬ (isn > 0 ∨ |tout - d.st.x| ≥ e.fouru * |d.st.x|)
      · simp only [h2, not_false_eq_true, if_true]
        refine ⟨Nat.sub_le _ _, .inl rfl, fun _ => ⟨rfl, rfl, rfl, rfl, ?_⟩, fun h => by simp at h⟩
        rw [not_or, not_lt, not_le] at h2
        exact .inr ⟨h2.1, h2.2, rfl⟩
      · simp only [h2, if_false]
        split
        · exact ⟨Nat.sub_le _ _, .inr rfl, fun h => by simp at h, fun _ => ⟨rfl, rfl, rfl, .inl rfl⟩⟩
        · exact ih _ _ _ _

theorem invalid_iff (d : Drv K n) (t tout : K) :
    Invalid n d t tout ↔ (n < 1 ∨ t = tout ∨ (d.relerr < 0 ∨ d.abserr < 0) ∨ max d.relerr d.abserr < 0 ∨
      d.iflag = 0 ∨ (t ≠ d.told ∧ d.iflag.natAbs ≠ 1)) := by
  have h1 : d.iflag.natAbs ≠ 1 ↔ (d.iflag ≠ 1 ∧ d.iflag ≠ -1) := by omega
  have h2 : max d.relerr d.abserr < 0 → d.relerr < 0 := fun h => (max_lt_iff.1 h).1
  have h3 : n < 1 ↔ n = 0 := by omega
  unfold Invalid
  rw [h1, h3]
  constructor
  · rintro (h | h | h | h | h | h)
    · exact .inl h
    · exact .inr (.inl h)
    · exact .inr (.inr (.inl (.inl h)))
    · exact .inr (.inr (.inl (.inr h)))
    · exact .inr (.inr (.inr (.inr (.inl h))))
    · exact .inr (.inr (.inr (.inr (.inr h))))
  · rintro (h | h | (h | h) | h | h | h)
    · exact .inl h
    · exact .inr (.inl h)
    · exact .inr (.inr (.inl h))
    · exact .inr (.inr (.inr (.inl h)))
    · exact .inr (.inr (.inl (h2 h)))
    · exact .inr (.inr (.inr (.inr (.inl h))))
    · exact .inr (.inr (.inr (.inr (.inr h))))

/-! ### C42 -/

/-- **C42** Invalid arguments are reported: return value 1, status 6, and neither the state, nor
`t`, nor the output is touched; no step is taken. -/
theorem invalid_reported (e : DExt K n) (d : Drv K n) (t tout : K) (y0 yout : Vec K n)
    (h : Invalid n d t tout) :
    de e d t tout y0 yout = ⟨1, { d with iflag := 6 }, t, yout, 0⟩ := by
  unfold de
  simp only
  rw [if_pos ((invalid_iff d t tout).1 h)]

/-- **C42** Success (return value 0) comes only with the independent variable at the requested
point, status 2, valid arguments; the output (solution and derivative) is then the interpolation at the requested point, the
integrator having covered the distance, or (if it must not be passed) the linear extrapolation from
a point closer than the resolution. -/
theorem success_at_target (e : DExt K n) (d : Drv K n) (t tout : K) (y0 yout : Vec K n)
    (h : (de e d t tout y0 yout).ret = 0) :
    ¬ Invalid n d t tout ∧
    (de e d t tout y0 yout).t = tout ∧ (de e d t tout y0 yout).drv.told = tout ∧
    (de e d t tout y0 yout).drv.iflag = 2 ∧
    ((∃ yp, |(de e d t tout y0 yout).drv.st.x - t| ≥ |tout - t| ∧
        ((de e d t tout y0 yout).yout, (de e d t tout y0 yout).drv.st.ypout) =
          e.intrp { (de e d t tout y0 yout).drv.st with ypout := yp } tout) ∨
     (d.iflag < 0 ∧
        |tout - (de e d t tout y0 yout).drv.st.x| < e.fouru * |(de e d t tout y0 yout).drv.st.x| ∧
        (de e d t tout y0 yout).yout = (de e d t tout y0 yout).drv.st.yy +
          (tout - (de e d t tout y0 yout).drv.st.x) •
            e.f (de e d t tout y0 yout).drv.st.x (de e d t tout y0 yout).drv.st.yy)) := by
  have hv : ¬ Invalid n d t tout := by
    intro hi
    rw [invalid_reported e d t tout y0 yout hi] at h
    simp at h
  refine ⟨hv, ?_⟩
  generalize ho : de e d t tout y0 yout = o at h ⊢
  unfold de at ho
  simp only at ho
  rw [if_neg (fun hc => hv ((invalid_iff d t tout).2 hc))] at ho
  split at ho
  · rw [← ho] at h
    simp at h
  · have hl := fun (dd : Drv K n) (ee tend releps abseps : K) (isn : Int) =>
      deLoop_end e tout t tend |tout - t| releps abseps isn maxnum dd ee 0 false
    have hs := (ho ▸ hl _ _ _ _ _ _ : LoopEnd e tout t |tout - t| (if d.iflag < 0 then -1 else 1) o).success h
    refine ⟨hs.1, hs.2.1, hs.2.2.1, ?_⟩
    rcases hs.2.2.2.2 with ⟨h1, yp, h2⟩ | ⟨h1, h2, h3⟩
    · exact .inl ⟨yp, h1, h2⟩
    · refine .inr ⟨?_, h2, h3⟩
      by_contra hcon
      rw [if_neg hcon] at h1
      omega

/-- **C42** At most 500 steps per call. -/
theorem steps_bounded (e : DExt K n) (d : Drv K n) (t tout : K) (y0 yout : Vec K n) :
    (de e d t tout y0 yout).calls ≤ 500 := by
  unfold de
  simp only
  split
  · simp
  · split
    · simp
    · exact (deLoop_end e tout t _ |tout - t| _ _ _ maxnum _ _ 0 false).calls

/-- **C42** Every other outcome is reported with return value 1 and a status that is not success:
with valid arguments `t` and the output are then the point reached and the solution there. -/
theorem failure_reported (e : DExt K n) (d : Drv K n) (t tout : K) (y0 yout : Vec K n)
    (h : (de e d t tout y0 yout).ret ≠ 0) :
    (de e d t tout y0 yout).ret = 1 ∧ (de e d t tout y0 yout).drv.iflag ≠ 2 ∧
    ((de e d t tout y0 yout).calls = 0 ∧ (de e d t tout y0 yout).t = t ∧
        (de e d t tout y0 yout).drv.st = d.st ∨
     (de e d t tout y0 yout).t = (de e d t tout y0 yout).drv.st.x ∧
        (de e d t tout y0 yout).yout = (de e d t tout y0 yout).drv.st.yy) := by
  generalize ho : de e d t tout y0 yout = o at h ⊢
  unfold de at ho
  simp only at ho
  split at ho
  · subst ho
    exact ⟨rfl, by simp, .inl ⟨rfl, rfl, rfl⟩⟩
  · split at ho
    · rename_i h5
      subst ho
      refine ⟨rfl, ?_, .inl ⟨rfl, rfl, rfl⟩⟩
      simp only
      omega
    · have hl := fun (dd : Drv K n) (ee tend releps abseps : K) (isn : Int) =>
        deLoop_end e tout t tend |tout - t| releps abseps isn maxnum dd ee 0 false
      have hL : LoopEnd e tout t |tout - t| (if d.iflag < 0 then -1 else 1) o := ho ▸ hl _ _ _ _ _ _
      have h1 : o.ret = 1 := hL.ret.resolve_left h
      have hf := hL.failure h1
      refine ⟨h1, ?_, .inr ⟨hf.1, hf.2.2.1⟩⟩
      rcases hf.2.2.2 with h | h | h <;> rw [h] <;> split <;> omega

/-! ### What the step routine is called with -/

theorem abs_copysign_le [IsStrictOrderedRing K] (a b c : K) (h : |a| ≤ c) : |copysign a b| ≤ c := by
  unfold copysign
  split <;> simpa using h

theorem abs_copysign [IsStrictOrderedRing K] (a b : K) : |copysign a b| = |a| := by
  unfold copysign
  split <;> simp

theorem copysign_nonneg_iff [IsStrictOrderedRing K] (a b : K) (ha : a ≠ 0) : 0 ≤ copysign a b ↔ 0 ≤ b := by
  have := abs_pos.2 ha
  unfold copysign
  split
  · rename_i h
    exact ⟨fun _ => h, fun _ => this.le⟩
  · rename_i h
    exact ⟨fun hh => absurd hh (by linarith), fun hh => absurd hh h⟩

/-- A call of `step` the driver may make: the error weights are the relative and absolute tolerances, as parts of the
larger one, and the step does not pass the last permitted point. -/
def CallOk (relerr abserr tend : K) (s : St K n) : Prop :=
  (∀ i, s.wt i = relerr / max relerr abserr * |s.yy i| + abserr / max relerr abserr) ∧ |s.h| ≤ |tend - s.x|

/-- The last permitted point: the requested one if it must not be passed, else ten times as far. -/
def lastPoint (d : Drv K n) (t tout : K) : K := if d.iflag < 0 then tout else t + 10 * (tout - t)

theorem deLoop_calls [IsStrictOrderedRing K] (e : DExt K n) (step' : St K n → K → St K n × K × Bool)
    (tout t tend absdel relerr abserr : K) (isn : Int)
    (h : ∀ s eps, CallOk relerr abserr tend s → e.step s eps = step' s eps) :
    ∀ (rem : Nat) (d : Drv K n) (eps : K) (kle4 : Nat) (stiff : Bool),
    deLoop e tout t tend absdel (relerr / max relerr abserr) (abserr / max relerr abserr) isn rem d eps kle4 stiff =
      deLoop { e with step := step' } tout t tend absdel (relerr / max relerr abserr) (abserr / max relerr abserr) isn
        rem d eps kle4 stiff := by
  intro rem
  induction rem with
  | zero =>
    intro d eps kle4 stiff
    rw [deLoop, deLoop]
  | succ rem ih =>
    intro d eps kle4 stiff
    rw [deLoop, deLoop]
    have key := h { d.st with
      h := copysign (min |d.st.h| |tend - d.st.x|) d.st.h
      wt := fun i => relerr / max relerr abserr * |d.st.yy i| + abserr / max relerr abserr } eps
      ⟨fun i => rfl, abs_copysign_le _ _ _ (by
        rw [abs_of_nonneg (le_min (abs_nonneg _) (abs_nonneg _))]; exact min_le_right _ _)⟩
    simp only [← key, ih]

/-- **C42** Every step is asked for with weights made from the tolerances, and with a step size that does not pass the
last permitted point: a step routine that differs for other arguments only makes no difference. -/
theorem step_arguments [IsStrictOrderedRing K] (e : DExt K n) (step' : St K n → K → St K n × K × Bool) (d : Drv K n)
    (t tout : K) (y0 yout : Vec K n)
    (h : ∀ s eps, CallOk d.relerr d.abserr (lastPoint d t tout) s → e.step s eps = step' s eps) :
    de e d t tout y0 yout = de { e with step := step' } d t tout y0 yout := by
  have ht : (if (if d.iflag < 0 then (-1 : Int) else 1) < 0 then tout else t + 10 * (tout - t)) = lastPoint d t tout := by
    unfold lastPoint
    by_cases hi : d.iflag < 0 <;> simp [hi]
  have hl := deLoop_calls e step' tout t (lastPoint d t tout) |tout - t| d.relerr d.abserr
    (if d.iflag < 0 then -1 else 1) h
  unfold de
  simp only [ht, hl]

theorem deLoop_first_refused (e : DExt K n) (tout t tend absdel releps abseps : K) (rem : Nat) (d : Drv K n) (eps : K)
    (kle4 : Nat) (stiff : Bool) (hx : ¬ |d.st.x - t| ≥ absdel)
    (hc : (e.step { d.st with
      h := copysign (min |d.st.h| |tend - d.st.x|) d.st.h, wt := fun i => releps * |d.st.yy i| + abseps } eps).2.2 = true) :
    (deLoop e tout t tend absdel releps abseps 1 (rem + 1) d eps kle4 stiff).ret = 1 ∧
    (deLoop e tout t tend absdel releps abseps 1 (rem + 1) d eps kle4 stiff).drv.iflag = 3 ∧
    (deLoop e tout t tend absdel releps abseps 1 (rem + 1) d eps kle4 stiff).drv.st = (e.step { d.st with
      h := copysign (min |d.st.h| |tend - d.st.x|) d.st.h, wt := fun i => releps * |d.st.yy i| + abseps } eps).1 := by
  rw [deLoop]
  dsimp only
  rw [if_neg hx, if_neg (fun h => h (.inl (by decide))), if_pos hc]
  exact ⟨rfl, rfl, rfl⟩

/-- **C42** A new integration (status 1) begins at the given point: the first step is asked for with `x = t`, the given
initial values, `start` set, a step towards the requested point, and the larger tolerance. If it is refused, the caller
gets what the step routine left. -/
theorem first_step [IsStrictOrderedRing K] (e : DExt K n) (d : Drv K n) (t tout : K) (y0 yout : Vec K n)
    (hv : ¬ Invalid n d t tout) (h1 : d.iflag = 1) :
    ∃ s : St K n, s.x = t ∧ s.yy = y0 ∧ s.start = true ∧ CallOk d.relerr d.abserr (t + 10 * (tout - t)) s ∧
      (0 ≤ s.h ↔ 0 ≤ tout - t) ∧
      ((e.step s (max d.relerr d.abserr)).2.2 = true →
        (de e d t tout y0 yout).ret = 1 ∧ (de e d t tout y0 yout).drv.iflag = 3 ∧
        (de e d t tout y0 yout).drv.st = (e.step s (max d.relerr d.abserr)).1) := by
  have hne : t ≠ tout := fun h => hv (.inr (.inl h))
  have hpos : 0 < |tout - t| := abs_pos.2 (sub_ne_zero.2 (Ne.symm hne))
  let S0 : St K n := { d.st with
    x := t, yy := y0, start := true, h := copysign (max |tout - t| (e.fouru * |t|)) (tout - t) }
  let S : St K n := { S0 with
    h := copysign (min |S0.h| |t + 10 * (tout - t) - S0.x|) S0.h
    wt := fun i => d.relerr / max d.relerr d.abserr * |S0.yy i| + d.abserr / max d.relerr d.abserr }
  have hm : 0 < max |tout - t| (e.fouru * |t|) := lt_max_of_lt_left hpos
  have hS0 : 0 ≤ S0.h ↔ 0 ≤ tout - t := by
    show 0 ≤ copysign (max |tout - t| (e.fouru * |t|)) (tout - t) ↔ _
    exact copysign_nonneg_iff _ _ hm.ne'
  have hS0a : |S0.h| = max |tout - t| (e.fouru * |t|) := by
    show |copysign (max |tout - t| (e.fouru * |t|)) (tout - t)| = _
    rw [abs_copysign, abs_of_pos hm]
  have hmin : 0 < min |S0.h| |t + 10 * (tout - t) - S0.x| := by
    refine lt_min (by rw [hS0a]; exact hm) ?_
    show 0 < |t + 10 * (tout - t) - t|
    rw [show t + 10 * (tout - t) - t = 10 * (tout - t) by ring, abs_mul]
    exact mul_pos (abs_pos.2 (by norm_num)) hpos
  refine ⟨S, rfl, rfl, rfl, ⟨fun i => rfl, ?_⟩, ?_, ?_⟩
  · show |copysign (min |S0.h| |t + 10 * (tout - t) - S0.x|) S0.h| ≤ |t + 10 * (tout - t) - t|
    refine abs_copysign_le _ _ _ ?_
    rw [abs_of_pos hmin]
    exact min_le_right _ _
  · show 0 ≤ copysign (min |S0.h| |t + 10 * (tout - t) - S0.x|) S0.h ↔ _
    rw [copysign_nonneg_iff _ _ hmin.ne', hS0]
  · intro hc
    have hl := deLoop_first_refused e tout t (t + 10 * (tout - t)) |tout - t| (d.relerr / max d.relerr d.abserr)
      (d.abserr / max d.relerr d.abserr) 499
      { d with iflag := 1, delsgn := copysign 1 (tout - t), st := S0 } (max d.relerr d.abserr) 0 false
      (by show ¬ |t - t| ≥ |tout - t|; rw [sub_self, abs_zero]; exact not_le.2 hpos) hc
    have hd : de e d t tout y0 yout = deLoop e tout t (t + 10 * (tout - t)) |tout - t|
        (d.relerr / max d.relerr d.abserr) (d.abserr / max d.relerr d.abserr) 1 (499 + 1)
        { d with iflag := 1, delsgn := copysign 1 (tout - t), st := S0 } (max d.relerr d.abserr) 0 false := by
      have hi : ¬ d.iflag < 0 := by omega
      have hn : ((d.iflag.natAbs : Nat) : Int) = 1 := by omega
      unfold de
      dsimp only
      rw [if_neg (fun hc => hv ((invalid_iff d t tout).2 hc)), if_neg (by omega)]
      simp only [hi, hn, if_false, or_true, if_true, show ¬ (1 : Int) < 0 by decide, show maxnum = 499 + 1 from rfl, S0]
    rw [hd]
    exact hl

/-! ### Concrete instances -/

/-- A step routine that advances by `h` (at most 1). -/
def walk : DExt ℚ 1 :=
  ⟨fun s eps => ({ s with x := s.x + min s.h 1, kold := 1 }, eps, false), fun s _ => (s.yy, s.yp), fun _ _ => 0,
    1 / 2 ^ 50⟩

def drv (iflag : Int) (rel abs : ℚ) : Drv ℚ 1 := ⟨st0, iflag, rel, abs, 0, 0, 0⟩

example : let o := de walk (drv 1 (1 / 10) (1 / 10)) 0 3 (fun _ => 5) 0
    (o.ret, o.t, o.calls, o.drv.iflag, o.yout 0) = (0, 3, 3, 2, 5) := by
  decide +kernel

/-- A new integration, as in `first_step`. -/
example : ¬ Invalid 1 (drv 1 (1 / 10) (1 / 10)) 0 3 ∧ (drv 1 (1 / 10) (1 / 10)).iflag = 1 := by
  unfold Invalid
  decide +kernel

/-- A call as in `step_arguments`. -/
example : CallOk (1 / 10 : ℚ) (1 / 10) 30 { st0 with wt := fun i => 1 * |st0.yy i| + 1, h := 3, x := 0 } := by
  refine ⟨fun i => ?_, by norm_num⟩
  norm_num

/-- **C42, where it fails.**  Two zero tolerances are not reported: the test is `eps < 0` and not
`eps <= 0`, and the weights become quotients 0/0 (zero in this model, not a number in the code). -/
theorem zero_tolerance_counterexample :
    ¬ Invalid 1 (drv 1 0 0) 0 3 ∧ (de walk (drv 1 0 0) 0 3 (fun _ => 5) 0).ret = 0 := by
  constructor
  · unfold Invalid
    decide +kernel
  · decide +kernel

end Verif.Sgode
