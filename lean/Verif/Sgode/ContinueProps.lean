import Verif.Sgode.DriverProps
import Verif.Sgode.Refused

/-! C125: successive calls of the integrator. -/
namespace Verif.Sgode

variable {K : Type} [Field K] [LinearOrder K] {n : Nat}

/-! ### Specification -/

/-- The request goes on in the direction of the integration so far. -/
def Onward (d : Drv K n) (t tout : K) : Prop := 0 < d.delsgn * (tout - t)

/-- A request that is not a new integration (status 2 to 5, with either sign). -/
def Later (d : Drv K n) : Prop := 2 ≤ d.iflag.natAbs ∧ d.iflag.natAbs ≤ 5

/-- What a loop of the driver does not change, however it ends. -/
structure Kept (d : Drv K n) (o : DOut K n) : Prop where
  delsgn : o.drv.delsgn = d.delsgn
  tolerances : o.ret = 0 → o.drv.relerr = d.relerr ∧ o.drv.abserr = d.abserr

/-! ### The loop -/

theorem deLoop_kept (e : DExt K n) (tout t tend absdel releps abseps : K) (isn : Int) :
    ∀ (rem : Nat) (d : Drv K n) (eps : K) (kle4 : Nat) (stiff : Bool),
    Kept d (deLoop e tout t tend absdel releps abseps isn rem d eps kle4 stiff) := by
  intro rem
  induction rem with
  | zero =>
    intro d eps kle4 stiff
    rw [deLoop]
    dsimp only
    split
    · exact ⟨rfl, fun _ => ⟨rfl, rfl⟩⟩
    · split
      · exact ⟨rfl, fun _ => ⟨rfl, rfl⟩⟩
      · exact ⟨rfl, fun _ => ⟨rfl, rfl⟩⟩
  | succ rem ih =>
    intro d eps kle4 stiff
    rw [deLoop]
    dsimp only
    split
    · exact ⟨rfl, fun _ => ⟨rfl, rfl⟩⟩
    · split
      · exact ⟨rfl, fun _ => ⟨rfl, rfl⟩⟩
      · split
        · exact ⟨rfl, fun h => by simp at h⟩
        · exact ⟨(ih _ _ _ _).delsgn, (ih _ _ _ _).tolerances⟩

/-- The state with which a step is asked for. -/
def asked (s : St K n) (tend releps abseps : K) : St K n :=
  { s with h := copysign (min |s.h| |tend - s.x|) s.h, wt := fun i => releps * |s.yy i| + abseps }

/-- Status, last point and sign of the call before play no part in the loop. -/
theorem deLoop_forgets (e : DExt K n) (tout t tend absdel releps abseps : K) (isn : Int) :
    ∀ (rem : Nat) (d : Drv K n) (i j : Int) (told : K) (eps : K) (kle4 : Nat) (stiff : Bool),
    deLoop e tout t tend absdel releps abseps isn rem { d with iflag := i, told := told, isnold := j } eps kle4 stiff =
      deLoop e tout t tend absdel releps abseps isn rem d eps kle4 stiff := by
  intro rem
  induction rem with
  | zero =>
    intro d i j told eps kle4 stiff
    rw [deLoop, deLoop]
  | succ rem ih =>
    intro d i j told eps kle4 stiff
    rw [deLoop, deLoop]
    dsimp only
    by_cases h1 : |d.st.x - t| ≥ absdel
    · rw [if_pos h1, if_pos h1]
    · rw [if_neg h1, if_neg h1]
      by_cases h2 : ¬ (isn > 0 ∨ |tout - d.st.x| ≥ e.fouru * |d.st.x|)
      · rw [if_pos h2, if_pos h2]
      · rw [if_neg h2, if_neg h2]
        by_cases h3 : (e.step (asked d.st tend releps abseps) eps).2.2 = true
        · refine (if_pos h3).trans (Eq.symm ?_)
          exact if_pos h3
        · refine (if_neg h3).trans (Eq.symm ?_)
          refine (if_neg h3).trans (Eq.symm ?_)
          exact ih { d with st := _ } i j told _ _ _

theorem deLoop_reached (e : DExt K n) (tout t tend absdel releps abseps : K) (isn : Int) (rem : Nat) (d : Drv K n)
    (eps : K) (kle4 : Nat) (stiff : Bool) (h : |d.st.x - t| ≥ absdel) :
    deLoop e tout t tend absdel releps abseps isn rem d eps kle4 stiff =
      ⟨0, { d with st := { d.st with ypout := (e.intrp d.st tout).2 }, iflag := 2, told := tout, isnold := isn }, tout,
        (e.intrp d.st tout).1, maxnum - rem⟩ := by
  cases rem <;> rw [deLoop] <;> exact if_pos h

/-- A success without the distance covered leaves the remaining distance as step size. -/
theorem deLoop_rest (e : DExt K n) (tout t tend absdel releps abseps : K) (isn : Int) :
    ∀ (rem : Nat) (d : Drv K n) (eps : K) (kle4 : Nat) (stiff : Bool) (o : DOut K n),
    deLoop e tout t tend absdel releps abseps isn rem d eps kle4 stiff = o → o.ret = 0 →
    |o.drv.st.x - t| ≥ absdel ∨ o.drv.st.h = tout - o.drv.st.x := by
  intro rem
  induction rem with
  | zero =>
    intro d eps kle4 stiff o ho hr
    rw [deLoop] at ho
    dsimp only at ho
    split at ho
    · rename_i h
      subst ho
      exact .inl h
    · split at ho
      · subst ho
        exact .inr rfl
      · subst ho
        simp at hr
  | succ rem ih =>
    intro d eps kle4 stiff o ho hr
    rw [deLoop] at ho
    dsimp only at ho
    split at ho
    · rename_i h
      subst ho
      exact .inl h
    · split at ho
      · subst ho
        exact .inr rfl
      · split at ho
        · subst ho
          simp at hr
        · exact ih _ _ _ _ _ ho hr

/-- The sign of a status. -/
def sgn (i : Int) : Int := if i < 0 then -1 else 1

/-- The largest abscissa that steps may reach. -/
def limit (d : Drv K n) (t tout : K) : K := if sgn d.iflag < 0 then tout else t + 10 * (tout - t)

/-- A valid call that goes on enters the loop with the state as it is. -/
theorem de_onward (e : DExt K n) (d : Drv K n) (t tout : K) (y0 yout : Vec K n) (hv : ¬ Invalid n d t tout)
    (hl : Later d) (ho : Onward d t tout) :
    de e d t tout y0 yout = deLoop e tout t (limit d t tout) |tout - t| (d.relerr / max d.relerr d.abserr)
      (d.abserr / max d.relerr d.abserr) (sgn d.iflag) maxnum d (max d.relerr d.abserr) 0 false := by
  have h2 := hl.1
  have h5 := hl.2
  have h0 : ¬ (d.delsgn * (tout - t) ≤ 0 ∨ ((d.iflag.natAbs : Nat) : Int) = 1) := by
    rintro (h | h)
    · exact absurd h (not_le.2 ho)
    · omega
  unfold de
  dsimp only
  rw [if_neg (fun hc => hv ((invalid_iff d t tout).2 hc)), if_neg (by omega), if_neg h0]
  exact deLoop_forgets e tout t _ _ _ _ _ maxnum d _ d.isnold d.told _ _ _

/-- The state at the start of an integration. -/
def begun (e : DExt K n) (d : Drv K n) (t tout : K) (y0 : Vec K n) : Drv K n :=
  { d with
    delsgn := copysign 1 (tout - t)
    st := { d.st with
      x := t, yy := y0, start := true, h := copysign (max |tout - t| (e.fouru * |t|)) (tout - t) } }

/-- A valid call that does not go on enters the loop with the values passed. -/
theorem de_begun (e : DExt K n) (d : Drv K n) (t tout : K) (y0 yout : Vec K n) (hv : ¬ Invalid n d t tout)
    (h5 : d.iflag.natAbs ≤ 5) (ho : ¬ Onward d t tout ∨ d.iflag.natAbs = 1) :
    de e d t tout y0 yout = deLoop e tout t (limit d t tout) |tout - t| (d.relerr / max d.relerr d.abserr)
      (d.abserr / max d.relerr d.abserr) (sgn d.iflag) maxnum (begun e d t tout y0) (max d.relerr d.abserr) 0 false := by
  have h0 : d.delsgn * (tout - t) ≤ 0 ∨ ((d.iflag.natAbs : Nat) : Int) = 1 :=
    ho.imp (fun h => not_lt.1 h) (fun h => by omega)
  unfold de
  dsimp only
  rw [if_neg (fun hc => hv ((invalid_iff d t tout).2 hc)), if_neg (by omega), if_pos h0]
  exact deLoop_forgets e tout t _ _ _ _ _ maxnum (begun e d t tout y0) _ d.isnold d.told _ _ _

theorem sgn_sgn (i : Int) : sgn (sgn i) = sgn i := by
  unfold sgn
  by_cases h : i < 0
  · rw [if_pos h]; rfl
  · rw [if_neg h]; rfl

/-! ### C125 -/

/-- **C125** After a successful call the next one is accepted from the point reached, with the same tolerances, for every other
target. -/
theorem next_call_accepted (e : DExt K n) (d : Drv K n) (t tout : K) (y0 yout : Vec K n)
    (h : (de e d t tout y0 yout).ret = 0) (tout' : K) (hne : tout' ≠ tout) :
    ¬ Invalid n (de e d t tout y0 yout).drv (de e d t tout y0 yout).t tout' ∧ Later (de e d t tout y0 yout).drv ∧
    (de e d t tout y0 yout).drv.relerr = d.relerr ∧ (de e d t tout y0 yout).drv.abserr = d.abserr := by
  obtain ⟨hv, h1, h2, h3, -⟩ := success_at_target e d t tout y0 yout h
  have ht : (de e d t tout y0 yout).drv.relerr = d.relerr ∧ (de e d t tout y0 yout).drv.abserr = d.abserr := by
    generalize hq : de e d t tout y0 yout = o at h
    unfold de at hq
    dsimp only at hq
    rw [if_neg (fun hc => hv ((invalid_iff d t tout).2 hc))] at hq
    split at hq
    · rw [← hq] at h
      simp at h
    · rw [← hq] at h ⊢
      have := (deLoop_kept e tout t _ _ _ _ _ _ _ _ _ _).tolerances h
      rw [this.1, this.2]
      split <;> exact ⟨rfl, rfl⟩
  refine ⟨?_, ⟨by rw [h3]; decide, by rw [h3]; decide⟩, ht⟩
  unfold Invalid at hv ⊢
  rw [h1, h2, h3, ht.1, ht.2]
  rintro (h | h | h | h | h | h)
  · exact hv (.inl h)
  · exact hne h.symm
  · exact hv (.inr (.inr (.inl h)))
  · exact hv (.inr (.inr (.inr (.inl h))))
  · exact absurd h (by decide)
  · exact h.1 rfl

/-- **C125** A call that reaches the loop leaves the direction in which it has gone. -/
theorem direction_kept [IsStrictOrderedRing K] (e : DExt K n) (d : Drv K n) (t tout : K) (y0 yout : Vec K n)
    (hv : ¬ Invalid n d t tout) (h5 : d.iflag.natAbs ≤ 5) :
    0 < (de e d t tout y0 yout).drv.delsgn * (tout - t) := by
  have hne : tout - t ≠ 0 := fun h => hv (.inr (.inl (sub_eq_zero.1 h).symm))
  unfold de
  dsimp only
  rw [if_neg (fun hc => hv ((invalid_iff d t tout).2 hc)), if_neg (by omega), (deLoop_kept e tout t _ _ _ _ _ _ _ _ _ _).delsgn]
  split
  · show 0 < copysign 1 (tout - t) * (tout - t)
    unfold copysign
    rw [abs_one]
    split
    · rename_i h
      rw [one_mul]
      exact lt_of_le_of_ne h hne.symm
    · rename_i h
      linarith [not_le.1 h]
  · rename_i h
    exact not_le.1 fun hc => h (.inl hc)

/-- **C125** The next call onward continues the integration: it starts from the state that the last one left, whatever initial
values and output are passed.  If that state has already passed the target, the answer is its interpolation there and no step is
taken; else the first step is asked for from that state, its size only cut down to ten times the distance. -/
theorem onward_continues [IsStrictOrderedRing K] (e : DExt K n) (d : Drv K n) (t tout : K) (y0 yout : Vec K n)
    (hv : ¬ Invalid n d t tout) (hl : Later d) (ho : Onward d t tout) :
    (∀ y0' yout', de e d t tout y0' yout' = de e d t tout y0 yout) ∧
    (|d.st.x - t| ≥ |tout - t| →
      (de e d t tout y0 yout).ret = 0 ∧ (de e d t tout y0 yout).calls = 0 ∧
      (de e d t tout y0 yout).yout = (e.intrp d.st tout).1 ∧
      (de e d t tout y0 yout).drv.st = { d.st with ypout := (e.intrp d.st tout).2 }) ∧
    (|d.st.x - t| < |tout - t| → 0 < d.iflag →
      ∃ s : St K n, s.x = d.st.x ∧ s.yy = d.st.yy ∧ s.start = d.st.start ∧ s.phi = d.st.phi ∧ s.k = d.st.k ∧
        |s.h| = min |d.st.h| |t + 10 * (tout - t) - d.st.x| ∧
        ((e.step s (max d.relerr d.abserr)).2.2 = true →
          (de e d t tout y0 yout).ret = 1 ∧ (de e d t tout y0 yout).drv.iflag = 3 ∧
          (de e d t tout y0 yout).drv.st = (e.step s (max d.relerr d.abserr)).1)) := by
  refine ⟨fun y0' yout' => ?_, fun h => ?_, fun h hp => ?_⟩
  · rw [de_onward e d t tout y0' yout' hv hl ho, de_onward e d t tout y0 yout hv hl ho]
  · rw [de_onward e d t tout y0 yout hv hl ho, deLoop_reached e tout t _ _ _ _ _ maxnum d _ _ _ h]
    exact ⟨rfl, Nat.sub_self _, rfl, rfl⟩
  · have hs : sgn d.iflag = 1 := if_neg (by omega)
    have hL : limit d t tout = t + 10 * (tout - t) := if_neg (by rw [hs]; decide)
    refine ⟨{ d.st with
      h := copysign (min |d.st.h| |t + 10 * (tout - t) - d.st.x|) d.st.h
      wt := fun i => d.relerr / max d.relerr d.abserr * |d.st.yy i| + d.abserr / max d.relerr d.abserr },
      rfl, rfl, rfl, rfl, rfl, ?_, fun hc => ?_⟩
    · show |copysign _ _| = _
      rw [abs_copysign, abs_of_nonneg (le_min (abs_nonneg _) (abs_nonneg _))]
    · rw [de_onward e d t tout y0 yout hv hl ho, hs, hL]
      exact deLoop_first_refused e tout t _ _ _ _ 499 d _ 0 false (not_le.2 h) hc

/-- **C125** A request in the other direction is a new integration from the values passed. -/
theorem turning_restarts (e : DExt K n) (d : Drv K n) (t tout : K) (y0 yout : Vec K n) (hv : ¬ Invalid n d t tout)
    (h5 : d.iflag.natAbs ≤ 5) (ho : ¬ Onward d t tout) :
    de e d t tout y0 yout = de e { d with iflag := sgn d.iflag } t tout y0 yout := by
  have h0 : d.iflag ≠ 0 := fun h => hv (.inr (.inr (.inr (.inr (.inl h)))))
  have hs : (sgn d.iflag).natAbs = 1 := by unfold sgn; split <;> decide
  have hv' : ¬ Invalid n { d with iflag := sgn d.iflag } t tout := by
    unfold Invalid at hv ⊢
    dsimp only
    rintro (h | h | h | h | h | h)
    · exact hv (.inl h)
    · exact hv (.inr (.inl h))
    · exact hv (.inr (.inr (.inl h)))
    · exact hv (.inr (.inr (.inr (.inl h))))
    · rw [h] at hs
      exact absurd hs (by decide)
    · have := h.2
      omega
  rw [de_begun e d t tout y0 yout hv h5 (.inl ho), de_begun e _ t tout y0 yout hv' (by rw [hs]; decide) (.inr hs)]
  have hL : limit { d with iflag := sgn d.iflag } t tout = limit d t tout := by
    unfold limit
    dsimp only
    rw [sgn_sgn]
  rw [hL]
  dsimp only
  rw [sgn_sgn]
  exact (deLoop_forgets e tout t _ _ _ _ _ maxnum (begun e d t tout y0) (sgn d.iflag) d.isnold d.told _ _ _).symm

theorem onward_of_same [IsStrictOrderedRing K] {g a b : K} (hg : 0 < g * a) (hab : 0 < a * b) : 0 < g * b := by
  rcases lt_or_gt_of_ne (fun h0 : a = 0 => by rw [h0, zero_mul] at hab; exact lt_irrefl _ hab) with hn | hp
  · exact mul_pos_of_neg_of_neg (by nlinarith) (by nlinarith)
  · exact mul_pos (by nlinarith) (by nlinarith)

theorem status_le_five (e : DExt K n) (d : Drv K n) (t tout : K) (y0 yout : Vec K n)
    (h : (de e d t tout y0 yout).ret = 0) : d.iflag.natAbs ≤ 5 := by
  have hv := (success_at_target e d t tout y0 yout h).1
  by_contra hc
  have hd : de e d t tout y0 yout = ⟨1, { d with iflag := d.iflag.natAbs }, t, yout, 0⟩ := by
    unfold de
    dsimp only
    rw [if_neg (fun hc => hv ((invalid_iff d t tout).2 hc)), if_pos (by omega)]
  rw [hd] at h
  simp at h

/-- **C125** Two calls in a row, the first allowed to step past its target: the second, to a target farther on, is accepted and
continues from a state at or past the first target; the initial values passed to it are not used.  A target that this state has
already passed costs no step.  Missing: calls that must not step past their target, for which the claim is false. -/
theorem two_calls_partial [IsStrictOrderedRing K] (e : DExt K n) (d : Drv K n) (t tout : K) (y0 yout : Vec K n)
    (h : (de e d t tout y0 yout).ret = 0) (hpos : 0 < d.iflag) (tout' : K) (hon : 0 < (tout - t) * (tout' - tout)) :
    let o := de e d t tout y0 yout
    |o.drv.st.x - t| ≥ |tout - t| ∧ ¬ Invalid n o.drv tout tout' ∧
    (∀ y1 y1' yout1 yout1', de e o.drv tout tout' y1 yout1 = de e o.drv tout tout' y1' yout1') ∧
    (|o.drv.st.x - tout| ≥ |tout' - tout| → ∀ y1 yout1,
      (de e o.drv tout tout' y1 yout1).ret = 0 ∧ (de e o.drv tout tout' y1 yout1).calls = 0 ∧
      (de e o.drv tout tout' y1 yout1).yout = (e.intrp o.drv.st tout').1) := by
  intro o
  have hne : tout' ≠ tout := by
    rintro rfl
    rw [sub_self, mul_zero] at hon
    exact lt_irrefl _ hon
  obtain ⟨hv, ht, -, -, hend⟩ := success_at_target e d t tout y0 yout h
  have ha := next_call_accepted e d t tout y0 yout h tout' hne
  have hdir := direction_kept e d t tout y0 yout hv (status_le_five e d t tout y0 yout h)
  rw [ht] at ha
  have hon' : Onward o.drv tout tout' := onward_of_same hdir hon
  refine ⟨?_, ha.1, fun y1 y1' yout1 yout1' => ?_, fun hp y1 yout1 => ?_⟩
  · rcases hend with ⟨yp, h1, -⟩ | ⟨h1, -⟩
    · exact h1
    · omega
  · exact ((onward_continues e o.drv tout tout' y1' yout1' ha.1 ha.2.1 hon').1 y1 yout1)
  · obtain ⟨h1, h2, h3, -⟩ := (onward_continues e o.drv tout tout' y1 yout1 ha.1 ha.2.1 hon').2.1 hp
    exact ⟨h1, h2, h3⟩

/-- The step routine of the code refuses steps below the resolution at the point it stands (sgode_step.cpp:26-29). -/
def RefusesTiny (e : DExt K n) : Prop := ∀ s eps, |s.h| < e.fouru * |s.x| → (e.step s eps).2.2 = true

/-- **C125 (counterexample)**  A call that must not step past its target and ends within the resolution before it leaves the
remaining distance as step size, and the record of how it ended is not read by the next call.  The next call in this direction
is therefore refused with status 3 although nothing is wrong with its arguments. -/
theorem continue_after_stop_counterexample [IsStrictOrderedRing K] (e : DExt K n) (hr : RefusesTiny e) (d : Drv K n)
    (t tout : K) (y0 yout : Vec K n) (h : (de e d t tout y0 yout).ret = 0)
    (hx : |(de e d t tout y0 yout).drv.st.x - t| < |tout - t|) (tout' : K)
    (hon : 0 < (tout - t) * (tout' - tout)) (hfar : |(de e d t tout y0 yout).drv.st.x - tout| < |tout' - tout|)
    (y1 yout1 : Vec K n) :
    ¬ Invalid n (de e d t tout y0 yout).drv (de e d t tout y0 yout).t tout' ∧
    (de e (de e d t tout y0 yout).drv (de e d t tout y0 yout).t tout' y1 yout1).ret = 1 ∧
    (de e (de e d t tout y0 yout).drv (de e d t tout y0 yout).t tout' y1 yout1).drv.iflag = 3 := by
  generalize ho : de e d t tout y0 yout = o at *
  have hne : tout' ≠ tout := by
    rintro rfl
    rw [sub_self, mul_zero] at hon
    exact lt_irrefl _ hon
  have ha := next_call_accepted e d t tout y0 yout (by rw [ho]; exact h) tout' hne
  have hsu := success_at_target e d t tout y0 yout (by rw [ho]; exact h)
  have h5 := status_le_five e d t tout y0 yout (by rw [ho]; exact h)
  have hdir := direction_kept e d t tout y0 yout hsu.1 h5
  obtain ⟨hval, ht, -, hf, hend⟩ := hsu
  have hi0 : d.iflag ≠ 0 := fun h => hval (.inr (.inr (.inr (.inr (.inl h)))))
  rw [ho] at ha hdir ht hf hend
  rcases hend with ⟨yp, h1, -⟩ | ⟨-, htiny, -⟩
  · exact absurd h1 (not_le.2 hx)
  have hh : |o.drv.st.h| < e.fouru * |o.drv.st.x| := by
    have hq : de e d t tout y0 yout = o := ho
    have hrest : |o.drv.st.x - t| ≥ |tout - t| ∨ o.drv.st.h = tout - o.drv.st.x := by
      by_cases hon0 : ¬ Onward d t tout ∨ d.iflag.natAbs = 1
      · rw [de_begun e d t tout y0 yout hval h5 hon0] at hq
        exact deLoop_rest e tout t _ _ _ _ _ _ _ _ _ _ o hq h
      · rw [not_or, not_not] at hon0
        have hl : Later d := ⟨by have := hon0.2; have := hi0; omega, h5⟩
        rw [de_onward e d t tout y0 yout hval hl hon0.1] at hq
        exact deLoop_rest e tout t _ _ _ _ _ _ _ _ _ _ o hq h
    rw [hrest.resolve_left (not_le.2 hx)]
    exact htiny
  have hon' : Onward o.drv o.t tout' := by
    rw [ht]
    exact onward_of_same hdir hon
  obtain ⟨-, -, hc⟩ := onward_continues e o.drv o.t tout' y1 yout1 ha.1 ha.2.1 hon'
  obtain ⟨s, hsx, -, -, -, -, hsh, hs⟩ := hc (by rw [ht]; exact hfar) (by rw [hf]; decide)
  have hcr := hr s (max o.drv.relerr o.drv.abserr) (by
    rw [hsh, hsx]
    exact lt_of_le_of_lt (min_le_left _ _) hh)
  exact ⟨ha.1, (hs hcr).1, (hs hcr).2.1⟩

/-- The step routine of C41 refuses steps below the resolution. -/
theorem step_refuses_tiny (e : Ext K n) (fuel : Nat) (garbage : Int) (s : St K n) (eps : K)
    (h : |s.h| < 4 * e.umach * |s.x|) : ∃ r, step e fuel garbage s eps = some r ∧ r.crash = true := by
  unfold step
  rw [if_pos h]
  exact ⟨_, rfl, rfl⟩

/-! ### Concrete instances -/

/-- Two calls onward, the second within what the first has covered. -/
example : let o := de walk (drv 1 (1 / 10) (1 / 10)) 0 (5 / 2) (fun _ => 5) 0
    let o' := de walk o.drv (5 / 2) (11 / 4) (fun _ => 7) 0
    (o.ret, o.drv.st.x, o'.ret, o'.calls, o'.yout 0) = (0, 3, 0, 0, 5) := by
  decide +kernel

/-- Back again: the values passed are used. -/
example : let o := de walk (drv 1 (1 / 10) (1 / 10)) 0 (5 / 2) (fun _ => 5) 0
    let o' := de walk o.drv (5 / 2) 1 (fun _ => 7) 0
    (o'.ret, o'.yout 0) = (0, 7) := by
  decide +kernel

/-- Steps that end short of where they should by 2⁻⁶⁰ of their length, as rounding makes them, and that are refused below the
resolution. -/
def short : DExt ℚ 1 :=
  ⟨fun s eps => if |s.h| < 1 / 2 ^ 50 * |s.x| then (s, eps, true)
      else ({ s with x := s.x + s.h * (1 - 1 / 2 ^ 60), kold := 1 }, eps, false),
    fun s _ => (s.yy, s.yp), fun _ _ => 0, 1 / 2 ^ 50⟩

theorem short_refuses : RefusesTiny short := by
  intro s eps h
  show (if |s.h| < 1 / 2 ^ 50 * |s.x| then _ else _ : St ℚ 1 × ℚ × Bool).2.2 = true
  have h' : |s.h| < 1 / 2 ^ 50 * |s.x| := h
  rw [if_pos h']

/-- A call from 0 to 3 that must not pass 3 meets the hypotheses of the counterexample with the next target 6. -/
example : let o := de short (drv (-1) (1 / 10) (1 / 10)) 0 3 (fun _ => 5) 0
    o.ret = 0 ∧ |o.drv.st.x - 0| < |(3 : ℚ) - 0| ∧ 0 < ((3 : ℚ) - 0) * (6 - 3) ∧ |o.drv.st.x - 3| < |(6 : ℚ) - 3| ∧
    (de short o.drv o.t 6 (fun _ => 5) 0).drv.iflag = 3 := by
  decide +kernel

end Verif.Sgode
