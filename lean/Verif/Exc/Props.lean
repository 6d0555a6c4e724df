import Verif.Exc.Model
import Verif.Sgode.ContinueProps
import Verif.Filters.EkfModel
import Mathlib.Analysis.Calculus.Deriv.Mul
import Mathlib.Analysis.Calculus.Deriv.Pow
import Mathlib.Analysis.Calculus.MeanValue
import Mathlib.Analysis.SpecialFunctions.Sqrt
import Mathlib.Analysis.SpecialFunctions.Trigonometric.Deriv
import Mathlib.Analysis.SpecialFunctions.Trigonometric.DerivHyp
import Mathlib.Tactic.FieldSimp
import Mathlib.Tactic.FinCases
import Mathlib.Tactic.IntervalCases
import Mathlib.Tactic.LinearCombination

/-! C145: the programs that repeat textbook exercises. -/
namespace Verif.Exc

open Verif.Sgode

section Loops

variable {K : Type} [Field K] [LinearOrder K] {n : Nat}

/-! ### The loop of test_exc71.cpp -/

theorem passCount_from [IsStrictOrderedRing K] (step : K) (hs : 0 < step) (N : Nat) :
    ∀ (m k fuel : Nat), k + m = N → m ≤ fuel → passCount (N * step) step fuel (k * step) = m := by
  intro m
  induction m with
  | zero =>
    intro k fuel hk _
    cases fuel with
    | zero => rfl
    | succ f =>
      have : ¬ ((k : K) * step < N * step) := by rw [← hk]; simp
      rw [passCount, if_neg this]
  | succ m ih =>
    intro k fuel hk hf
    cases fuel with
    | zero => omega
    | succ f =>
      have h1 : (k : K) * step < N * step := by
        have : (k : K) < N := by exact_mod_cast (by omega : k < N)
        exact mul_lt_mul_of_pos_right this hs
      rw [passCount, if_pos h1]
      have h2 : (k : K) * step + step = ((k + 1 : Nat) : K) * step := by push_cast; ring
      rw [h2, ih (k + 1) f (by omega) (by omega)]

/-- **C145** The loop of the exercise makes one pass for each of the 288 steps of five minutes in a day, and none after. -/
theorem pass_count [IsStrictOrderedRing K] (fuel : Nat) (h : 288 ≤ fuel) : passCount (86400 : K) 300 fuel 0 = 288 := by
  have := passCount_from (300 : K) (by norm_num) 288 288 0 fuel rfl h
  norm_num at this
  exact this

theorem passes_length (e : DExt K n) (step : K) (y : Nat → Vec K n) : ∀ (m i : Nat) (d : Drv K n) (t : K) (sol : Vec K n),
    (passes e step y m i d t sol).length = m := by
  intro m
  induction m with
  | zero => intros; rfl
  | succ m ih =>
    intro i d t sol
    rw [passes, List.length_cons, ih]

/-- **C145** A line printed after a successful integration carries the time of its step. -/
theorem line_times (e : DExt K n) (step : K) (y : Nat → Vec K n) : ∀ (m i : Nat) (d : Drv K n) (t : K) (sol : Vec K n) (j : Nat)
    (r : Row K n), (passes e step y m i d t sol)[j]? = some r → r.ret = 0 → r.t = t + (j + 1) * step := by
  intro m
  induction m with
  | zero =>
    intro i d t sol j r h _
    simp [passes] at h
  | succ m ih =>
    intro i d t sol j r h hr
    rw [passes] at h
    cases j with
    | zero =>
      simp only [List.getElem?_cons_zero, Option.some.injEq] at h
      subst h
      have := (success_at_target e d t (t + step) (y i) sol hr).2.1
      rw [this]
      push_cast
      ring
    | succ j =>
      rw [List.getElem?_cons_succ] at h
      have := ih _ _ _ _ j r h hr
      rw [this]
      push_cast
      ring

/-- A call with status 6 does nothing. -/
theorem de_six (e : DExt K n) (d : Drv K n) (h : d.iflag = 6) (t tout : K) (y0 yout : Vec K n) :
    de e d t tout y0 yout = ⟨1, d, t, yout, 0⟩ := by
  have hd : { d with iflag := (6 : Int) } = d := by
    cases d
    simp only at h
    simp [h]
  have hd' : { d with iflag := ((d.iflag.natAbs : Nat) : Int) } = d := by
    rw [h]
    exact hd
  unfold de
  dsimp only
  split
  · rw [hd]
  · rw [if_pos (by rw [h]; decide), hd']

/-- How a valid call with a positive status ends. -/
theorem de_end (e : DExt K n) (d : Drv K n) (t tout : K) (y0 yout : Vec K n) (hv : ¬ Invalid n d t tout) (h1 : 1 ≤ d.iflag)
    (h5 : d.iflag ≤ 5) : LoopEnd e tout t |tout - t| 1 (de e d t tout y0 yout) := by
  have hs : sgn d.iflag = 1 := if_neg (by omega)
  by_cases ho : ¬ Onward d t tout ∨ d.iflag.natAbs = 1
  · rw [de_begun e d t tout y0 yout hv (by omega) ho, hs]
    exact deLoop_end e tout t _ _ _ _ _ _ _ _ _ _
  · rw [not_or, not_not] at ho
    have h2 := ho.2
    rw [de_onward e d t tout y0 yout hv ⟨by omega, by omega⟩ ho.1, hs]
    exact deLoop_end e tout t _ _ _ _ _ _ _ _ _ _

/-- A status above 5 stays and the call does nothing. -/
theorem de_above (e : DExt K n) (d : Drv K n) (t tout : K) (y0 yout : Vec K n) (hv : ¬ Invalid n d t tout)
    (h5 : 5 < d.iflag) : de e d t tout y0 yout = ⟨1, { d with iflag := d.iflag.natAbs }, t, yout, 0⟩ := by
  unfold de
  dsimp only
  rw [if_neg (fun hc => hv ((invalid_iff d t tout).2 hc)), if_pos (by omega)]

/-- What every call that is not the first one finds: a status other than 1, and (unless it is 6) the direction onward. -/
def Running (d : Drv K n) : Prop := 2 ≤ d.iflag ∧ (d.iflag ≤ 5 → 0 < d.delsgn) ∧ (5 < d.iflag → d.iflag = 6)

/-- Members of the driver after any call with a positive status of at most 5. -/
theorem de_running [IsStrictOrderedRing K] (e : DExt K n) (d : Drv K n) (t step : K) (hs : 0 < step) (y0 yout : Vec K n)
    (h1 : 1 ≤ d.iflag) (h5 : d.iflag ≤ 5) : Running (de e d t (t + step) y0 yout).drv := by
  by_cases hv : Invalid n d t (t + step)
  · rw [invalid_reported e d t (t + step) y0 yout hv]
    exact ⟨(by decide : (2 : Int) ≤ 6), fun h => absurd (show (6 : Int) ≤ 5 from h) (by decide), fun _ => rfl⟩
  · have hdir := direction_kept e d t (t + step) y0 yout hv (by omega)
    rw [add_sub_cancel_left] at hdir
    have hpos : 0 < (de e d t (t + step) y0 yout).drv.delsgn := pos_of_mul_pos_left hdir hs.le
    have hl : (de e d t (t + step) y0 yout).drv.iflag = 2 ∨ (de e d t (t + step) y0 yout).drv.iflag = 3 ∨
        (de e d t (t + step) y0 yout).drv.iflag = 4 ∨ (de e d t (t + step) y0 yout).drv.iflag = 5 := by
      have hE' := de_end e d t (t + step) y0 yout hv h1 h5
      rcases hE'.ret with h | h
      · exact .inl (hE'.success h).2.2.1
      · rcases (hE'.failure h).2.2.2 with h | h | h
        · exact .inr (.inl h)
        · exact .inr (.inr (.inl h))
        · exact .inr (.inr (.inr h))
    exact ⟨by omega, fun _ => hpos, fun h => by omega⟩

theorem running_next [IsStrictOrderedRing K] (e : DExt K n) (d : Drv K n) (t step : K) (hs : 0 < step) (y0 yout : Vec K n)
    (h : Running d) : Running (de e d t (t + step) y0 yout).drv := by
  by_cases h5 : d.iflag ≤ 5
  · exact de_running e d t step hs y0 yout (by have := h.1; omega) h5
  · rw [de_six e d (h.2.2 (by omega))]
    exact h

/-- The initial values passed do not matter once the integration runs, whether it succeeds or not. -/
theorem running_forgets [IsStrictOrderedRing K] (e : DExt K n) (d : Drv K n) (t step : K) (hs : 0 < step) (y0 y1 yout : Vec K n)
    (h : Running d) : de e d t (t + step) y0 yout = de e d t (t + step) y1 yout := by
  by_cases h5 : d.iflag ≤ 5
  · by_cases hv : Invalid n d t (t + step)
    · rw [invalid_reported e d t (t + step) y0 yout hv, invalid_reported e d t (t + step) y1 yout hv]
    · have h2 := h.1
      have hl : Later d := ⟨by omega, by omega⟩
      have ho : Onward d t (t + step) := by
        unfold Onward
        rw [add_sub_cancel_left]
        exact mul_pos (h.2.1 h5) hs
      exact (onward_continues e d t (t + step) y1 yout hv hl ho).1 y0 yout
  · rw [de_six e d (h.2.2 (by omega)), de_six e d (h.2.2 (by omega))]

theorem passes_forget [IsStrictOrderedRing K] (e : DExt K n) (step : K) (hs : 0 < step) (y y' : Nat → Vec K n) :
    ∀ (m i : Nat) (d : Drv K n) (t : K) (sol : Vec K n), Running d →
    passes e step y m i d t sol = passes e step y' m i d t sol := by
  intro m
  induction m with
  | zero => intros; rfl
  | succ m ih =>
    intro i d t sol h
    rw [passes, passes, running_forgets e d t step hs (y i) (y' i) sol h]
    rw [ih _ _ _ _ (running_next e d t step hs _ _ h)]

/-- **C145** The program passes its initial values to every call; only the first call reads them.  Whatever is passed later,
and whether or not the calls succeed, the lines are the same. -/
theorem initial_values_once [IsStrictOrderedRing K] (e : DExt K n) (step : K) (hs : 0 < step) (y y' : Nat → Vec K n) (m i : Nat)
    (d : Drv K n) (t : K) (sol : Vec K n) (hd : d.iflag = 1) (hy : y i = y' i) :
    passes e step y m i d t sol = passes e step y' m i d t sol := by
  cases m with
  | zero => rfl
  | succ m =>
    rw [passes, passes, hy]
    rw [passes_forget e step hs y y' m (i + 1) _ _ _ (de_running e d t step hs _ _ (by omega) (by omega))]

theorem passes_six (e : DExt K n) (step : K) (y : Nat → Vec K n) : ∀ (m i : Nat) (d : Drv K n) (t : K) (sol : Vec K n),
    d.iflag = 6 → ∀ (j : Nat) (r : Row K n), (passes e step y m i d t sol)[j]? = some r →
    r.t = t + j * step ∧ r.y = sol ∧ r.ret = 1 := by
  intro m
  induction m with
  | zero =>
    intro i d t sol _ j r h
    simp [passes] at h
  | succ m ih =>
    intro i d t sol hd j r h
    rw [passes, de_six e d hd] at h
    cases j with
    | zero =>
      simp only [List.getElem?_cons_zero, Option.some.injEq] at h
      subst h
      refine ⟨by simp, rfl, rfl⟩
    | succ j =>
      rw [List.getElem?_cons_succ] at h
      obtain ⟨h1, h2, h3⟩ := ih _ _ _ _ hd j r h
      refine ⟨?_, h2, h3⟩
      rw [h1]
      push_cast
      ring

/-- **C145 (counterexample)**  The return value of the integrator is not tested (test_exc71.cpp:184-189) and the time is set to
the target even if the integrator stopped before it.  The next call is then refused, and so are all others: every line after a
failure repeats the values of the failure beside the times at which the orbit should have been. -/
theorem stale_lines_counterexample (e : DExt K n) (step : K) (y : Nat → Vec K n) (m i : Nat) (d : Drv K n) (t : K)
    (sol : Vec K n) (h1 : 1 ≤ d.iflag) (hf : (de e d t (t + step) (y i) sol).ret ≠ 0)
    (hx : (de e d t (t + step) (y i) sol).drv.told ≠ t + step) (j : Nat) (r : Row K n)
    (hr : (passes e step y (m + 1) i d t sol)[j + 1]? = some r) :
    r.t = t + (j + 1) * step ∧ r.y = (de e d t (t + step) (y i) sol).yout ∧ r.ret = 1 := by
  rw [passes] at hr
  rw [List.getElem?_cons_succ] at hr
  have hi : (de e d t (t + step) (y i) sol).drv.iflag ≠ 1 ∧ (de e d t (t + step) (y i) sol).drv.iflag ≠ -1 := by
    by_cases hv : Invalid n d t (t + step)
    · rw [invalid_reported e d t (t + step) _ _ hv]
      exact ⟨(by decide : (6 : Int) ≠ 1), (by decide : (6 : Int) ≠ -1)⟩
    · by_cases h5 : 5 < d.iflag
      · rw [de_above e d t (t + step) _ _ hv h5]
        dsimp only
        omega
      · have hE' := de_end e d t (t + step) (y i) sol hv h1 (not_lt.1 h5)
        rcases hE'.ret with h | h
        · exact absurd h hf
        · have := (hE'.failure h).2.2.2
          omega
  generalize de e d t (t + step) (y i) sol = o at hi hx hr ⊢
  cases m with
  | zero => simp [passes] at hr
  | succ m =>
    have hv : Invalid n o.drv (t + step) (t + step + step) := .inr (.inr (.inr (.inr (.inr ⟨Ne.symm hx, hi.1, hi.2⟩))))
    rw [passes, invalid_reported e o.drv _ _ _ _ hv] at hr
    dsimp only at hr
    cases j with
    | zero =>
      simp only [List.getElem?_cons_zero, Option.some.injEq] at hr
      subst hr
      refine ⟨?_, rfl, rfl⟩
      dsimp only
      push_cast
      ring
    | succ j =>
      rw [List.getElem?_cons_succ] at hr
      obtain ⟨h1, h2, h3⟩ := passes_six e step y m _ { o.drv with iflag := 6 } _ _ rfl j r hr
      refine ⟨?_, h2, h3⟩
      rw [h1]
      push_cast
      ring

/-! ### The loop of test_ode_example.cpp -/

/-- **C145** The other program keeps the time at which the integrator stopped.  After status 3 (tolerances raised) its next call,
to a target beyond that time, is accepted and continues from where the integrator stands. -/
theorem resumes [IsStrictOrderedRing K] (e : DExt K n) (d : Drv K n) (t tout : K) (y yy : Vec K n) (h1 : 1 ≤ d.iflag)
    (ht : t < tout) (h3 : (de e d t tout y yy).drv.iflag = 3)
    (htol : 0 ≤ (de e d t tout y yy).drv.relerr ∧ 0 ≤ (de e d t tout y yy).drv.abserr) (hret : (de e d t tout y yy).ret = 1)
    (tout' : K) (hlt : (de e d t tout y yy).t < tout') :
    ∃ d' t' y' yy', (odePass e d t tout y yy).2 = some (d', t', y', yy') ∧ ¬ Invalid n d' t' tout' ∧ Later d' ∧
      Onward d' t' tout' ∧ t' = d'.st.x ∧ y' = d'.st.yy := by
  have hv : ¬ Invalid n d t tout := by
    intro hv
    rw [invalid_reported e d t tout y yy hv] at h3
    simp at h3
  have h5 : d.iflag.natAbs ≤ 5 := by
    by_contra hc
    rw [de_above e d t tout y yy hv (by omega)] at h3
    dsimp only at h3
    omega
  have hn : n ≠ 0 := fun h => hv (.inl h)
  have hdir := direction_kept e d t tout y yy hv h5
  have hE := de_end e d t tout y yy hv h1 (by omega)
  obtain ⟨f1, f2, f3, -⟩ := hE.failure hret
  refine ⟨(de e d t tout y yy).drv, (de e d t tout y yy).t, (de e d t tout y yy).yout, (de e d t tout y yy).yout, ?_, ?_, ?_,
    ?_, f1, f3⟩
  · unfold odePass
    dsimp only
    rw [if_neg (by rw [h3]; decide)]
  · rintro (h | h | h | h | h | h)
    · exact hn h
    · exact absurd h hlt.ne
    · exact absurd h (not_lt.2 htol.1)
    · exact absurd h (not_lt.2 htol.2)
    · rw [h3] at h; exact absurd h (by decide)
    · exact h.1 (f1.trans f2.symm)
  · unfold Later
    rw [h3]
    decide
  · exact mul_pos (pos_of_mul_pos_left hdir (sub_pos.2 ht).le) (sub_pos.2 hlt)

end Loops

/-! ### test_ode_example.cpp: the system -/

/-- **C145** Every solution of the system of the example keeps `y1² + y2²` and `0.51 y1² + y3²`; from the initial values of the
program both are 1, as they are for the functions sn, cn, dn. -/
theorem elliptic_invariants (y : ℝ → ℝ × ℝ × ℝ)
    (h1 : ∀ t, HasDerivAt (fun s => (y s).1) (elliptic (y t)).1 t)
    (h2 : ∀ t, HasDerivAt (fun s => (y s).2.1) (elliptic (y t)).2.1 t)
    (h3 : ∀ t, HasDerivAt (fun s => (y s).2.2) (elliptic (y t)).2.2 t) (t : ℝ) :
    (y t).1 ^ 2 + (y t).2.1 ^ 2 = (y 0).1 ^ 2 + (y 0).2.1 ^ 2 ∧
    0.51 * (y t).1 ^ 2 + (y t).2.2 ^ 2 = 0.51 * (y 0).1 ^ 2 + (y 0).2.2 ^ 2 ∧
    (y 0 = (0, 1, 1) → (y t).1 ^ 2 + (y t).2.1 ^ 2 = 1 ∧ 0.51 * (y t).1 ^ 2 + (y t).2.2 ^ 2 = 1) := by
  have hA : ∀ t, HasDerivAt (fun s => (y s).1 ^ 2 + (y s).2.1 ^ 2) 0 t := by
    intro t
    have := ((h1 t).fun_pow 2).fun_add ((h2 t).fun_pow 2)
    refine this.congr_deriv ?_
    simp only [elliptic]
    ring
  have hB : ∀ t, HasDerivAt (fun s => 0.51 * (y s).1 ^ 2 + (y s).2.2 ^ 2) 0 t := by
    intro t
    have := (((h1 t).fun_pow 2).const_mul 0.51).fun_add ((h3 t).fun_pow 2)
    refine this.congr_deriv ?_
    simp only [elliptic]
    ring
  have hA' := is_const_of_deriv_eq_zero (fun t => (hA t).differentiableAt) (fun t => (hA t).deriv) t 0
  have hB' := is_const_of_deriv_eq_zero (fun t => (hB t).differentiableAt) (fun t => (hB t).deriv) t 0
  refine ⟨hA', hB', fun h0 => ?_⟩
  simp only [h0] at hA' hB'
  exact ⟨by rw [hA']; norm_num, by rw [hB']; norm_num⟩

/-! ### test_exc71.cpp: arguments and variational equations -/

/-- **C145** With a degree and no order on the command line the assertion holds for degrees of at least 20 that the file has.
Missing: smaller degrees. -/
theorem default_order_partial (atoi : String → Int) (fileDegree : Int) (prog file deg : String) :
    ∃ a, args atoi [prog, file, deg] = some a ∧ (asserted fileDegree a = true ↔ 20 ≤ atoi deg ∧ atoi deg ≤ fileDegree) := by
  refine ⟨(atoi deg, 20), by simp [args], ?_⟩
  simp [asserted, and_comm]

/-- **C145** The numbers of arguments that are accepted, and the degree and order they give. -/
theorem args_accepted (atoi : String → Int) (argv : List String) :
    ((args atoi argv).isSome ↔ 2 ≤ argv.length ∧ argv.length ≤ 4) ∧
      (∀ prog file, args atoi [prog, file] = some (20, 20)) ∧
      (∀ prog file deg, args atoi [prog, file, deg] = some (atoi deg, 20)) ∧
      (∀ prog file deg order, args atoi [prog, file, deg, order] = some (atoi deg, atoi order)) := by
  refine ⟨?_, fun _ _ => by simp [args], fun _ _ _ => by simp [args], fun _ _ _ _ => by simp [args]⟩
  unfold args
  split
  · simp only [Option.isSome_none, Bool.false_eq_true, false_iff]; omega
  · simp only [Option.isSome_some, true_iff]; omega

/-- **C145 (counterexample)**  Degree and order are documented as optional, but the order stays 20 when only a smaller degree is
given; the program then stops at its assertion, whatever the file holds. -/
theorem default_order_counterexample (atoi : String → Int) (fileDegree : Int) (prog file deg : String) (h : atoi deg < 20) :
    ∃ a, args atoi [prog, file, deg] = some a ∧ asserted fileDegree a = false := by
  obtain ⟨a, h1, h2⟩ := default_order_partial atoi fileDegree prog file deg
  refine ⟨a, h1, ?_⟩
  rw [Bool.eq_false_iff]
  intro hc
  have := (h2.1 hc).1
  omega

/-- The derivative of the state: velocity and acceleration. -/
noncomputable def stateRate (acc : (Nat → ℝ) → Nat → ℝ) (y : Nat → ℝ) (i : Nat) : ℝ :=
  if i < 3 then y (3 + i) else acc y (i - 3)

/-- **C145** The first six of the 42 derivatives are velocity and acceleration. -/
theorem state_columns (acc : (Nat → ℝ) → Nat → ℝ) (G : (Nat → ℝ) → Nat → Nat → ℝ) (y : Nat → ℝ) (i : Nat) (hi : i < 6) :
    variational acc G y i = stateRate acc y i := by
  unfold variational yPhip stateRate
  rw [Nat.mod_eq_of_lt hi, Nat.div_eq_of_lt hi, if_pos rfl]

theorem column_eq (acc : (Nat → ℝ) → Nat → ℝ) (G : (Nat → ℝ) → Nat → Nat → ℝ) (y : Nat → ℝ) (i j : Nat) (hi : i < 6) :
    variational acc G y (6 * (j + 1) + i) =
      if i < 3 then y (6 * (j + 1) + (3 + i))
      else ∑ k ∈ Finset.range 3, G y (i - 3) k * y (6 * (j + 1) + k) := by
  have hm : (6 * (j + 1) + i) % 6 = i := by omega
  have hd : (6 * (j + 1) + i) / 6 = j + 1 := by omega
  unfold variational yPhip
  rw [hm, hd, if_neg (Nat.succ_ne_zero j), Nat.add_sub_cancel]
  have hP : ∀ k, Phi y k j = y (6 * (j + 1) + k) := by
    intro k
    unfold Phi
    congr 1
    ring
  simp only [hP]
  by_cases h : i < 3
  · rw [if_pos h]
    rw [Finset.sum_eq_single (i + 3)]
    · simp [dfdy, h, Nat.add_comm]
    · intro b _ hb
      simp [dfdy, h, hb]
    · intro hb
      exact absurd (Finset.mem_range.2 (by omega)) hb
  · rw [if_neg h]
    simp [dfdy, h, Finset.sum_range_succ]

/-- **C145** The other 36 are, column by column, the derivative of the rate of the state in the direction of that column: what is
integrated beside the orbit is its linearisation. -/
theorem variational_columns (acc : (Nat → ℝ) → Nat → ℝ) (G : (Nat → ℝ) → Nat → Nat → ℝ) (y : Nat → ℝ)
    (hG : ∀ (u : Nat → ℝ) (i : Nat), i < 3 →
      HasDerivAt (fun s : ℝ => acc (fun k => y k + s * u k) i) (∑ k ∈ Finset.range 3, G y i k * u k) 0)
    (i j : Nat) (hi : i < 6) :
    HasDerivAt (fun s : ℝ => stateRate acc (fun k => y k + s * y (6 * (j + 1) + k)) i)
      (variational acc G y (6 * (j + 1) + i)) 0 := by
  rw [column_eq acc G y i j hi]
  unfold stateRate
  by_cases h : i < 3
  · simp only [if_pos h]
    have := ((hasDerivAt_id (0 : ℝ)).mul_const (y (6 * (j + 1) + (3 + i)))).const_add (y (3 + i))
    simpa using this
  · simp only [if_neg h]
    exact hG _ (i - 3) (by omega)

/-- **C145** The integration starts with the state and the unit matrix. -/
theorem start_columns (y0 : Nat → ℝ) : (∀ i, i < 6 → start y0 i = y0 i) ∧
    (∀ i j, i < 6 → Phi (start y0) i j = if i = j then 1 else 0) := by
  refine ⟨fun i hi => ?_, fun i j hi => ?_⟩
  · unfold start
    rw [if_pos (Nat.div_eq_of_lt hi), Nat.mod_eq_of_lt hi]
  · have hm : (6 + (i + 6 * j)) % 6 = i := by omega
    have hd : (6 + (i + 6 * j)) / 6 = j + 1 := by omega
    unfold Phi start
    rw [hm, hd, if_neg (Nat.succ_ne_zero j), Nat.add_sub_cancel]

/-! ### test_exc52.cpp -/

/-- **C145** UTC and TT of the program differ by 32.184 s and the leap seconds; UTC is behind GPS time by the leap seconds less
19. -/
theorem times_spec (gps leap : ℚ) : (times gps leap).2 - (times gps leap).1 = 32.184 + leap ∧
    gps - (times gps leap).1 = leap - 19 := by
  constructor <;> simp only [times] <;> ring

/-- **C145 (counterexample)**  The program compares the leap seconds (TAI - UTC, 32 in March 1999) with the difference of GPS time
and UTC (13): it warns when UTC comes out 13 s behind GPS time as it should, and is silent only when it does not. -/
theorem warning_counterexample (gps : ℚ) (leap : Int) :
    (gps - (times gps leap).1 = dat → warns leap = true) ∧ (warns leap = false → gps - (times gps leap).1 = -6) := by
  rw [(times_spec gps leap).2]
  constructor
  · intro h
    have h1 : leap - 19 = dat := by exact_mod_cast h
    unfold warns
    unfold dat at h1 ⊢
    simp only [ne_eq, decide_not, Bool.not_eq_eq_eq_not, Bool.not_true, decide_eq_false_iff_not]
    omega
  · intro h
    unfold warns dat at h
    have h1 : leap = 13 := by simpa using h
    rw [h1]
    norm_num

theorem colMajor_rowData (m : Mat) : colMajor (rowData m) = m.transpose := by
  ext i j
  fin_cases i <;> fin_cases j <;> rfl

/-- **C145** What the program prints are the transposes of the matrix from the celestial to the terrestrial system and of its
derivative in time. -/
theorem matrices (ω : ℝ) (rpom rc2i : Mat) (era0 t : ℝ) :
    t2c rpom rc2i (era0 + ω * t) = (rpom * rotZ (era0 + ω * t) * rc2i).transpose ∧
    ∀ i j, HasDerivAt (fun s => t2c rpom rc2i (era0 + ω * s) i j) (dt2c ω rpom rc2i (era0 + ω * t) i j) t := by
  refine ⟨colMajor_rowData _, fun i j => ?_⟩
  unfold t2c dt2c
  simp only [colMajor_rowData, Matrix.transpose_apply]
  have hang : HasDerivAt (fun s : ℝ => era0 + ω * s) ω t := by
    simpa using ((hasDerivAt_id t).const_mul ω).const_add era0
  have hc : HasDerivAt (fun s => Real.cos (era0 + ω * s)) (-Real.sin (era0 + ω * t) * ω) t := hang.cos
  have hs : HasDerivAt (fun s => Real.sin (era0 + ω * s)) (Real.cos (era0 + ω * t) * ω) t := hang.sin
  have hexp : ∀ s, (rpom * rotZ (era0 + ω * s) * rc2i) j i =
      (rpom j 0 * rc2i 0 i + rpom j 1 * rc2i 1 i) * Real.cos (era0 + ω * s) +
      (rpom j 0 * rc2i 1 i - rpom j 1 * rc2i 0 i) * Real.sin (era0 + ω * s) + rpom j 2 * rc2i 2 i := by
    intro s
    simp [rotZ, Matrix.mul_apply, Fin.sum_univ_three]
    ring
  simp only [hexp]
  have := ((hc.const_mul (rpom j 0 * rc2i 0 i + rpom j 1 * rc2i 1 i)).fun_add
    (hs.const_mul (rpom j 0 * rc2i 1 i - rpom j 1 * rc2i 0 i))).add_const (rpom j 2 * rc2i 2 i)
  refine this.congr_deriv ?_
  simp [rotZ, Matrix.mul_apply, Fin.sum_univ_three]
  ring

/-- **C145 (counterexample)**  The table printed as the matrix `U` of the exercise is its transpose; they differ whenever the Earth
has turned. -/
theorem printed_matrix_counterexample (era : ℝ) (h : Real.sin era ≠ 0) :
    t2c 1 1 era ≠ 1 * rotZ era * 1 := by
  intro hc
  unfold t2c at hc
  rw [colMajor_rowData] at hc
  have := congrFun (congrFun hc 0) 1
  simp [rotZ] at this
  apply h
  linarith

/-! ### test_exc32.cpp -/

/-- **C145 (counterexample)**  The program takes the constant of the Earth for that of the Moon: for every position the
acceleration it prints is that of the Moon times the ratio of the two, which is more than 81. -/
theorem moon_constant_counterexample (gm : ℝ) (h0 : 0 < gm) (h1 : gm ≤ 4.903e12) (sat r : Astro.V3) :
    ∃ q : ℝ, 81 < q ∧ moonAccel sat r = (Forces.pointMass gm sat (r.smul 1e3)).smul q := by
  refine ⟨3.986004418e14 / gm, ?_, ?_⟩
  · rw [lt_div_iff₀ h0]
    norm_num at h1 ⊢
    linarith
  · unfold moonAccel Forces.pointMass
    have hne : gm ≠ 0 := h0.ne'
    ext <;> simp only [Astro.V3.smul] <;> field_simp

/-! ### test_exc83.cpp -/

/-- **C145** Every pass of the filter spans 1200 s. -/
theorem pass_span (i : Nat) : passDt i = 1200 := by
  cases i with
  | zero => simp [passDt, obsTime, filterTime]
  | succ i =>
    simp only [passDt, obsTime, filterTime]
    push_cast
    ring

/-- **C145 (counterexample)**  The "truth" of a pass is the state at the start propagated over the span of that pass alone: it is
the same in all passes, and after the first it is the truth only for an orbit that repeats. -/
theorem truth_counterexample {Y : Type} (propagate : Y → ℚ → Y) (y0 : Y) (i : Nat) :
    yTrue propagate y0 i = propagate y0 (obsTime 0) ∧
    (propagate y0 (obsTime i) ≠ propagate y0 (obsTime 0) → yTrue propagate y0 i ≠ propagate y0 (obsTime i)) := by
  have h : yTrue propagate y0 i = propagate y0 (obsTime 0) := by
    unfold yTrue
    rw [pass_span]
    norm_num [obsTime]
  exact ⟨h, fun hne => by rw [h]; exact hne.symm⟩

theorem enu_line (L Rz : Mat) (site r u : Fin 3 → ℝ) (s : ℝ) :
    enu L Rz site (r + s • u) = enu L Rz site r + s • L.mulVec (Rz.mulVec u) := by
  unfold enu
  rw [Matrix.mulVec_add, Matrix.mulVec_smul, add_sub_right_comm, Matrix.mulVec_add, Matrix.mulVec_smul]

/-- **C145** For any measurement that is a function of east, north and up with partials `g`, the partials given to the filter are
its derivatives with respect to the position. -/
theorem partials_chain (L Rz : Mat) (site r : Fin 3 → ℝ) (A : (Fin 3 → ℝ) → ℝ) (g : Fin 3 → ℝ)
    (hA : ∀ w : Fin 3 → ℝ, HasDerivAt (fun s : ℝ => A (enu L Rz site r + s • w)) (g ⬝ᵥ w) 0) (u : Fin 3 → ℝ) :
    HasDerivAt (fun s : ℝ => A (enu L Rz site (r + s • u))) (dY L Rz g ⬝ᵥ u) 0 := by
  simp only [enu_line]
  have := hA (L.mulVec (Rz.mulVec u))
  unfold dY
  rwa [← Matrix.dotProduct_mulVec, ← Matrix.dotProduct_mulVec]

/-- **C145** In particular for the range, at every position other than that of the site. -/
theorem range_partials (L Rz : Mat) (site r : Fin 3 → ℝ) (h : enu L Rz site r ⬝ᵥ enu L Rz site r ≠ 0) (u : Fin 3 → ℝ) :
    HasDerivAt (fun s : ℝ => Real.sqrt (enu L Rz site (r + s • u) ⬝ᵥ enu L Rz site (r + s • u)))
      (dY L Rz (dRange (enu L Rz site r)) ⬝ᵥ u) 0 := by
  refine partials_chain L Rz site r (fun e => Real.sqrt (e ⬝ᵥ e)) _ (fun w => ?_) u
  generalize enu L Rz site r = e at h
  have h1 : ∀ s : ℝ, (e + s • w) ⬝ᵥ (e + s • w) = e ⬝ᵥ e + s * (2 * (e ⬝ᵥ w)) + s ^ 2 * (w ⬝ᵥ w) := by
    intro s
    simp only [dotProduct, Fin.sum_univ_three, Pi.add_apply, Pi.smul_apply, smul_eq_mul]
    ring
  simp only [h1]
  have hp : HasDerivAt (fun s : ℝ => e ⬝ᵥ e + s * (2 * (e ⬝ᵥ w)) + s ^ 2 * (w ⬝ᵥ w)) (2 * (e ⬝ᵥ w)) 0 := by
    have := (((hasDerivAt_id (0 : ℝ)).mul_const (2 * (e ⬝ᵥ w))).const_add (e ⬝ᵥ e)).fun_add
      (((hasDerivAt_id (0 : ℝ)).fun_pow 2).mul_const (w ⬝ᵥ w))
    simpa using this
  have := hp.sqrt (by simpa using h)
  refine this.congr_deriv ?_
  have hs : Real.sqrt (e ⬝ᵥ e) ≠ 0 := by
    rw [Real.sqrt_ne_zero']
    refine lt_of_le_of_ne ?_ (Ne.symm h)
    simp only [dotProduct, Fin.sum_univ_three]
    nlinarith [mul_self_nonneg (e 0), mul_self_nonneg (e 1), mul_self_nonneg (e 2)]
  simp only [zero_mul, ne_eq, OfNat.ofNat_ne_zero, not_false_eq_true, zero_pow, add_zero]
  have : dRange e ⬝ᵥ w = (e ⬝ᵥ w) / Real.sqrt (e ⬝ᵥ e) := by
    simp only [dRange, dotProduct, Fin.sum_univ_three]
    ring
  rw [this]
  field_simp

/-- **C145 (counterexample)**  The azimuth residual is not reduced to a turn.  However azimuths are assigned to directions within
one turn, there are directions as close as one likes whose residual is almost a turn, with the wrong sign; the filter then moves
the state by its gain times that. -/
theorem azimuth_counterexample (az : ℝ → ℝ) (c : ℝ) (hr : ∀ θ, c ≤ az θ ∧ az θ < c + 2 * Real.pi)
    (hm : ∀ θ, ∃ k : ℤ, az θ = θ + k * (2 * Real.pi)) (ε : ℝ) (h0 : 0 < ε) (h1 : ε < Real.pi) :
    ∃ θ, residual (az (θ + ε)) (az θ) = ε - 2 * Real.pi ∧
      ∀ {T : Type} {n : Nat} (f : Filters.Ekf T n) (σ : ℝ) (H : Fin n → ℝ),
        (f.observationUpdate (az (θ + ε)) (az θ) σ H).x = f.x + fun i =>
          (f.observationUpdate (az (θ + ε)) (az θ) σ H).K i * (ε - 2 * Real.pi) := by
  have hpi := Real.pi_pos
  have key : ∀ θ v, c ≤ v → v < c + 2 * Real.pi → (∃ k : ℤ, v = θ + k * (2 * Real.pi)) → az θ = v := by
    intro θ v hv1 hv2 ⟨k, hk⟩
    obtain ⟨m, hm⟩ := hm θ
    obtain ⟨ha, hb⟩ := hr θ
    have hd : az θ - v = ((m - k : ℤ) : ℝ) * (2 * Real.pi) := by
      rw [hm, hk]
      push_cast
      ring
    have hlt1 : ((m - k : ℤ) : ℝ) < 1 := by
      by_contra hc
      nlinarith [not_lt.1 hc]
    have hlt2 : (-1 : ℝ) < ((m - k : ℤ) : ℝ) := by
      by_contra hc
      nlinarith [not_lt.1 hc]
    have h3 : m - k < 1 := by exact_mod_cast hlt1
    have h4 : -1 < m - k := by exact_mod_cast hlt2
    have h5 : m - k = 0 := by omega
    rw [h5] at hd
    simp at hd
    linarith
  have hA : az (c - ε + ε) = c := key _ c le_rfl (by linarith) ⟨0, by push_cast; ring⟩
  have hB : az (c - ε) = c - ε + 2 * Real.pi := key _ _ (by linarith) (by linarith) ⟨1, by push_cast; ring⟩
  have hres : residual (az (c - ε + ε)) (az (c - ε)) = ε - 2 * Real.pi := by
    unfold residual
    rw [hA, hB]
    ring
  refine ⟨c - ε, hres, fun f σ H => ?_⟩
  have := hres
  unfold residual at this
  simp only [Filters.Ekf.observationUpdate, this]

/-! ### Concrete instances -/

/-- A step routine that goes on by the step asked for, and refuses the tolerance at and beyond 300. -/
def halting : DExt ℚ 1 :=
  ⟨fun s eps => if 300 ≤ s.x then (s, eps, true) else ({ s with x := s.x + 100, yy := fun _ => s.yy 0 + 1, kold := 1 }, eps, false),
    fun s _ => (s.yy, s.yp), fun _ _ => 0, 1 / 2 ^ 50⟩

/-- Four passes of the exercise with it: the second integration fails, the lines after repeat its values. -/
example : ((passes halting 300 (fun _ _ => 5) 4 0 (drv 1 (1 / 10) (1 / 10)) 0 0).map fun r => (r.t, r.y 0, r.ret)) =
    [(300, 8, 0), (300, 8, 1), (600, 8, 1), (900, 8, 1)] := by
  decide +kernel

/-- The second of them meets the hypotheses of the counterexample. -/
example : let o := de halting (drv 1 (1 / 10) (1 / 10)) 0 300 (fun _ => 5) 0
    let o' := de halting o.drv 300 (300 + 300) (fun _ => 5) o.yout
    1 ≤ o.drv.iflag ∧ o'.ret ≠ 0 ∧ o'.drv.told ≠ 300 + 300 := by
  decide +kernel

/-- And those of `resumes` with the next target 900. -/
example : let o := de halting (drv 1 (1 / 10) (1 / 10)) 0 300 (fun _ => 5) 0
    let o' := de halting o.drv 300 600 o.yout o.yout
    o'.drv.iflag = 3 ∧ 0 ≤ o'.drv.relerr ∧ 0 ≤ o'.drv.abserr ∧ o'.ret = 1 ∧ o'.t < 900 := by
  decide +kernel

/-- A solution of the system: (tanh kt, sech kt, k sech kt) with k² = 0.51. -/
example (k : ℝ) (hk : k * k = 0.51) :
    let y : ℝ → ℝ × ℝ × ℝ := fun t => (Real.sinh (k * t) / Real.cosh (k * t), 1 / Real.cosh (k * t), k * (1 / Real.cosh (k * t)))
    ∀ t, HasDerivAt (fun s => (y s).1) (elliptic (y t)).1 t ∧ HasDerivAt (fun s => (y s).2.1) (elliptic (y t)).2.1 t ∧
      HasDerivAt (fun s => (y s).2.2) (elliptic (y t)).2.2 t := by
  intro y t
  have hl : HasDerivAt (fun s : ℝ => k * s) k t := by simpa using (hasDerivAt_id t).const_mul k
  have hs : HasDerivAt (fun s => Real.sinh (k * s)) (Real.cosh (k * t) * k) t := hl.sinh
  have hc : HasDerivAt (fun s => Real.cosh (k * s)) (Real.sinh (k * t) * k) t := hl.cosh
  have hne : Real.cosh (k * t) ≠ 0 := (Real.cosh_pos _).ne'
  have hsq := Real.cosh_sq (k * t)
  have h2 : HasDerivAt (fun s => 1 / Real.cosh (k * s)) (-(Real.sinh (k * t) / Real.cosh (k * t)) * (k * (1 / Real.cosh (k * t)))) t := by
    refine ((hasDerivAt_const t (1 : ℝ)).fun_div hc hne).congr_deriv ?_
    field_simp
    ring
  refine ⟨?_, ?_, ?_⟩
  · refine (hs.fun_div hc hne).congr_deriv ?_
    simp only [elliptic, y]
    field_simp
    linear_combination k * hsq
  · exact h2
  · refine (h2.const_mul k).congr_deriv ?_
    simp only [elliptic, y]
    field_simp
    linear_combination (-Real.sinh (k * t)) * hk

/-- Status and sign of the first call. -/
example : (drv 1 (1 / 10) (1 / 10) : Drv ℚ 1).iflag = 1 := rfl

/-- The command line with degree 10. -/
example : (args (fun _ => 10) ["test_exc71", "field.gfc", "10"]).map (asserted 180) = some false := by decide

/-- 32 leap seconds: a warning, and UTC 13 s behind GPS time. -/
example : warns 32 = true ∧ (100 : ℚ) - (times 100 32).1 = 13 := by
  refine ⟨by decide, ?_⟩
  norm_num [times]

/-- The Earth after a quarter of a turn. -/
example : Real.sin (Real.pi / 2) ≠ 0 := by simp

/-- The constant of the Moon in m³/s² meets the hypotheses. -/
example : (0 : ℝ) < 4.9028e12 ∧ (4.9028e12 : ℝ) ≤ 4.903e12 := by norm_num

/-- Uniform motion: the second "truth" is not the state at the second observation. -/
example : yTrue (fun (y : ℚ) t => y + t) 0 1 ≠ 0 + obsTime 1 := by
  refine (truth_counterexample (fun (y : ℚ) t => y + t) 0 1).2 ?_
  norm_num [obsTime]

/-- Azimuths in [0, 2π). -/
example : ∃ az : ℝ → ℝ, (∀ θ, 0 ≤ az θ ∧ az θ < 0 + 2 * Real.pi) ∧ ∀ θ, ∃ k : ℤ, az θ = θ + k * (2 * Real.pi) := by
  have hpi : 0 < 2 * Real.pi := by positivity
  refine ⟨fun θ => θ - ⌊θ / (2 * Real.pi)⌋ * (2 * Real.pi), fun θ => ⟨?_, ?_⟩, fun θ => ⟨-⌊θ / (2 * Real.pi)⌋, ?_⟩⟩
  · have := Int.floor_le (θ / (2 * Real.pi))
    rw [le_div_iff₀ hpi] at this
    linarith
  · have := Int.lt_floor_add_one (θ / (2 * Real.pi))
    rw [div_lt_iff₀ hpi] at this
    linarith
  · push_cast
    ring

/-- A position other than that of the site. -/
example : enu 1 1 (fun _ => 0) (fun _ => 1) ⬝ᵥ enu 1 1 (fun _ => 0) (fun _ => 1) ≠ (0 : ℝ) := by
  simp [enu, dotProduct, Fin.sum_univ_three]

/-- The linear attraction towards the origin has the partials `-1`. -/
example (y : Nat → ℝ) (u : Nat → ℝ) (i : Nat) (hi : i < 3) :
    HasDerivAt (fun s : ℝ => (fun (z : Nat → ℝ) (k : Nat) => -z k) (fun k => y k + s * u k) i)
      (∑ k ∈ Finset.range 3, (if i = k then -1 else 0) * u k) 0 := by
  have h : (∑ k ∈ Finset.range 3, (if i = k then (-1 : ℝ) else 0) * u k) = -u i := by
    rw [Finset.sum_eq_single i]
    · simp
    · intro b _ hb
      simp [Ne.symm hb]
    · intro hb
      exact absurd (Finset.mem_range.2 hi) hb
  rw [h]
  have := (((hasDerivAt_id (0 : ℝ)).mul_const (u i)).const_add (y i)).fun_neg
  simpa using this

end Verif.Exc
