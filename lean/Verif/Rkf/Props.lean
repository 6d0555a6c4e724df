import Verif.Rkf.Formula
import Mathlib.Logic.Relation
import Mathlib.Tactic.Linarith
import Mathlib.Tactic.Positivity
import Mathlib.Tactic.FinCases
import Mathlib.Data.Fin.VecNotation
import Mathlib.Tactic.ByContra

/-!
C133 (driver): `RKF45::rkfs` ends, reports the output point only when it is there, never leaves the interval, and
composes steps of order 5; what it says about tolerances, step sizes and flags is false in several ways.
-/
namespace Verif.Rkf

variable {K : Type} [Field K] [LinearOrder K] [IsStrictOrderedRing K]

/-! ### Attempts at one step -/

theorem shrink_pos {e : K} (h : 1 < e) : 0 < shrink e ∧ shrink e < 1 := by
  unfold shrink
  have he : 0 < e := lt_trans one_pos h
  split_ifs
  · constructor
    · positivity
    · rw [div_lt_one (by positivity)]
      nlinarith
  · constructor <;> norm_num

theorem grow_pos {e : K} (b : Bool) : 0 < grow e b := by
  unfold grow
  have h : 0 < (if e > 1889568 / 10000000000 then 9 / 10 / (e * e) else 5 : K) := by
    split_ifs with h
    · have : 0 < e := lt_trans (by norm_num) h
      positivity
    · norm_num
  simp only
  cases b
  · simpa using h
  · simp only [if_true]; exact lt_min h one_pos

/-- What an accepted attempt has passed. -/
def Passed {n : Nat} (junk : Nat → K) (f : K → (Fin n → K) → Fin n → K) (scale ae t h : K) (y yp : Fin n → K) : Prop :=
  ∃ e, eeoet junk ae y yp (fehl f t h y yp yp).1 (fehl f t h y yp yp).2 = some e ∧ esttolOf h e scale ≤ 1

theorem attempts_total {n : Nat} (junk : Nat → K) (f : K → (Fin n → K) → Fin n → K) (hmin scale ae t : K)
    (y yp : Fin n → K) (fuel : Nat) : ∀ (h : K) (failed output : Bool) (nfe : Nat), 3000 < nfe + 5 * fuel →
    ∃ r, attempts junk f hmin scale ae t y yp (fuel + 1) h failed output nfe = some r ∧
      (match r with
      | .stop i k h' nfe' => (i = 4 ∧ k = some 4 ∨ i = 5 ∧ k = none ∨ i = 6 ∧ k = some 6) ∧
          (nfe' ≤ 3005 ∨ nfe' = nfe)
      | .ok h' e' _ output' s nfe' => s = (fehl f t h' y yp yp).1 ∧ Passed junk f scale ae t h' y yp ∧
          nfe + 5 ≤ nfe' ∧ nfe' ≤ 3005 ∧ (∃ r, 0 < r ∧ r ≤ 1 ∧ h' = r * h ∧ (output' = false ∨ r = 1) ∧
            (output' = true → output = true) ∧ (output = true → output' = false → r < 1))) := by
  induction fuel with
  | zero =>
    intro h failed output nfe hf
    unfold attempts
    rw [if_pos (by unfold maxnfe; omega)]
    exact ⟨_, rfl, Or.inl ⟨rfl, rfl⟩, Or.inr rfl⟩
  | succ fuel ih =>
    intro h failed output nfe hf
    unfold attempts
    by_cases h1 : nfe > maxnfe
    · rw [if_pos h1]
      exact ⟨_, rfl, Or.inl ⟨rfl, rfl⟩, Or.inr rfl⟩
    · rw [if_neg h1]
      have hn : nfe ≤ 3000 := by unfold maxnfe at h1; omega
      simp only
      cases he : eeoet junk ae y yp (fehl f t h y yp yp).1 (fehl f t h y yp yp).2 with
      | none => exact ⟨_, rfl, Or.inr (Or.inl ⟨rfl, rfl⟩), Or.inl (by omega)⟩
      | some e =>
        simp only
        by_cases h2 : esttolOf h e scale ≤ 1
        · rw [if_pos h2]
          refine ⟨_, rfl, rfl, ⟨e, he, h2⟩, le_refl _, by omega, 1, one_pos, le_refl _, (one_mul _).symm,
            Or.inr rfl, id, ?_⟩
          intro a b; simp [a] at b
        · rw [if_neg h2]
          obtain ⟨s0, s1⟩ := shrink_pos (not_le.mp h2)
          by_cases h3 : |h * shrink (esttolOf h e scale)| ≤ hmin
          · rw [if_pos h3]
            exact ⟨_, rfl, Or.inr (Or.inr ⟨rfl, rfl⟩), Or.inl (by omega)⟩
          · rw [if_neg h3]
            obtain ⟨r, hr, hspec⟩ := ih (h * shrink (esttolOf h e scale)) true false (nfe + 5) (by omega)
            refine ⟨r, hr, ?_⟩
            cases r with
            | stop i k h' nfe' =>
              obtain ⟨q1, q2⟩ := hspec
              exact ⟨q1, Or.inl (by omega)⟩
            | ok h' e' fl output' s nfe' =>
              obtain ⟨q1, q2, q3, q4, r, r0, r1, r2, r3, r4, r5⟩ := hspec
              have ho : output' = false := by
                cases output' with
                | false => rfl
                | true => exact absurd (r4 rfl) (by decide)
              refine ⟨q1, q2, by omega, q4, r * shrink (esttolOf h e scale), by positivity, ?_, ?_, Or.inl ho, ?_, ?_⟩
              · nlinarith
              · rw [r2]; ring
              · intro a; simp [ho] at a
              · intro _ _; nlinarith

/-! ### The steps of a call -/

/-- One step accepted on the way to `tout`: a step of order 5 of a part of the way, which passed the test. -/
def Accepted {n : Nat} (junk : Nat → K) (f : K → (Fin n → K) → Fin n → K) (scale ae tout : K)
    (p q : K × (Fin n → K)) : Prop :=
  ∃ r, 0 < r ∧ r ≤ 1 ∧ q.1 = p.1 + r * (tout - p.1) ∧
    q.2 = rkStep f p.1 (r * (tout - p.1)) p.2 (table K) (weights5 K) ∧
    Passed junk f scale ae p.1 (r * (tout - p.1)) p.2 (f p.1 p.2)

theorem aim_spec (dt h : K) (hs : ∃ c, 0 < c ∧ h = c * dt) (hdt : dt ≠ 0) :
    ∃ r, 0 < r ∧ r ≤ 1 ∧ (aim dt h).1 = r * dt ∧ ((aim dt h).2 = true ∧ r = 1 ∨ (aim dt h).2 = false ∧ r < 1) := by
  obtain ⟨c, hc, rfl⟩ := hs
  have ha : |c * dt| = c * |dt| := by rw [abs_mul, abs_of_pos hc]
  have hd : 0 < |dt| := abs_pos.mpr hdt
  unfold aim
  rw [ha]
  split_ifs with h1 h2
  · refine ⟨c, hc, ?_, rfl, Or.inr ⟨rfl, ?_⟩⟩ <;> nlinarith
  · exact ⟨1 / 2, by norm_num, by norm_num, by ring, Or.inr ⟨rfl, by norm_num⟩⟩
  · exact ⟨1, one_pos, le_refl _, (one_mul _).symm, Or.inl ⟨rfl, rfl⟩⟩

theorem copysign_spec (a dt r : K) (ha : 0 < a) (hr : 0 < r) (hdt : dt ≠ 0) :
    ∃ c, 0 < c ∧ copysign a (r * dt) = c * dt := by
  unfold copysign
  rw [abs_of_pos ha]
  rcases lt_or_gt_of_ne hdt with h | h
  · rw [if_pos (mul_neg_of_pos_of_neg hr h)]
    refine ⟨-a / dt, div_pos_of_neg_of_neg (neg_neg_of_pos ha) h, ?_⟩
    field_simp
  · rw [if_neg (not_lt.mpr (mul_pos hr h).le)]
    exact ⟨a / dt, div_pos ha h, by field_simp⟩

/-- The result of the loop over the steps. -/
structure Ends {n : Nat} (junk : Nat → K) (f : K → (Fin n → K) → Fin n → K) (scale ae tout t : K) (y : Fin n → K)
    (o : Out K n) : Prop where
  ret : o.ret = 0
  flag : o.s.iflag = 2 ∧ o.t = tout ∨ o.s.iflag = -2 ∨ o.s.iflag = 4 ∨ o.s.iflag = 5 ∨ o.s.iflag = 6
  chain : Relation.ReflTransGen (Accepted junk f scale ae tout) (t, y) (o.t, o.y)
  nfe : o.s.nfe ≤ 3006

theorem steps_total {n : Nat} (junk : Nat → K) (f : K → (Fin n → K) → Fin n → K) (scale ae tout : K) (fuel : Nat) :
    ∀ (s : Solver K n) (t : K) (y : Fin n → K), 3000 < s.nfe + 5 * fuel → s.nfe ≤ 3006 → t ≠ tout → s.yp = f t y →
    (∃ c, 0 < c ∧ s.h = c * (tout - t)) →
    ∃ o, steps junk f scale ae tout (fuel + 1) s t y = some o ∧ Ends junk f scale ae tout t y o := by
  induction fuel with
  | zero =>
    intro s t y hf hle hne hyp hh
    obtain ⟨r, hr, hspec⟩ := attempts_total junk f (u26 * |t|) scale ae t y s.yp 0 (aim (tout - t) s.h).1 false
      (aim (tout - t) s.h).2 s.nfe hf
    unfold steps
    simp only
    rw [hr]
    cases r with
    | stop i k h' nfe' =>
      obtain ⟨q1, q2⟩ := hspec
      refine ⟨_, rfl, rfl, ?_, Relation.ReflTransGen.refl, ?_⟩
      · right; right; rcases q1 with q | q | q <;> simp [q.1]
      · show nfe' ≤ 3006; omega
    | ok h' e' fl output' sn nfe' =>
      obtain ⟨_, _, q3, q4, _⟩ := hspec
      omega
  | succ fuel ih =>
    intro s t y hf hle hne hyp hh
    have hdt : tout - t ≠ 0 := sub_ne_zero.mpr (Ne.symm hne)
    obtain ⟨ra, ra0, ra1, ra2, ra3⟩ := aim_spec (tout - t) s.h hh hdt
    obtain ⟨r, hr, hspec⟩ := attempts_total junk f (u26 * |t|) scale ae t y s.yp (fuel + 1) (aim (tout - t) s.h).1 false
      (aim (tout - t) s.h).2 s.nfe (by omega)
    unfold steps
    simp only
    rw [hr]
    cases r with
    | stop i k h' nfe' =>
      obtain ⟨q1, q2⟩ := hspec
      refine ⟨_, rfl, rfl, ?_, Relation.ReflTransGen.refl, ?_⟩
      · right; right; rcases q1 with q | q | q <;> simp [q.1]
      · show nfe' ≤ 3006; omega
    | ok h' e' fl output' sn nfe' =>
      obtain ⟨q1, q2, q3, q4, r, r0, r1, r2, r3, r4, r5⟩ := hspec
      simp only
      rw [ra2] at r2
      have hh' : h' = (r * ra) * (tout - t) := by rw [r2]; ring
      have hpos : 0 < r * ra := mul_pos r0 ra0
      have hle1 : r * ra ≤ 1 := by nlinarith
      have hacc : Accepted junk f scale ae tout (t, y) (t + h', sn) := by
        refine ⟨r * ra, hpos, hle1, by simp [hh'], ?_, ?_⟩
        · simp only [← hh', q1, hyp]
          exact fehl_is_step f t h' y
        · simp only [← hh']; rw [← hyp]; exact q2
      cases houtp : output' with
      | true =>
        rw [if_pos rfl]
        have hra1 : ra = 1 := by
          rcases ra3 with ⟨_, h⟩ | ⟨h, _⟩
          · exact h
          · have := r4 houtp; rw [h] at this; simp at this
        have hr1 : r = 1 := by
          rcases r3 with h | h
          · rw [houtp] at h; simp at h
          · exact h
        have ht : t + h' = tout := by rw [hh', hra1, hr1]; ring
        refine ⟨_, rfl, rfl, Or.inl ⟨rfl, rfl⟩, ?_, ?_⟩
        · rw [ht] at hacc
          exact Relation.ReflTransGen.single hacc
        · show nfe' + 1 ≤ 3006; omega
      | false =>
        rw [if_neg (by decide)]
        have hlt : r * ra < 1 := by
          rcases ra3 with ⟨h, h'⟩ | ⟨_, h⟩
          · have := r5 h houtp; rw [h']; linarith
          · nlinarith
        by_cases hi : s.iflag > 0
        · rw [if_pos hi]
          have hne' : t + h' ≠ tout := by
            intro heq
            have : (1 - r * ra) * (tout - t) = 0 := by
              have h2 : h' = tout - t := by linarith
              have h3 : (1 - r * ra) * (tout - t) = (tout - t) - h' := by rw [hh']; ring
              rw [h3, h2, sub_self]
            rcases mul_eq_zero.mp this with h | h
            · linarith
            · exact hdt h
          have hnext : tout - (t + h') = (1 - r * ra) * (tout - t) := by rw [hh']; ring
          obtain ⟨o, ho, hends⟩ := ih
            { s with yp := f (t + h') sn, nfe := nfe' + 1,
                     h := copysign (max (grow e' fl * |h'|) (u26 * |t|)) h' } (t + h') sn
            (by show 3000 < nfe' + 1 + 5 * fuel; omega) (by show nfe' + 1 ≤ 3006; omega) hne' rfl
            (by
              show ∃ c, 0 < c ∧ copysign (max (grow e' fl * |h'|) (u26 * |t|)) h' = c * (tout - (t + h'))
              have hh0 : h' ≠ 0 := by rw [hh']; exact mul_ne_zero hpos.ne' hdt
              have hm : 0 < max (grow e' fl * |h'|) (u26 * |t|) :=
                lt_max_of_lt_left (mul_pos (grow_pos fl) (abs_pos.mpr hh0))
              rw [hnext]
              obtain ⟨c, c0, c1⟩ := copysign_spec _ (tout - t) (r * ra) hm hpos hdt
              rw [← hh'] at c1
              have h1 : 0 < 1 - r * ra := by linarith
              refine ⟨c / (1 - r * ra), div_pos c0 h1, ?_⟩
              rw [c1]
              field_simp)
          refine ⟨o, ho, hends.ret, hends.flag, ?_, hends.nfe⟩
          exact Relation.ReflTransGen.head hacc hends.chain
        · rw [if_neg hi]
          refine ⟨_, rfl, rfl, Or.inr (Or.inl rfl), Relation.ReflTransGen.single hacc, ?_⟩
          show nfe' + 1 ≤ 3006; omega

theorem startStep_pos {n : Nat} (relerr abserr t dt : K) (y yp : Fin n → K) (hdt : dt ≠ 0) :
    0 < startStep relerr abserr t dt y yp := by
  unfold startStep
  apply lt_max_of_lt_right
  have h1 : 0 < max |t| |dt| := lt_max_of_lt_right (abs_pos.mpr hdt)
  have h2 : (0 : K) < u26 := by unfold u26 twoeps; positivity
  positivity

/-- The result of a call after the checks. -/
structure Went {n : Nat} (junk : Nat → K) (f : K → (Fin n → K) → Fin n → K) (relerr abserr t tout : K)
    (y : Fin n → K) (o : Out K n) : Prop where
  ret : o.ret = 0
  flag : o.s.iflag = 2 ∧ o.t = tout ∨ o.s.iflag = -2 ∨ o.s.iflag = 3 ∧ o.t = t ∧ o.y = y ∨ o.s.iflag = 4 ∨
    o.s.iflag = 5 ∨ o.s.iflag = 6
  path : Relation.ReflTransGen (Accepted junk f (2 / relerr) (2 / relerr * abserr) tout) (t, y) (o.t, o.y) ∨
    (|tout - t| ≤ u26 * |t| ∧ o.t = tout ∧ o.y = y + (tout - t) • f t y)
  nfe : o.s.iflag = 3 ∨ o.s.nfe ≤ 3006

theorem go_total {n : Nat} (junk : Nat → K) (f : K → (Fin n → K) → Fin n → K) (s : Solver K n) (t tout : K)
    (y : Fin n → K) : ∃ o, go junk f 601 s t tout y = some o ∧ Went junk f s.relerr s.abserr t tout y o := by
  unfold go
  simp only
  by_cases h1 : ¬ s.relerr ≥ twoeps + remin
  · rw [if_pos h1]
    exact ⟨_, rfl, rfl, Or.inr (Or.inr (Or.inl ⟨rfl, rfl, rfl⟩)), Or.inl Relation.ReflTransGen.refl, Or.inl rfl⟩
  · rw [if_neg h1]
    by_cases h2 : t = tout
    · rw [if_pos h2]
      exact ⟨_, rfl, rfl, Or.inl ⟨rfl, h2⟩, Or.inl Relation.ReflTransGen.refl, Or.inr (by show 1 ≤ 3006; omega)⟩
    · rw [if_neg h2]
      have hdt : tout - t ≠ 0 := sub_ne_zero.mpr (Ne.symm h2)
      rw [if_neg (by unfold prepare; simp only; split_ifs <;> omega)]
      by_cases h4 : |tout - t| ≤ u26 * |t|
      · rw [if_pos h4]
        exact ⟨_, rfl, rfl, Or.inl ⟨rfl, rfl⟩, Or.inr ⟨h4, rfl, rfl⟩, Or.inr (by show 1 + 1 ≤ 3006; omega)⟩
      · rw [if_neg h4]
        obtain ⟨o, ho, he⟩ := steps_total junk f (2 / s.relerr) (2 / s.relerr * s.abserr) tout 600
          (prepare f { s with jflag := s.iflag, kflag := 0, savre := s.relerr, savae := s.abserr } t tout y) t y
          (by show 3000 < 1 + 5 * 600; omega) (by show 1 ≤ 3006; omega) h2 rfl
          (by
            have := copysign_spec (startStep s.relerr s.abserr t (tout - t) y (f t y)) (tout - t) 1
              (startStep_pos _ _ _ _ _ _ hdt) one_pos hdt
            rwa [one_mul] at this)
        refine ⟨o, ho, he.ret, ?_, Or.inl he.chain, Or.inr he.nfe⟩
        rcases he.flag with h | h | h | h | h
        · exact Or.inl h
        · exact Or.inr (Or.inl h)
        · exact Or.inr (Or.inr (Or.inr (Or.inl h)))
        · exact Or.inr (Or.inr (Or.inr (Or.inr (Or.inl h))))
        · exact Or.inr (Or.inr (Or.inr (Or.inr (Or.inr h))))

/-- **C133** Every call ends, whatever the function and the members: after at most 601 steps and attempts.  The
value 1 means that nothing was done.  Otherwise flag 2 means that the output point is reached, and the solution
there or where the call stopped is the composition of steps of order 5, each over a part of the remaining way,
or one Euler step if the output point is closer than 26 roundings of the time.  The derivative is evaluated at
most 3006 times. -/
theorem call_total {n : Nat} (junk : Nat → K) (f : K → (Fin n → K) → Fin n → K) (s : Solver K n) (t tout : K)
    (y : Fin n → K) : ∃ o, rkfs junk f 601 s t tout y = some o ∧
      (o.ret = 1 ∧ o.t = t ∧ o.y = y ∨ Went junk f s.relerr s.abserr t tout y o) := by
  unfold rkfs
  simp only
  by_cases h : (enter s t tout).2 = true
  · rw [if_pos h]
    obtain ⟨o, ho, hw⟩ := go_total junk f (enter s t tout).1 t tout y
    have hrel : (enter s t tout).1.relerr = s.relerr ∧ (enter s t tout).1.abserr = s.abserr := by
      unfold enter; split_ifs <;> exact ⟨rfl, rfl⟩
    rw [hrel.1, hrel.2] at hw
    exact ⟨o, ho, Or.inr hw⟩
  · rw [if_neg h]
    exact ⟨_, rfl, Or.inl ⟨rfl, rfl, rfl⟩⟩

theorem chain_segment {n : Nat} (junk : Nat → K) (f : K → (Fin n → K) → Fin n → K) (scale ae tout : K)
    (p q : K × (Fin n → K)) (h : Relation.ReflTransGen (Accepted junk f scale ae tout) p q) :
    ∃ r, 0 ≤ r ∧ r ≤ 1 ∧ q.1 = p.1 + r * (tout - p.1) := by
  induction h with
  | refl => exact ⟨0, le_refl _, zero_le_one, by ring⟩
  | tail _ hb ih =>
    obtain ⟨r, r0, r1, r2⟩ := ih
    obtain ⟨u, u0, u1, u2, _⟩ := hb
    refine ⟨r + u * (1 - r), ?_, ?_, ?_⟩
    · nlinarith
    · nlinarith
    · rw [u2, r2]; ring

/-- **C133** The time never leaves the interval between its value at the call and the output point. -/
theorem time_in_interval {n : Nat} (junk : Nat → K) (f : K → (Fin n → K) → Fin n → K) (s : Solver K n) (t tout : K)
    (y : Fin n → K) (o : Out K n) (h : rkfs junk f 601 s t tout y = some o) :
    ∃ r, 0 ≤ r ∧ r ≤ 1 ∧ o.t = t + r * (tout - t) := by
  obtain ⟨o', ho', h'⟩ := call_total junk f s t tout y
  rw [h] at ho'
  obtain rfl := Option.some.inj ho'
  rcases h' with ⟨_, ht, _⟩ | hw
  · exact ⟨0, le_refl _, zero_le_one, by rw [ht]; ring⟩
  · rcases hw.path with hc | ⟨_, ht, _⟩
    · exact chain_segment junk f _ _ tout _ _ hc
    · exact ⟨1, zero_le_one, le_refl _, by rw [ht]; ring⟩

/-- **C133** The warning of too many output points, flag 7, is never given by a call that does something: the
counter is set to zero at the beginning of every call and compared with 100. -/
theorem too_many_points_counterexample {n : Nat} (junk : Nat → K) (f : K → (Fin n → K) → Fin n → K) (s : Solver K n)
    (t tout : K) (y : Fin n → K) (o : Out K n) (h : rkfs junk f 601 s t tout y = some o) (hr : o.ret = 0) :
    o.s.iflag ≠ 7 := by
  obtain ⟨o', ho', h'⟩ := call_total junk f s t tout y
  rw [h] at ho'
  obtain rfl := Option.some.inj ho'
  rcases h' with ⟨h1, _, _⟩ | hw
  · omega
  · rcases hw.flag with h | h | h | h | h | h <;> omega

/-- **C133** After flag 6, 7 or 8 every later call returns 1 without doing anything.  The caller cannot set the
flag or the tolerances, which are private. -/
theorem stuck_counterexample {n : Nat} (junk : Nat → K) (f : K → (Fin n → K) → Fin n → K) (fuel : Nat)
    (s : Solver K n) (h : s.iflag = 6 ∨ s.iflag = 7 ∨ s.iflag = 8) (t tout : K) (y : Fin n → K) :
    ∃ s', rkfs junk f fuel s t tout y = some ⟨1, s', t, y⟩ ∧ (s'.iflag = 6 ∨ s'.iflag = 7 ∨ s'.iflag = 8) := by
  have he : (enter s t tout).2 = false ∧ ((enter s t tout).1.iflag = 6 ∨ (enter s t tout).1.iflag = 7 ∨
      (enter s t tout).1.iflag = 8) := by
    unfold enter
    by_cases h0 : n < 1 ∨ (s.iflag < -2 ∨ s.iflag > 8) ∨ (s.relerr < 0 ∨ s.abserr < 0) ∨ (t = tout ∧ s.kflag ≠ 3)
    · rw [if_pos h0]; exact ⟨rfl, Or.inr (Or.inr rfl)⟩
    · rw [if_neg h0, if_neg (by omega), if_neg (by omega), if_neg (by omega), if_neg (by omega), if_neg (by omega)]
      exact ⟨rfl, h⟩
  refine ⟨(enter s t tout).1, ?_, he.2⟩
  unfold rkfs
  simp only
  rw [if_neg (by rw [he.1]; decide)]

/-! ### Tolerances -/

/-- **C133** One equation: an accepted step is within the tolerance asked for, the difference of the steps of order
5 and 4 being at most `relerr` times the mean of the magnitudes at its ends plus `abserr`.  Missing: two or more
equations, for which it is false. -/
theorem tolerance_partial (junk : Nat → K) (f : K → (Fin 1 → K) → Fin 1 → K) (relerr abserr tout : K)
    (hrel : 0 < relerr) (p q : K × (Fin 1 → K))
    (h : Accepted junk f (2 / relerr) (2 / relerr * abserr) tout p q) :
    |rkStep f p.1 (q.1 - p.1) p.2 (table K) (weights5 K) 0 - rkStep f p.1 (q.1 - p.1) p.2 (table K) (weights4 K) 0| ≤
      relerr * ((|p.2 0| + |q.2 0|) / 2) + abserr := by
  obtain ⟨r, _, _, h1, h2, e, h3, h4⟩ := h
  have hq : q.1 - p.1 = r * (tout - p.1) := by rw [h1]; ring
  rw [hq]
  generalize r * (tout - p.1) = u at *
  have hd := congrFun (error_is_difference f p.1 u p.2) 0
  rw [← fehl_is_step] at h2
  simp only [eeoet, List.finRange_succ, List.finRange_zero, List.map_nil, List.foldl_cons, List.foldl_nil,
    Option.bind_some] at h3
  have het : etOf junk (2 / relerr * abserr) p.2 (fehl f p.1 u p.2 (f p.1 p.2) (f p.1 p.2)).1
      (fehl f p.1 u p.2 (f p.1 p.2) (f p.1 p.2)).2 0 = |p.2 0| + |q.2 0| + 2 / relerr * abserr := by
    rw [h2]; rfl
  rw [het] at h3
  split_ifs at h3 with h5
  obtain rfl := Option.some.inj h3
  have hpos := not_le.mp h5
  rw [max_eq_right (div_nonneg (abs_nonneg _) hpos.le)] at h4
  unfold esttolOf at h4
  simp only [Pi.smul_apply, Pi.sub_apply, smul_eq_mul] at hd
  rw [abs_sub_comm, ← hd, abs_mul, abs_div, abs_of_pos (show (0 : K) < 752400 by norm_num)]
  rw [div_le_one (by norm_num)] at h4
  generalize hE : |errSum (K := K) (f p.1 p.2) (fehl f p.1 u p.2 (f p.1 p.2) (f p.1 p.2)).2 0| = x at *
  generalize |p.2 0| + |q.2 0| = m at *
  have h6 : |u| * (x / (m + 2 / relerr * abserr)) * (2 / relerr) = 2 * (|u| * x) / (relerr * m + 2 * abserr) := by
    have : relerr * (m + 2 / relerr * abserr) = relerr * m + 2 * abserr := by field_simp
    rw [← this]
    field_simp
  have hpos' : 0 < relerr * m + 2 * abserr := by
    have := mul_pos hrel hpos
    have h7 : relerr * (m + 2 / relerr * abserr) = relerr * m + 2 * abserr := by field_simp
    rwa [h7] at this
  rw [h6, div_le_iff₀ hpos'] at h4
  linarith

/-- An accepted step, over half of the way. -/
example : Accepted (K := ℚ) (n := 1) (fun _ => 0) (fun _ _ _ => 1) (2 / (1 / 1000)) (2 / (1 / 1000) * (1 / 1000)) 1
    (0, fun _ => 0) (1 / 2, fun _ => 1 / 2) :=
  ⟨1 / 2, by norm_num, by norm_num, by norm_num, by decide +kernel, 0, by decide +kernel, by decide +kernel⟩

/-- An attempt was accepted. -/
def isOk {n : Nat} : Option (Tried K n) → Bool
  | some (.ok ..) => true
  | _ => false

/-- **C133** Two equations: the magnitude of the second component at the end of the step is taken from a derivative
of the first (`F(0, i)` for `F(i, 0)`).  A step is accepted whose error is more than a thousand times the
tolerance. -/
theorem tolerance_counterexample : ∃ (f : ℚ → (Fin 2 → ℚ) → Fin 2 → ℚ) (relerr abserr : ℚ), 0 < relerr ∧ 0 < abserr ∧
    isOk (attempts (fun _ => 0) f 0 (2 / relerr) (2 / relerr * abserr) 0 (fun _ => 0) (f 0 (fun _ => 0)) 1 1 false true 1)
      = true ∧
    |rkStep f 0 1 (fun _ => 0) (table ℚ) (weights5 ℚ) 1 - rkStep f 0 1 (fun _ => 0) (table ℚ) (weights4 ℚ) 1| >
      1000 * (relerr * ((0 + |rkStep f 0 1 (fun _ => 0) (table ℚ) (weights5 ℚ) 1|) / 2) + abserr) :=
  ⟨fun t _ i => if i = 0 then 1000 else t ^ 4, 1 / 1000000, 1 / 1000000000, by norm_num, by norm_num,
    by decide +kernel, by decide +kernel⟩

/-- **C133** Six equations: memory behind the matrix decides whether a step is accepted. -/
theorem beyond_matrix_counterexample : ∃ (f : ℚ → (Fin 6 → ℚ) → Fin 6 → ℚ) (scale ae : ℚ) (junk junk' : Nat → ℚ),
    isOk (attempts junk f 0 scale ae 0 (fun _ => 0) (f 0 (fun _ => 0)) 1 1 false true 1) = true ∧
    isOk (attempts junk' f 0 scale ae 0 (fun _ => 0) (f 0 (fun _ => 0)) 1 1 false true 1) = false :=
  ⟨fun t _ i => if i = 5 then t ^ 4 else 0, 2000000, 2 / 1000, fun _ => 1000, fun _ => 0, by decide +kernel,
    by decide +kernel⟩

/-! ### Step sizes -/

/-- **C133** "The decrease is limited to a factor of 1/10": an error of ten times the tolerance reduces the step to
less than a hundredth (the square was taken instead of the fifth root). -/
theorem decrease_counterexample : ∃ e : ℚ, 1 < e ∧ shrink e < 1 / 100 := ⟨10, by decide +kernel, by decide +kernel⟩

/-- **C133** "The increase is limited to a factor of 5": after an error of a tenth of the tolerance the next step is
90 times as long. -/
theorem increase_counterexample : ∃ e : ℚ, e ≤ 1 ∧ grow e false = 90 := ⟨1 / 10, by decide +kernel, by decide +kernel⟩

/-- **C133** After a failure the next step is not longer than the one accepted. -/
theorem no_increase_after_failure (e : K) : grow e true ≤ 1 := by
  unfold grow; exact min_le_right _ _

/-- **C133** The first step is not limited to an expected error within the tolerance: here it is a thousand million
times as much. -/
theorem first_step_counterexample : ∃ (y yp : Fin 1 → ℚ) (relerr abserr dt : ℚ), 0 < relerr ∧ 0 < abserr ∧
    |yp 0| * startStep relerr abserr 0 dt y yp ^ 5 = 1000000000 * (relerr * |y 0| + abserr) :=
  ⟨fun _ => 0, fun _ => 1, 1 / 1000000, 10, 100, by norm_num, by norm_num, by decide +kernel⟩

/-- **C133** Where no component has a tolerance above zero, the first step is the smallest one, 26 units of the last
place of the times. -/
theorem first_step_without_tolerance {n : Nat} (relerr abserr t dt : K) (y yp : Fin n → K)
    (h : ∀ i, relerr * |y i| + abserr ≤ 0) :
    startStep relerr abserr t dt y yp = 26 / 4503599627370496 * max |t| |dt| := by
  have hf : ∀ (l : List (Fin n)) (x : K × K), l.foldl (fun x i => startOne relerr abserr (y i) (yp i) x) x = x := by
    intro l
    induction l with
    | nil => intro x; rfl
    | cons i l ih =>
      intro x
      rw [List.foldl_cons, ih]
      unfold startOne
      dsimp only
      rw [if_neg (not_lt.mpr (h i))]
  have hu : (u26 : K) = 26 / 4503599627370496 := by unfold u26 twoeps; norm_num
  unfold startStep
  dsimp only
  rw [hf, if_pos (le_refl _), hu]
  apply max_eq_right
  have : 0 ≤ max |t| |dt| := le_max_of_le_left (abs_nonneg t)
  positivity

example : ∀ i : Fin 2, (1 / 1000 : ℚ) * |(fun _ => (0 : ℚ)) i| + 0 ≤ 0 := by intro i; norm_num

/-- **C133** The counter of output points after the preparation: 1 exactly if the interval is at most half the step,
otherwise 0, whatever it was before. -/
theorem output_counter {n : Nat} (f : K → (Fin n → K) → Fin n → K) (s : Solver K n) (t tout : K) (y : Fin n → K) :
    (prepare f s t tout y).kop ≤ 1 ∧
      ((prepare f s t tout y).kop = 1 ↔ 2 * |tout - t| ≤ |(prepare f s t tout y).h|) := by
  unfold prepare
  dsimp only
  split
  · rename_i h; exact ⟨le_refl _, ⟨fun _ => h, fun _ => rfl⟩⟩
  · rename_i h; exact ⟨Nat.zero_le _, ⟨fun h' => absurd h' (by decide), fun h' => absurd h' h⟩⟩

/-! ### Members that are not set -/

/-- **C133** For a new solver asked for the time it is at, the result depends on a member that the constructor does
not set: it is either an error or success. -/
theorem unset_member_counterexample : ∃ (s s' : Solver ℚ 1), s.IsNew (1 / 1000) 0 ∧ s'.IsNew (1 / 1000) 0 ∧
    (rkfs (fun _ => 0) (fun _ _ _ => 0) 601 s 0 0 (fun _ => 0)).map (fun o => (o.ret, o.s.iflag)) = some (1, 8) ∧
    (rkfs (fun _ => 0) (fun _ _ _ => 0) 601 s' 0 0 (fun _ => 0)).map (fun o => (o.ret, o.s.iflag)) = some (0, 2) :=
  ⟨⟨1, 0, 0, 0, 0, false, 1 / 1000, 0, 0, 0, 0, fun _ => 0⟩, ⟨1, 0, 3, 0, 0, false, 1 / 1000, 0, 0, 0, 0, fun _ => 0⟩,
    ⟨rfl, rfl, rfl⟩, ⟨rfl, rfl, rfl⟩, by decide +kernel, by decide +kernel⟩

/-! ### Resuming -/

/-- **C133** A call made with the flag of an interrupted one (3, 4, or 5 once there is an absolute tolerance) is the
call with the flag that was asked for before the interruption. -/
theorem resume_after_interruption {n : Nat} (junk : Nat → K) (f : K → (Fin n → K) → Fin n → K) (fuel : Nat)
    (s : Solver K n) (t tout : K) (y : Fin n → K) (hj : s.jflag = 2 ∨ s.jflag = -2) (hi : s.init = true)
    (hs : (s.iflag = 3 ∧ s.kflag = 3) ∨ (s.iflag = 4 ∧ s.kflag = 4) ∨ (s.iflag = 5 ∧ s.kflag = 0 ∧ s.abserr > 0))
    (ht : t ≠ tout) :
    rkfs junk f fuel s t tout y = rkfs junk f fuel { s with iflag := s.jflag } t tout y := by
  have he : enter s t tout = enter { s with iflag := s.jflag } t tout ∨
      (n < 1 ∨ s.relerr < 0 ∨ s.abserr < 0) := by
    by_cases hb : n < 1 ∨ s.relerr < 0 ∨ s.abserr < 0
    · exact Or.inr hb
    · left
      have c1 : ¬ (n < 1 ∨ (s.iflag < -2 ∨ s.iflag > 8) ∨ (s.relerr < 0 ∨ s.abserr < 0) ∨ (t = tout ∧ s.kflag ≠ 3)) := by
        rintro (h | h | h | h)
        · exact hb (Or.inl h)
        · omega
        · exact hb (Or.inr h)
        · exact ht h.1
      have c2 : ¬ (n < 1 ∨ (s.jflag < -2 ∨ s.jflag > 8) ∨ (s.relerr < 0 ∨ s.abserr < 0) ∨ (t = tout ∧ s.kflag ≠ 3)) := by
        rintro (h | h | h | h)
        · exact hb (Or.inl h)
        · omega
        · exact hb (Or.inr h)
        · exact ht h.1
      unfold enter
      rw [if_neg c1]
      dsimp only
      rw [if_neg c2, if_neg (show ¬ (s.jflag = 1 ∨ s.jflag = -1) by omega), if_pos hj]
      rcases hs with ⟨h, k⟩ | ⟨h, k⟩ | ⟨h, k, ha⟩
      · simp [h, k]
      · simp [h, k, hi]
      · simp [h, k, hi, ha]
  rcases he with he | hb
  · unfold rkfs
    rw [he]
  · have e8 : ∀ i : Int, enter { s with iflag := i } t tout = ({ s with iflag := 8 }, false) := by
      intro i
      unfold enter
      dsimp only
      rw [if_pos]
      rcases hb with h | h
      · exact Or.inl h
      · exact Or.inr (Or.inr (Or.inl h))
    have h1 := e8 s.iflag
    have h2 := e8 s.jflag
    unfold rkfs
    rw [h2]
    change enter s t tout = _ at h1
    rw [h1]

example : (⟨4, 2, 4, 0, 0, true, 1 / 1000, 0, 0, 0, 0, fun _ => 0⟩ : Solver ℚ 1).jflag = 2 ∧
    (⟨4, 2, 4, 0, 0, true, 1 / 1000, 0, 0, 0, 0, fun _ => 0⟩ : Solver ℚ 1).iflag = 4 ∧
    (⟨4, 2, 4, 0, 0, true, 1 / 1000, 0, 0, 0, 0, fun _ => 0⟩ : Solver ℚ 1).kflag = 4 := by decide

/-! ### Examples -/

/-- A new solver that integrates `y' = t⁴` from 0 to 1. -/
example : (rkfs (fun _ => 0) (fun t _ _ => t ^ 4) 601
    (⟨1, 0, 0, 0, 0, false, 1 / 1000, 1 / 1000, 0, 0, 0, fun _ => 0⟩ : Solver ℚ 1) 0 1 (fun _ => 0)).map
    (fun o => (o.ret, o.s.iflag, o.t, o.y 0)) = some (0, 2, 1, 1 / 5) := by
  decide +kernel

/-- A call that ends with flag 6: the derivative jumps at the beginning. -/
example : (rkfs (fun _ => 0) (fun t _ _ => if t = 1 then 0 else 10 ^ 30) 601
    (⟨1, 0, 0, 0, 0, false, 1 / 1000000, 1 / 1000000, 0, 0, 0, fun _ => 0⟩ : Solver ℚ 1) 1 2 (fun _ => 0)).map
    (fun o => (o.ret, o.s.iflag)) = some (0, 6) := by
  decide +kernel

end Verif.Rkf
