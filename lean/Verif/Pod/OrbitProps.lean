import Verif.Pod.OrbitModel
import Verif.Variational.Props
import Verif.Forces.Frames
import Mathlib.Tactic.IntervalCases
import Mathlib.Tactic.NormNum

/-
C102: the transition matrix the filter gets; C103: antenna and centre of gravity.
-/
namespace Verif.Pod

open Verif.Astro Verif.Forces Verif.Variational Verif.Filters Matrix

/-! ### C102 -/

/-- The initial values: state, five columns of the identity, zeros. -/
theorem initial_eq (y : V3 × V3) (n : Nat) :
    initial y n = if n < 6 then stateComp y n
      else if n < 36 ∧ (n - 6) / 6 = (n - 6) % 6 then 1 else 0 := by
  by_cases h : n < 36
  · have : ∀ m < 36, initial y m = if m < 6 then stateComp y m
        else if m < 36 ∧ (m - 6) / 6 = (m - 6) % 6 then 1 else 0 := by
      intro m hm
      interval_cases m <;> simp [initial, identityLoop, set, stateComp, List.range, List.range.loop, List.range']
    exact this n h
  · have h6 : ¬ n < 6 := by omega
    rw [if_neg h6, if_neg (fun c => h c.1)]
    unfold initial identityLoop
    have hset : ∀ (y : Nat → ℝ) (k : Nat) (a : ℝ), k < 36 → set y k a n = y n := by
      intro y k a hk
      unfold set
      rw [if_neg (by omega)]
    simp only [List.range, List.range.loop, List.range', List.flatMap_cons, List.flatMap_nil, List.map_cons, List.map_nil,
      List.cons_append, List.nil_append, List.append_nil, List.foldl_cons, List.foldl_nil]
    repeat rw [hset _ _ _ (by omega)]
    split <;> first | omega | rfl

/-- **C102** The transition matrix that a successful propagation leaves for the filter is the matrix of
the *start* of the integration, whatever the integrator, the forces and the interval: the identity
with a zero in the last diagonal place; the partials of the drag parameter are zero. -/
theorem transition_counterexample (X : Ext) (s s' : Sv) (target : ℝ) (h : X.integrate s target = some (0, s')) :
    (∀ i < 6, ∀ j < 6, s'.Phi i j = if i = j ∧ i < 5 then 1 else 0) ∧ (∀ i < 6, s'.S i 0 = 0) := by
  unfold Ext.integrate at h
  split at h
  · cases h
  rename_i y0 h0
  simp only at h
  split at h
  · cases h
  split at h
  · cases h
  cases h
  constructor
  · intro i hi j hj
    show initial y0 (6 * (j + 1) + i) = _
    rw [initial_eq, if_neg (by omega)]
    have h1 : (6 * (j + 1) + i - 6) / 6 = j := by omega
    have h2 : (6 * (j + 1) + i - 6) % 6 = i := by omega
    rw [h1, h2]
    by_cases hij : i = j
    · subst hij
      by_cases h5 : i < 5
      · rw [if_pos ⟨by omega, rfl⟩, if_pos ⟨rfl, h5⟩]
      · rw [if_neg (fun c => by omega), if_neg (fun c => h5 c.2)]
    · rw [if_neg (fun c => hij c.2.symm), if_neg (fun c => hij c.1)]
  · intro i hi
    show initial y0 (6 * (0 + 1) + 36 + i) = 0
    rw [initial_eq, if_neg (by omega), if_neg (fun c => by omega)]

/-- **C102** In particular it is not that of the solution, as soon as the final velocity along the last
axis depends on the initial one. -/
theorem transition_not_solution_counterexample (X : Ext) (s s' : Sv) (target : ℝ) (y0 : V3 × V3)
    (h : X.integrate s target = some (0, s')) (_h0 : X.start s = some y0)
    (hne : phi (X.de s.mjd (initial y0) ((target - s.mjd) * 86400)).2 5 5 ≠ 0) :
    ∃ i < 6, ∃ j < 6,
      s'.Phi i j ≠ phi (X.de s.mjd (initial y0) ((target - s.mjd) * 86400)).2 i j := by
  refine ⟨5, by omega, 5, by omega, ?_⟩
  rw [(transition_counterexample X s s' target h).1 5 (by omega) 5 (by omega)]
  simp only [lt_self_iff_false, and_false, if_false]
  exact fun h => hne h.symm

/-- Row and column of the last velocity component vanish. -/
def Uncorrelated {T : Type} {n : Nat} (f : Ekf T n) (k : Fin n) : Prop := ∀ j, f.P k j = 0 ∧ f.P j k = 0

/-- **C102** The time update of an epoch therefore wipes out the variance of the last velocity
component and all its correlations. -/
theorem covariance_wiped {T : Type} {n : Nat} (X : Ext) (s s' : Sv) (target : ℝ)
    (h : X.integrate s target = some (0, s')) (f : Ekf T n) (t : T) (k : Fin n) (hk : k.val = 5) :
    Uncorrelated (epochUpdate f t s') k := by
  have hrow : ∀ j : Fin n, bigPhi n s'.Phi k j = 0 := by
    intro j
    unfold bigPhi
    have h6 : k.val < 6 := by omega
    by_cases hj : j.val < 6
    · rw [if_pos ⟨h6, hj⟩, (transition_counterexample X s s' target h).1 k h6 j hj,
        if_neg (fun c => by omega)]
    · rw [if_neg (fun c => hj c.2), if_neg (fun c => hj (by rw [← c]; exact h6))]
  intro j
  show (bigPhi n s'.Phi * f.P * (bigPhi n s'.Phi)ᵀ) k j = 0 ∧ (bigPhi n s'.Phi * f.P * (bigPhi n s'.Phi)ᵀ) j k = 0
  constructor
  · rw [Matrix.mul_assoc, Matrix.mul_apply]
    exact Finset.sum_eq_zero fun i _ => by rw [hrow, zero_mul]
  · rw [Matrix.mul_apply]
    exact Finset.sum_eq_zero fun i _ => by rw [Matrix.transpose_apply, hrow, mul_zero]

/-- An observation does not change an uncorrelated component. -/
theorem observation_uncorrelated {T : Type} {n : Nat} (f : Ekf T n) (k : Fin n) (h : Uncorrelated f k)
    (z g sigma : ℝ) (H : Fin n → ℝ) :
    (f.observationUpdate z g sigma H).x k = f.x k ∧ Uncorrelated (f.observationUpdate z g sigma H) k := by
  have hPH : (f.P *ᵥ H) k = 0 := by
    show (∑ i, f.P k i * H i) = 0
    exact Finset.sum_eq_zero fun i _ => by rw [(h i).1, zero_mul]
  have hK : ∀ d : ℝ, (f.P *ᵥ H) k / d = 0 := fun d => by rw [hPH, zero_div]
  refine ⟨?_, ?_⟩
  · show f.x k + (f.P *ᵥ H) k / _ * (z - g) = f.x k
    rw [hK]
    ring
  · generalize hKdef : (fun i => (f.P *ᵥ H) i / (sigma * sigma + H ⬝ᵥ (f.P *ᵥ H))) = K
    have hKk : K k = 0 := by rw [← hKdef]; exact hK _
    have hP : (f.observationUpdate z g sigma H).P
        = (1 - vecMulVec K H) * f.P * (1 - vecMulVec K H)ᵀ
          + vecMulVec (fun i => K i * sigma) (fun i => K i * sigma) := by
      rw [← hKdef]
      rfl
    have hrow : ∀ i, (1 - vecMulVec K H) k i = if k = i then 1 else 0 := by
      intro i
      rw [Matrix.sub_apply, Matrix.vecMulVec_apply, hKk, zero_mul, sub_zero, Matrix.one_apply]
    intro j
    rw [hP]
    constructor
    · rw [Matrix.add_apply, Matrix.vecMulVec_apply, hKk, zero_mul, zero_mul, add_zero, Matrix.mul_apply]
      refine Finset.sum_eq_zero fun i _ => ?_
      rw [Matrix.mul_apply, Finset.sum_eq_zero, zero_mul]
      intro l _
      rw [hrow]
      split
      · rename_i hl
        subst hl
        rw [(h i).1, mul_zero]
      · rw [zero_mul]
    · rw [Matrix.add_apply, Matrix.vecMulVec_apply, hKk, zero_mul, mul_zero, add_zero, Matrix.mul_assoc,
        Matrix.mul_apply]
      refine Finset.sum_eq_zero fun i _ => ?_
      rw [Matrix.mul_apply, Finset.sum_eq_zero, mul_zero]
      intro l _
      rw [Matrix.transpose_apply, hrow]
      split
      · rename_i hl
        subst hl
        rw [(h i).2, zero_mul]
      · rw [mul_zero]

/-- **C102** No observation ever corrects the last velocity component: after any number of observations
of the epoch its estimate is still the propagated value. -/
theorem velocity_never_corrected {T : Type} {n : Nat} (X : Ext) (s s' : Sv) (target : ℝ)
    (h : X.integrate s target = some (0, s')) (f : Ekf T n) (t : T) (k : Fin n) (hk : k.val = 5)
    (obs : List (ℝ × ℝ × ℝ × (Fin n → ℝ))) :
    (observe (epochUpdate f t s') obs).x k = s'.state.2.z := by
  have hgen : ∀ g : Ekf T n, Uncorrelated g k → (observe g obs).x k = g.x k := by
    induction obs with
    | nil => intro g _; rfl
    | cons o l ih =>
      intro g hg
      obtain ⟨h1, h2⟩ := observation_uncorrelated g k hg o.1 o.2.1 o.2.2.1 o.2.2.2
      show (observe (g.observationUpdate o.1 o.2.1 o.2.2.1 o.2.2.2) l).x k = _
      rw [ih _ h2, h1]
  rw [hgen _ (covariance_wiped X s s' target h f t k hk)]
  show (if k.val < 6 then stateComp s'.state k else f.x k) = _
  rw [if_pos (by omega), hk]
  rfl

/-- **C102** (partial: the parameters that are not propagated) the time update puts the propagated state
into the first six estimates and leaves the other estimates, their covariances and the epoch right.
Missing: the transition matrix of the state. -/
theorem epoch_partial {T : Type} {n : Nat} (f : Ekf T n) (t : T) (s : Sv) :
    (epochUpdate f t s).t = t ∧
    (∀ i : Fin n, i.val < 6 → (epochUpdate f t s).x i = stateComp s.state i) ∧
    (∀ i : Fin n, 6 ≤ i.val → (epochUpdate f t s).x i = f.x i) ∧
    (∀ i j : Fin n, 6 ≤ i.val → 6 ≤ j.val → (epochUpdate f t s).P i j = f.P i j) := by
  refine ⟨rfl, fun i hi => if_pos hi, fun i hi => if_neg (by omega), fun i j hi hj => ?_⟩
  have hrow : ∀ a : Fin n, 6 ≤ a.val → ∀ b, bigPhi n s.Phi a b = if a = b then 1 else 0 := by
    intro a ha b
    unfold bigPhi
    rw [if_neg (fun c => by omega)]
  show (bigPhi n s.Phi * f.P * (bigPhi n s.Phi)ᵀ) i j = _
  rw [Matrix.mul_apply, Finset.sum_eq_single j]
  · rw [Matrix.transpose_apply, hrow j hj, if_pos rfl, mul_one, Matrix.mul_apply, Finset.sum_eq_single i]
    · rw [hrow i hi, if_pos rfl, one_mul]
    · intro b _ hb
      rw [hrow i hi, if_neg (Ne.symm hb), zero_mul]
    · intro hc
      exact absurd (Finset.mem_univ i) hc
  · intro b _ hb
    rw [Matrix.transpose_apply, hrow j hj, if_neg (Ne.symm hb), mul_zero]
  · intro hc
    exact absurd (Finset.mem_univ j) hc

/-! ### C103 -/

/-- **C103** The vector from antenna to centre of gravity keeps its length in the celestial frame, and
does not depend on the length of the quaternion. -/
theorem ecc_norm (X : Ext) (q : Quat) (hq : 0 < q.w * q.w + q.v.dot q.v) :
    (X.ecc q).norm = (X.cog.sub X.arp).norm := by
  have h1 : 0 < q.conj.w * q.conj.w + q.conj.v.dot q.conj.v := by
    simp only [Quat.conj, V3.smul, V3.dot] at hq ⊢
    linarith
  have h2 := normalized_unit q.conj h1
  unfold Ext.ecc V3.norm
  rw [apply_dot _ h2]

/-- **C103** On the first call the integration starts at the given state, taken as that of the centre of
gravity; on later calls the antenna vector is added. -/
theorem start_spec (X : Ext) (s : Sv) :
    (s.calls = 0 → X.start s = some (X.toCel s.mjd s.state)) ∧
    (∀ q, s.calls ≠ 0 → X.quat s.mjd = some q →
      X.start s = some ((X.toCel s.mjd s.state).1.add (X.ecc q), (X.toCel s.mjd s.state).2)) := by
  refine ⟨fun h => ?_, fun q h hq => ?_⟩
  · unfold Ext.start
    simp [h]
  · unfold Ext.start
    simp [h, hq]

/-- **C103** The propagated state is that of the antenna: in the celestial frame it is the solution less
the antenna vector; and if the filter does not change it, the next call starts exactly where this
one ended.  (Partial: the
temporaries of C57 are supposed to keep their values; the frames are rotations.) -/
theorem integrate_continues_partial (X : Ext) (s s' : Sv) (target : ℝ) (h : X.integrate s target = some (0, s'))
    (htmp : X.tmp = id) (hc : ∀ t, M3.Orthogonal (X.rc2i t)) (hp : ∀ t, M3.Orthogonal (X.rpom t)) :
    ∃ y0 q, X.start s = some y0 ∧ X.quat s'.mjd = some q ∧ s'.calls = s.calls + 1 ∧
      X.toCel s'.mjd s'.state
        = ((vec (X.de s.mjd (initial y0) ((target - s.mjd) * 86400)).2 0).sub (X.ecc q),
           vec (X.de s.mjd (initial y0) ((target - s.mjd) * 86400)).2 3) ∧
      X.start s' = some (vec (X.de s.mjd (initial y0) ((target - s.mjd) * 86400)).2 0,
        vec (X.de s.mjd (initial y0) ((target - s.mjd) * 86400)).2 3) := by
  unfold Ext.integrate at h
  split at h
  · cases h
  rename_i y0 h0
  simp only at h
  split at h
  · cases h
  split at h
  · cases h
  rename_i q hq
  cases h
  have hback : ∀ (t : ℝ) (y : V3 × V3), X.toCel t (X.toTer t y) = y := by
    intro t y
    unfold Ext.toCel Ext.toTer
    rw [htmp]
    exact state_round_trip_partial _ y _ _ _ (hc t) (hp t)
  refine ⟨y0, q, h0, hq, rfl, hback _ _, ?_⟩
  unfold Ext.start
  simp only [hback, hq]
  rw [if_neg (by omega)]
  simp only [Option.map_some, Option.some.injEq, Prod.mk.injEq, and_true]
  ext <;> simp [V3.add, V3.sub]

/-- **C103** A propagation that does not reach its end leaves everything as it was and says so; one that
does ends within 1e-12 days of the requested date. -/
theorem integrate_reached (X : Ext) (s s' : Sv) (target : ℝ) (code : Nat)
    (h : X.integrate s target = some (code, s')) :
    (code = 0 ∧ |s'.mjd - target| ≤ 1e-12) ∨ (code = 1 ∧ s' = s) := by
  unfold Ext.integrate at h
  split at h
  · cases h
  simp only at h
  split at h
  · cases h
    exact Or.inr ⟨rfl, rfl⟩
  · rename_i hle
    split at h
    · cases h
    cases h
    exact Or.inl ⟨rfl, not_lt.1 hle⟩

/-! ### Example -/

/-- Force-free motion, no rotation, constant attitude. -/
noncomputable def free : Ext where
  w0 := 0
  tmp := id
  rc2i := fun _ => M3.one
  era := fun _ => 0
  rpom := fun _ => M3.one
  lod := fun _ => 0
  quat := fun _ => some ⟨1, ⟨0, 0, 0⟩⟩
  de := fun _ y t => (t, fun n => if n < 3 then y n + t * y (n + 3) else if n = 41 then 1 else y n)
  cog := ⟨1, 0, 0⟩
  arp := ⟨0, 0, 1⟩

example : ∃ s', free.integrate ⟨0, (⟨1, 2, 3⟩, ⟨4, 5, 6⟩), fun _ _ => 0, fun _ _ => 0, 0⟩ 1 = some (0, s') := by
  have h : ¬ |(0 : ℝ) + (1 - 0) * 86400 / 86400 - 1| > 1e-12 := by norm_num
  unfold Ext.integrate
  simp only [Ext.start, if_true]
  rw [if_neg (by simpa only [free] using h)]
  exact ⟨_, rfl⟩

end Verif.Pod
