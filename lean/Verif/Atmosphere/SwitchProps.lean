import Verif.Atmosphere.SwitchModel
import Mathlib.Tactic.Ring
import Mathlib.Tactic.FinCases

/-
C68: the switches encode the documented values.
-/
namespace Verif.Atmosphere.Switches

/-! ### Specification -/

/-- The documented main value of a switch set to `v`: nothing for an even value, the sign of `v` for
an odd one. -/
def mainOf (v : ℤ) : ℤ := if 2 ∣ v then 0 else if 0 < v then 1 else -1

/-- The documented cross-term value of a switch set to `v`. -/
def crossOf (v : ℤ) : ℤ := if v ∈ [1, 2] then 1 else 0

/-- The integer part of a number: the unique integer of the same sign nearest below it in size. -/
def IsTrunc (q : ℚ) (t : ℤ) : Prop :=
  (0 ≤ q ∧ (t : ℚ) ≤ q ∧ q < t + 1) ∨ (q < 0 ∧ q ≤ t ∧ (t : ℚ) < q + 1)

/-- What one call says about switch `j`: nothing, or a pair of values. -/
def effect (j : ℤ) : Op → Option (ℤ × ℤ)
  | .set i v => if i = j then some (mainOf v, crossOf v) else none
  | .setD i v =>
    if i = j then
      let t := if 0 ≤ v then ⌊v⌋ else ⌈v⌉
      some (mainOf t, crossOf t)
    else none
  | .null i => if i = j ∨ i < 0 then some (0, 0) else none
  | .on i => if i = j ∨ i < 0 then some (1, 1) else none
  | .useAp => if j = 8 then some (-1, 0) else none
  | .allOff => some (0, 0)
  | .allOn => some (1, 1)

/-- The calls whose behaviour is defined. -/
def Valid : Op → Prop
  | .set i _ => 0 ≤ i ∧ i < 25
  | .setD i v => (0 ≤ i ∧ i < 25) ∧ -(2 ^ 31 : ℚ) - 1 < v ∧ v < 2 ^ 31
  | .null i => i < 25
  | .on i => i < 25
  | .useAp | .allOff | .allOn => True

/-! ### Proofs -/

theorem tmod_two (v : ℤ) : v.tmod 2 = mainOf v := by
  unfold mainOf
  rcases le_total 0 v with h | h
  · rw [Int.tmod_eq_emod_of_nonneg h]
    split
    · omega
    · rw [if_pos (by omega)]; omega
  · obtain ⟨w, rfl⟩ : ∃ w, v = -w := ⟨-v, by omega⟩
    rw [Int.neg_tmod, Int.tmod_eq_emod_of_nonneg (by omega)]
    split
    · omega
    · rw [if_neg (by omega)]; omega

/-- **C68 (one call).**  After `set_switch(i, v)` with an index inside the array, the main value of
switch `i` is `0` for even `v` and the sign of `v` otherwise, its cross-term value is `1` exactly for
`v = 1` and `v = 2`, and every other switch is unchanged. -/
theorem setSwitch_spec (s : Sw) (i v : ℤ) (hi : 0 ≤ i ∧ i < 25) :
    ∃ s', setSwitch s i v = some s' ∧
      (∀ j : Fin dim, (j : ℤ) = i → s'.sw j = mainOf v ∧ s'.swc j = crossOf v) ∧
      ∀ j : Fin dim, (j : ℤ) ≠ i → s'.sw j = s.sw j ∧ s'.swc j = s.swc j := by
  refine ⟨_, by rw [setSwitch, write, if_pos (by simpa [dim] using hi)], ?_, ?_⟩
  · intro j hj
    simp [hj, tmod_two, crossOf]
  · intro j hj
    simp [hj]

/-- **C68 (outside the array).**  An index outside `0 … 24` is undefined behaviour, whatever the
value. -/
theorem setSwitch_outside (s : Sw) (i v : ℤ) (hi : i < 0 ∨ 25 ≤ i) : setSwitch s i v = none := by
  rw [setSwitch, write, if_neg]
  simp only [dim]; omega

theorem trunc_isTrunc (q : ℚ) : IsTrunc q (if 0 ≤ q then ⌊q⌋ else ⌈q⌉) := by
  unfold IsTrunc
  split
  · exact Or.inl ⟨‹_›, Int.floor_le q, Int.lt_floor_add_one q⟩
  · exact Or.inr ⟨not_le.mp ‹_›, Int.le_ceil q, Int.ceil_lt_add_one q⟩

theorem toInt_some (q : ℚ) (h1 : -(2 ^ 31 : ℚ) - 1 < q) (h2 : q < 2 ^ 31) :
    toInt q = some (if 0 ≤ q then ⌊q⌋ else ⌈q⌉) := by
  simp only [toInt]
  rw [if_pos]
  split
  · refine ⟨?_, ?_⟩
    · have : (0 : ℤ) ≤ ⌊q⌋ := Int.floor_nonneg.mpr ‹_›
      omega
    · exact Int.floor_lt.mpr (by exact_mod_cast h2)
  · refine ⟨?_, ?_⟩
    · have : (-(2 ^ 31) - 1 : ℤ) < ⌈q⌉ := Int.lt_ceil.mpr (by exact_mod_cast h1)
      omega
    · have : ⌈q⌉ ≤ (0 : ℤ) := Int.ceil_le.mpr (by exact_mod_cast (not_le.mp ‹_›).le)
      omega

theorem toInt_none (q : ℚ) (h : q ≤ -(2 ^ 31 : ℚ) - 1 ∨ 2 ^ 31 ≤ q) : toInt q = none := by
  simp only [toInt]
  rw [if_neg]
  rintro ⟨a, b⟩
  rcases h with h | h
  · have hq : ¬ (0 ≤ q) := by
      intro h0; have := le_trans h0 h; norm_num at this
    rw [if_neg hq] at a
    have : ⌈q⌉ ≤ (-(2 ^ 31) - 1 : ℤ) := Int.ceil_le.mpr (by exact_mod_cast h)
    omega
  · have hq : 0 ≤ q := le_trans (by norm_num) h
    rw [if_pos hq] at b
    have : (2 ^ 31 : ℤ) ≤ ⌊q⌋ := Int.le_floor.mpr (by exact_mod_cast h)
    omega

theorem write_spec (s : Sw) (i a b : ℤ) (hi : 0 ≤ i ∧ i < 25) :
    ∃ s', write s i a b = some s' ∧ ∀ j : Fin dim,
      (s'.sw j, s'.swc j) = if i = (j : ℤ) then (a, b) else (s.sw j, s.swc j) := by
  refine ⟨_, by rw [write, if_pos (by simpa [dim] using hi)], ?_⟩
  intro j
  by_cases h : (j : ℤ) = i
  · simp [h]
  · rw [if_neg (fun h' => h h'.symm)]; simp [h]

/-- One valid call changes each switch as the specification says. -/
theorem step_spec (s : Sw) (o : Op) (ho : Valid o) :
    ∃ s', step s o = some s' ∧ ∀ j : Fin dim,
      (s'.sw j, s'.swc j) = (effect j o).getD (s.sw j, s.swc j) := by
  cases o with
  | set i v =>
    obtain ⟨s', h1, h2⟩ := write_spec s i (v.tmod 2) (if v = 1 ∨ v = 2 then 1 else 0) ho
    refine ⟨s', h1, fun j => ?_⟩
    rw [h2 j]
    simp only [effect, tmod_two, crossOf]
    split <;> simp
  | setD i v =>
    obtain ⟨hi, hv1, hv2⟩ := ho
    obtain ⟨s', h1, h2⟩ := write_spec s i ((if 0 ≤ v then ⌊v⌋ else ⌈v⌉).tmod 2)
      (if (if 0 ≤ v then ⌊v⌋ else ⌈v⌉) = 1 ∨ (if 0 ≤ v then ⌊v⌋ else ⌈v⌉) = 2 then 1 else 0) hi
    refine ⟨s', ?_, fun j => ?_⟩
    · rw [step, toInt_some v hv1 hv2]; exact h1
    · rw [h2 j]
      simp only [effect, tmod_two, crossOf]
      split <;> simp
  | null i =>
    by_cases hneg : i < 0
    · exact ⟨_, by rw [step, setNull, if_pos hneg], fun j => by simp [effect, hneg]⟩
    · obtain ⟨s', h1, h2⟩ := write_spec s i 0 0 ⟨by omega, ho⟩
      refine ⟨s', by rw [step, setNull, if_neg hneg, h1], fun j => ?_⟩
      rw [h2 j]
      simp only [effect, hneg, or_false]
      split <;> simp
  | on i =>
    by_cases hneg : i < 0
    · exact ⟨_, by rw [step, setOn, if_pos hneg], fun j => by simp [effect, hneg]⟩
    · obtain ⟨s', h1, h2⟩ := write_spec s i 1 1 ⟨by omega, ho⟩
      refine ⟨s', by rw [step, setOn, if_neg hneg, h1], fun j => ?_⟩
      rw [h2 j]
      simp only [effect, hneg, or_false]
      split <;> simp
  | useAp =>
    obtain ⟨s', h1, h2⟩ := write_spec s 8 ((-1 : ℤ).tmod 2) (if (-1 : ℤ) = 1 ∨ (-1 : ℤ) = 2 then 1 else 0)
      (by omega)
    refine ⟨s', h1, fun j => ?_⟩
    rw [h2 j]
    simp only [effect]
    by_cases h : (j : ℤ) = 8
    · rw [if_pos h.symm, if_pos h]; rfl
    · rw [if_neg (fun h' => h h'.symm), if_neg h]; rfl
  | allOff => exact ⟨_, by rw [step, setNull, if_pos (by omega)], fun j => by simp [effect]⟩
  | allOn => exact ⟨_, by rw [step, setOn, if_pos (by omega)], fun j => by simp [effect]⟩

theorem step_invalid (s : Sw) (o : Op) (ho : ¬ Valid o) : step s o = none := by
  cases o with
  | set i v => exact setSwitch_outside s i v (by simp only [Valid] at ho; omega)
  | setD i v =>
    rw [step]
    by_cases hv : -(2 ^ 31 : ℚ) - 1 < v ∧ v < 2 ^ 31
    · rw [toInt_some v hv.1 hv.2]
      exact setSwitch_outside s i _ (by
        by_contra hc
        exact ho ⟨by omega, hv⟩)
    · rw [toInt_none v]; rfl
      by_contra hc
      simp only [not_or, not_le] at hc
      exact hv hc
  | null i =>
    simp only [Valid] at ho
    rw [step, setNull, if_neg (by omega), write, if_neg (by simp only [dim]; omega)]
  | on i =>
    simp only [Valid] at ho
    rw [step, setOn, if_neg (by omega), write, if_neg (by simp only [dim]; omega)]
  | useAp => exact absurd trivial ho
  | allOff => exact absurd trivial ho
  | allOn => exact absurd trivial ho

theorem run_aux (ops : List Op) : ∀ (s : Sw), (∀ o ∈ ops, Valid o) →
    ∃ s', ops.foldlM step s = some s' ∧ ∀ j : Fin dim,
      (s'.sw j, s'.swc j) = (ops.reverse.findSome? (effect j)).getD (s.sw j, s.swc j) := by
  induction ops with
  | nil => intro s _; exact ⟨s, rfl, fun j => rfl⟩
  | cons o ops ih =>
    intro s h
    obtain ⟨s1, h1, h2⟩ := step_spec s o (h o List.mem_cons_self)
    obtain ⟨s2, h3, h4⟩ := ih s1 (fun o' ho' => h o' (List.mem_cons_of_mem _ ho'))
    refine ⟨s2, ?_, fun j => ?_⟩
    · rw [List.foldlM_cons, h1]; exact h3
    · rw [h4 j, List.reverse_cons, List.findSome?_append]
      cases hf : ops.reverse.findSome? (effect j) with
      | some p => simp
      | none =>
        simp only [Option.getD_none, Option.none_or]
        rw [h2 j]
        simp only [List.findSome?_cons, List.findSome?_nil]
        cases effect j o <;> rfl

/-- **C68 (any history).**  After any sequence of valid calls on a new object, each switch has the
values given by the last call that concerned it, or both values on if no call did. -/
theorem run_spec (ops : List Op) (h : ∀ o ∈ ops, Valid o) :
    ∃ s, run ops = some s ∧ ∀ j : Fin dim,
      (s.sw j, s.swc j) = (ops.reverse.findSome? (effect j)).getD (1, 1) := by
  obtain ⟨s, h1, h2⟩ := run_aux ops ⟨fun _ => 1, fun _ => 1⟩ h
  refine ⟨s, ?_, h2⟩
  rw [run, init, setOn, if_pos (by omega)]
  exact h1

/-- **C68 (defined behaviour).**  The history is free of undefined behaviour exactly when every call
in it is valid. -/
theorem run_defined_iff (ops : List Op) : (run ops).isSome ↔ ∀ o ∈ ops, Valid o := by
  constructor
  · rw [run, init, setOn, if_pos (by omega), Option.bind_some]
    generalize (⟨fun _ => 1, fun _ => 1⟩ : Sw) = s
    induction ops generalizing s with
    | nil => simp
    | cons o ops ih =>
      intro h o' ho'
      rw [List.foldlM_cons] at h
      by_cases hv : Valid o
      · obtain ⟨s1, h1, _⟩ := step_spec s o hv
        rw [h1] at h
        rcases List.mem_cons.mp ho' with rfl | ho'
        · exact hv
        · exact ih s1 h o' ho'
      · rw [step_invalid s o hv] at h
        exact absurd h (by simp)
  · intro h
    obtain ⟨s, hs, _⟩ := run_spec ops h
    rw [hs]; rfl

theorem mainOf_range (v : ℤ) : mainOf v ∈ ({-1, 0, 1} : Set ℤ) := by
  unfold mainOf; split
  · simp
  · split <;> simp

theorem crossOf_range (v : ℤ) : crossOf v ∈ ({0, 1} : Set ℤ) := by
  unfold crossOf; split <;> simp

theorem effect_range (j : ℤ) (o : Op) (p : ℤ × ℤ) (h : effect j o = some p) :
    p.1 ∈ ({-1, 0, 1} : Set ℤ) ∧ p.2 ∈ ({0, 1} : Set ℤ) := by
  cases o with
  | set i v =>
    simp only [effect] at h
    split at h
    · obtain rfl := Option.some.inj h; exact ⟨mainOf_range v, crossOf_range v⟩
    · cases h
  | setD i v =>
    simp only [effect] at h
    split at h
    · obtain rfl := Option.some.inj h; exact ⟨mainOf_range _, crossOf_range _⟩
    · cases h
  | null i =>
    simp only [effect] at h
    split at h
    · obtain rfl := Option.some.inj h; simp
    · cases h
  | on i =>
    simp only [effect] at h
    split at h
    · obtain rfl := Option.some.inj h; simp
    · cases h
  | useAp =>
    simp only [effect] at h
    split at h
    · obtain rfl := Option.some.inj h; simp
    · cases h
  | allOff => simp only [effect] at h; obtain rfl := Option.some.inj h; simp
  | allOn => simp only [effect] at h; obtain rfl := Option.some.inj h; simp

/-- **C68 (range).**  Whatever calls were made, every main value is -1, 0 or 1 and every cross-term
value is 0 or 1. -/
theorem run_range (ops : List Op) (s : Sw) (h : run ops = some s) (j : Fin dim) :
    s.sw j ∈ ({-1, 0, 1} : Set ℤ) ∧ s.swc j ∈ ({0, 1} : Set ℤ) := by
  have hv := (run_defined_iff ops).mp (by rw [h]; rfl)
  obtain ⟨s', hs', hj⟩ := run_spec ops hv
  obtain rfl : s = s' := by rw [h] at hs'; exact Option.some.inj hs'
  have hp := hj j
  cases hf : ops.reverse.findSome? (effect j) with
  | none =>
    rw [hf] at hp
    obtain ⟨h1, h2⟩ := Prod.mk.inj hp
    rw [h1, h2]; simp
  | some p =>
    rw [hf] at hp
    obtain ⟨o, _, ho⟩ := List.exists_of_findSome?_eq_some hf
    have := effect_range j o p ho
    have hp' : (s.sw j, s.swc j) = p := hp
    rw [← hp'] at this
    exact this

/-- A history: everything off, switch 3 on, array of indexes requested, switch 3 set to 2. -/
example : (run [.allOff, .on 3, .useAp, .setD 3 (5 / 2)]).map
    (fun s => (s.sw (3 : Fin 25), s.swc (3 : Fin 25), s.sw (8 : Fin 25), s.swc (8 : Fin 25), s.sw (4 : Fin 25))) = some (0, 1, -1, 0, 0) := by
  decide +kernel

example : ∀ o ∈ [Op.allOff, .on 3, .useAp, .setD 3 (5 / 2)], Valid o := by
  simp only [List.mem_cons, List.not_mem_nil, or_false, forall_eq_or_imp, forall_eq, Valid]
  norm_num

example : run [.set 25 1] = none := by decide +kernel

end Verif.Atmosphere.Switches
