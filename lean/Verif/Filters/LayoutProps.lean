import Verif.Filters.LayoutModel
import Mathlib.Tactic.Ring
import Mathlib.Tactic.NormNum

/-! C33 (parameter slots), C34 (a-priori setters). -/
namespace Verif.Filters

/-! ### Specification -/

/-- What a filter estimates. -/
inductive Param where
  /-- satellite state, six components -/
  | state (i : Nat)
  /-- force-model parameters -/
  | force (i : Nat)
  /-- zenith wet delay of a beacon -/
  | tropo (b : Nat)
  /-- frequency offset of a beacon -/
  | rfoff (b : Nat)
  /-- its drift (linear clock model only) -/
  | drift (b : Nat)
deriving DecidableEq, Repr

/-- The parameters of a filter. -/
def Param.Valid (c : Clock) (Np ns : Nat) : Param → Prop
  | .state i => i < 6
  | .force i => i < Np
  | .tropo b => b < ns
  | .rfoff b => b < ns
  | .drift b => b < ns ∧ c = .linear

/-- The slot the code uses for a parameter: the state comes first, then the force parameters (drag
coefficient first, `dragIndex`), then the beacons; the drift follows the offset
(src/filters/filters.hpp:126, 183). -/
def slot (c : Clock) (Np : Nat) : Param → Nat
  | .state i => i
  | .force i => dragIndex + i
  | .tropo b => tropoIndex c Np b
  | .rfoff b => rfoffIndex c Np b
  | .drift b => rfoffIndex c Np b + 1

/-! ### C33 -/

/-- **C33 (a)** Every slot lies in the vector. -/
theorem slot_lt (c : Clock) (Np ns : Nat) (p : Param) (h : p.Valid c Np ns) :
    slot c Np p < numParams c Np ns := by
  cases c <;> cases p <;>
    simp_all [Param.Valid, slot, tropoIndex, rfoffIndex, dragIndex, numParams] <;> omega

/-- **C33 (b)** Different parameters have different slots. -/
theorem slot_inj (c : Clock) (Np ns : Nat) (p q : Param) (hp : p.Valid c Np ns) (hq : q.Valid c Np ns)
    (h : slot c Np p = slot c Np q) : p = q := by
  cases c <;> cases p <;> cases q <;>
    simp_all [Param.Valid, slot, tropoIndex, rfoffIndex, dragIndex] <;> omega

/-- **C33 (c)** Every index is the slot of a parameter. -/
theorem slot_surj (c : Clock) (Np ns i : Nat) (h : i < numParams c Np ns) :
    ∃ p : Param, p.Valid c Np ns ∧ slot c Np p = i := by
  by_cases h6 : i < 6
  · exact ⟨.state i, h6, rfl⟩
  by_cases hN : i < 6 + Np
  · exact ⟨.force (i - 6), by simp only [Param.Valid]; omega, by simp only [slot, dragIndex]; omega⟩
  cases c with
  | none =>
    simp only [numParams] at h
    have hd := Nat.div_add_mod (i - 6 - Np) 2
    have hm := Nat.mod_lt (i - 6 - Np) (show 0 < 2 by omega)
    by_cases h0 : (i - 6 - Np) % 2 = 0
    · exact ⟨.tropo ((i - 6 - Np) / 2), by simp only [Param.Valid]; omega,
        by simp only [slot, tropoIndex]; omega⟩
    · exact ⟨.rfoff ((i - 6 - Np) / 2), by simp only [Param.Valid]; omega,
        by simp only [slot, rfoffIndex]; omega⟩
  | linear =>
    simp only [numParams] at h
    have hd := Nat.div_add_mod (i - 6 - Np) 3
    have hm := Nat.mod_lt (i - 6 - Np) (show 0 < 3 by omega)
    by_cases h0 : (i - 6 - Np) % 3 = 0
    · exact ⟨.tropo ((i - 6 - Np) / 3), by simp only [Param.Valid]; omega,
        by simp only [slot, tropoIndex]; omega⟩
    · by_cases h1 : (i - 6 - Np) % 3 = 1
      · exact ⟨.rfoff ((i - 6 - Np) / 3), by simp only [Param.Valid]; omega,
          by simp only [slot, rfoffIndex]; omega⟩
      · exact ⟨.drift ((i - 6 - Np) / 3), ⟨by omega, rfl⟩,
          by simp only [slot, rfoffIndex]; omega⟩

example : numParams .linear 2 3 = 17 ∧ slot .linear 2 (.drift 2) = 16 ∧ slot .none 2 (.rfoff 2) = 13 := by
  decide

/-! ### C34 -/

/-- Specification of an assignment: `x'` has the value `v p` in the slot of every parameter for
which `v` is given, and everything else is as before. -/
def Assigned (c : Clock) (Np ns : Nat) (x x' : Vec) (v : Param → Option ℚ) : Prop :=
  ∀ p : Param, p.Valid c Np ns → x' (slot c Np p) = (v p).getD (x (slot c Np p))

theorem put_spec {n : Nat} {x x' : Vec} {i : Nat} {v : ℚ} (h : put n x i v = some x') :
    i < n ∧ ∀ j, x' j = if j = i then v else x j := by
  unfold put at h
  split at h
  · rename_i hi
    cases h
    exact ⟨hi, fun j => rfl⟩
  · cases h

theorem put_some {n : Nat} (x : Vec) {i : Nat} (v : ℚ) (h : i < n) : ∃ x', put n x i v = some x' :=
  ⟨_, if_pos h⟩

/-- What the loop does. -/
theorem putAll_spec (n step : Nat) (hs : 0 < step) (v : ℚ) : ∀ (k idx : Nat) (x : Vec),
    (∀ b, b < k → idx + b * step < n) →
    ∃ x', putAll n step v k idx x = some x' ∧
      (∀ b, b < k → x' (idx + b * step) = v) ∧
      ∀ j, (∀ b, b < k → j ≠ idx + b * step) → x' j = x j := by
  intro k
  induction k with
  | zero => intro idx x _; exact ⟨x, rfl, by omega, fun _ _ => rfl⟩
  | succ k ih =>
    intro idx x hb
    obtain ⟨x1, h1⟩ := put_some x v (by simpa using hb 0 (by omega))
    obtain ⟨x', h2, h3, h4⟩ := ih (idx + step) x1 (fun b hk => by
      have := hb (b + 1) (by omega)
      rw [Nat.succ_mul] at this
      omega)
    refine ⟨x', by simp only [putAll, h1, h2], ?_, ?_⟩
    · intro b hk
      cases b with
      | zero =>
        rw [Nat.zero_mul, Nat.add_zero]
        by_cases hx : ∃ b, b < k ∧ idx = idx + step + b * step
        · obtain ⟨b, _, he⟩ := hx; omega
        · rw [h4 idx (fun b hbk he => hx ⟨b, hbk, he⟩), (put_spec h1).2 idx, if_pos rfl]
      | succ b =>
        have := h3 b (by omega)
        rw [show idx + (b + 1) * step = idx + step + b * step by rw [Nat.succ_mul]; omega]
        exact this
    · intro j hj
      have h0 := hj 0 (by omega)
      rw [Nat.zero_mul, Nat.add_zero] at h0
      rw [h4 j, (put_spec h1).2 j, if_neg h0]
      intro b hbk
      have := hj (b + 1) (by omega)
      rw [Nat.succ_mul] at this
      omega

theorem putAll2_spec (n step : Nat) (hs : 1 < step) (a b : ℚ) : ∀ (k idx : Nat) (x : Vec),
    (∀ i, i < k → idx + i * step + 1 < n) →
    ∃ x', putAll2 n step a b k idx x = some x' ∧
      (∀ i, i < k → x' (idx + i * step) = a ∧ x' (idx + i * step + 1) = b) ∧
      ∀ j, (∀ i, i < k → j ≠ idx + i * step ∧ j ≠ idx + i * step + 1) → x' j = x j := by
  intro k
  induction k with
  | zero => intro idx x _; exact ⟨x, rfl, by omega, fun _ _ => rfl⟩
  | succ k ih =>
    intro idx x hb
    have hb0 := hb 0 (by omega)
    rw [Nat.zero_mul, Nat.add_zero] at hb0
    obtain ⟨x1, h1⟩ := put_some (n := n) (i := idx) x a (by omega)
    obtain ⟨x2, h2⟩ := put_some (n := n) (i := idx + 1) x1 b hb0
    obtain ⟨x', h3, h4, h5⟩ := ih (idx + step) x2 (fun i hi => by
      have := hb (i + 1) (by omega)
      rw [Nat.succ_mul] at this
      omega)
    refine ⟨x', by simp only [putAll2, h1, h2, h3], ?_, ?_⟩
    · intro i hi
      cases i with
      | zero =>
        rw [Nat.zero_mul, Nat.add_zero]
        constructor
        · rw [h5 idx (fun i _ => ⟨by omega, by omega⟩), (put_spec h2).2 idx, if_neg (by omega),
            (put_spec h1).2 idx, if_pos rfl]
        · rw [h5 (idx + 1) (fun i _ => ⟨by omega, by omega⟩), (put_spec h2).2 (idx + 1), if_pos rfl]
      | succ i =>
        have := h4 i (by omega)
        rw [show idx + (i + 1) * step = idx + step + i * step by rw [Nat.succ_mul]; omega]
        exact this
    · intro j hj
      have h0 := hj 0 (by omega)
      rw [Nat.zero_mul, Nat.add_zero] at h0
      rw [h5 j, (put_spec h2).2 j, if_neg h0.2, (put_spec h1).2 j, if_neg h0.1]
      intro i hi
      have := hj (i + 1) (by omega)
      rw [Nat.succ_mul] at this
      constructor <;> omega

/-- Storing into the slot of one parameter. -/
theorem put_assigned (c : Clock) (Np ns : Nat) (x : Vec) (v : ℚ) (p : Param)
    (hp : p.Valid c Np ns) :
    ∃ x', put (numParams c Np ns) x (slot c Np p) v = some x' ∧
      Assigned c Np ns x x' (fun q => if q = p then some v else none) := by
  obtain ⟨x', h⟩ := put_some x v (slot_lt c Np ns p hp)
  refine ⟨x', h, ?_⟩
  intro q hq
  rw [(put_spec h).2]
  by_cases he : q = p
  · subst he; simp
  · have : slot c Np q ≠ slot c Np p := fun hs => he (slot_inj c Np ns q p hq hp hs)
    simp [he, this]

/-- **C34 (a)** Setting the troposphere value (or variance) of one beacon changes exactly its slot. -/
theorem setTropo_one (c : Clock) (Np ns b : Nat) (x : Vec) (v : ℚ) (hb : b < ns) :
    ∃ x', setTropo c Np ns x v (some b) = some x' ∧
      Assigned c Np ns x x' (fun q => if q = .tropo b then some v else none) :=
  put_assigned c Np ns x v (.tropo b) hb

/-- **C34 (b)** Without clock drift, setting the troposphere values of all beacons changes exactly
the troposphere slots. -/
theorem setTropo_all_none (Np ns : Nat) (x : Vec) (v : ℚ) :
    ∃ x', setTropo .none Np ns x v none = some x' ∧
      Assigned .none Np ns x x' (fun q => match q with | .tropo _ => some v | _ => none) := by
  obtain ⟨x', h1, h2, h3⟩ := putAll_spec (numParams .none Np ns) 2 (by omega) v ns
    (tropoIndex .none Np 0) x (fun b hb => by simp only [tropoIndex, numParams]; omega)
  refine ⟨x', h1, ?_⟩
  intro q hq
  cases q with
  | tropo b =>
    have := h2 b hq
    simp only [tropoIndex, Nat.zero_mul, Nat.add_zero] at this
    simpa [slot, tropoIndex] using this
  | state i => exact h3 _ fun b _ => by simp only [slot, tropoIndex, Param.Valid] at *; omega
  | force i => exact h3 _ fun b _ => by simp only [slot, tropoIndex, Param.Valid, dragIndex] at *; omega
  | rfoff i => exact h3 _ fun b _ => by simp only [slot, tropoIndex, rfoffIndex, Param.Valid] at *; omega
  | drift i => exact absurd hq.2 (by decide)

/-- **C34 (c)** With the linear clock model this holds for at most one beacon.

Partial: for two or more beacons the property fails, see `setTropo_counterexample`. -/
theorem setTropo_all_linear_partial (Np ns : Nat) (x : Vec) (v : ℚ) (hns : ns ≤ 1) :
    ∃ x', setTropo .linear Np ns x v none = some x' ∧
      Assigned .linear Np ns x x' (fun q => match q with | .tropo _ => some v | _ => none) := by
  obtain ⟨x', h1, h2, h3⟩ := putAll_spec (numParams .linear Np ns) 2 (by omega) v ns
    (tropoIndex .linear Np 0) x (fun b hb => by simp only [tropoIndex, numParams]; omega)
  refine ⟨x', h1, ?_⟩
  intro q hq
  cases q with
  | tropo b =>
    simp only [Param.Valid] at hq
    have hb : b = 0 := by omega
    have := h2 b hq
    simp only [tropoIndex, hb, Nat.zero_mul, Nat.add_zero] at this
    simpa [slot, tropoIndex, hb] using this
  | state i => exact h3 _ fun b _ => by simp only [slot, tropoIndex, Param.Valid] at *; omega
  | force i => exact h3 _ fun b _ => by simp only [slot, tropoIndex, Param.Valid, dragIndex] at *; omega
  | rfoff i => exact h3 _ fun b _ => by simp only [slot, tropoIndex, rfoffIndex, Param.Valid] at *; omega
  | drift i => exact h3 _ fun b _ => by simp only [slot, tropoIndex, rfoffIndex, Param.Valid] at *; omega

/-- **C34, where it fails.**  With the linear clock model and any number of beacons above one,
setting all troposphere values changes the frequency drift of the first beacon and leaves the
troposphere of the last beacon unset. -/
theorem setTropo_counterexample (Np ns : Nat) (x : Vec) (v : ℚ) (hns : 2 ≤ ns) :
    ∃ x', setTropo .linear Np ns x v none = some x' ∧
      x' (slot .linear Np (.drift 0)) = v ∧
      x' (slot .linear Np (.tropo (ns - 1))) = x (slot .linear Np (.tropo (ns - 1))) := by
  obtain ⟨x', h1, h2, h3⟩ := putAll_spec (numParams .linear Np ns) 2 (by omega) v ns
    (tropoIndex .linear Np 0) x (fun b hb => by simp only [tropoIndex, numParams]; omega)
  refine ⟨x', h1, ?_, ?_⟩
  · have := h2 1 (by omega)
    simpa [slot, tropoIndex, rfoffIndex] using this
  · exact h3 _ fun b hb => by simp only [slot, tropoIndex]; omega

/-- **C34 (d)** Frequency offsets, linear clock model: one beacon. -/
theorem setRfoffLinear_one (Np ns b : Nat) (x : Vec) (va vb : ℚ) (hb : b < ns) :
    ∃ x', setRfoffLinear Np ns x va vb (some b) = some x' ∧
      Assigned .linear Np ns x x'
        (fun q => if q = .rfoff b then some va else if q = .drift b then some vb else none) := by
  obtain ⟨x1, h1, a1⟩ := put_assigned .linear Np ns x va (.rfoff b) hb
  obtain ⟨x2, h2, a2⟩ := put_assigned .linear Np ns x1 vb (.drift b) ⟨hb, rfl⟩
  refine ⟨x2, ?_, ?_⟩
  · simp only [slot] at h1 h2
    simp only [setRfoffLinear, h1, h2]
  · intro q hq
    rw [a2 q hq]
    by_cases hd : q = .drift b
    · subst hd; simp
    · simp only [if_neg hd, Option.getD_none]
      rw [a1 q hq]

/-- **C34 (e)** Frequency offsets, linear clock model: all beacons. -/
theorem setRfoffLinear_all (Np ns : Nat) (x : Vec) (va vb : ℚ) :
    ∃ x', setRfoffLinear Np ns x va vb none = some x' ∧
      Assigned .linear Np ns x x'
        (fun q => match q with | .rfoff _ => some va | .drift _ => some vb | _ => none) := by
  obtain ⟨x', h1, h2, h3⟩ := putAll2_spec (numParams .linear Np ns) 3 (by omega) va vb ns
    (rfoffIndex .linear Np 0) x (fun b hb => by simp only [rfoffIndex, numParams]; omega)
  refine ⟨x', h1, ?_⟩
  intro q hq
  cases q with
  | rfoff b =>
    have := (h2 b hq).1
    simp only [rfoffIndex, Nat.zero_mul, Nat.add_zero] at this
    simp only [slot, rfoffIndex, Option.getD_some]
    rw [← this]; congr 1; omega
  | drift b =>
    have := (h2 b hq.1).2
    simp only [rfoffIndex, Nat.zero_mul, Nat.add_zero] at this
    simp only [slot, rfoffIndex, Option.getD_some]
    rw [← this]; congr 1; omega
  | state i =>
    exact h3 _ fun b _ => by simp only [slot, rfoffIndex, Param.Valid] at *; omega
  | force i =>
    exact h3 _ fun b _ => by simp only [slot, rfoffIndex, Param.Valid, dragIndex] at *; omega
  | tropo i =>
    exact h3 _ fun b _ => by simp only [slot, tropoIndex, rfoffIndex, Param.Valid] at *; omega

/-- **C34 (f)** Frequency offsets without drift: one beacon. -/
theorem setRfoffNone_one (Np ns b : Nat) (x : Vec) (v : ℚ) (hb : b < ns) :
    ∃ x', setRfoffNone Np ns x v (some b) = some x' ∧
      Assigned .none Np ns x x' (fun q => if q = .rfoff b then some v else none) :=
  put_assigned .none Np ns x v (.rfoff b) hb

/-- **C34 (g)** Frequency offsets without drift: all beacons. -/
theorem setRfoffNone_all (Np ns : Nat) (x : Vec) (v : ℚ) :
    ∃ x', setRfoffNone Np ns x v none = some x' ∧
      Assigned .none Np ns x x' (fun q => match q with | .rfoff _ => some v | _ => none) := by
  obtain ⟨x', h1, h2, h3⟩ := putAll_spec (numParams .none Np ns) 2 (by omega) v ns
    (rfoffIndex .none Np 0) x (fun b hb => by simp only [rfoffIndex, numParams]; omega)
  refine ⟨x', h1, ?_⟩
  intro q hq
  cases q with
  | rfoff b =>
    have := h2 b hq
    simp only [rfoffIndex, Nat.zero_mul, Nat.add_zero] at this
    simp only [slot, rfoffIndex, Option.getD_some]
    rw [← this]; congr 1; omega
  | state i => exact h3 _ fun b _ => by simp only [slot, rfoffIndex, Param.Valid] at *; omega
  | force i => exact h3 _ fun b _ => by simp only [slot, rfoffIndex, Param.Valid, dragIndex] at *; omega
  | tropo i => exact h3 _ fun b _ => by simp only [slot, tropoIndex, rfoffIndex, Param.Valid] at *; omega
  | drift i => exact absurd hq.2 (by decide)

/-- **C34 (h)** The drag coefficient is the first force parameter. -/
theorem setDrag_spec (c : Clock) (Np ns : Nat) (x : Vec) (v : ℚ) (h : 1 ≤ Np) :
    ∃ x', setDrag c Np ns x v = some x' ∧
      Assigned c Np ns x x' (fun q => if q = .force 0 then some v else none) :=
  put_assigned c Np ns x v (.force 0) h

/-- A concrete run of the failing case: three beacons, one force parameter. -/
example : (setTropo .linear 1 3 (fun _ => 0) 9 none).map (fun x => (List.range 16).map x) =
    some [0, 0, 0, 0, 0, 0, 0, 9, 0, 9, 0, 9, 0, 0, 0, 0] := by
  decide +kernel

example : (setTropo .none 1 3 (fun _ => 0) 9 none).map (fun x => (List.range 13).map x) =
    some [0, 0, 0, 0, 0, 0, 0, 9, 0, 9, 0, 9, 0] := by
  decide +kernel

end Verif.Filters
