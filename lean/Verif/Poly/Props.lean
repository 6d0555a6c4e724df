import Verif.Poly.Model
import Verif.Heap.Lemmas
import Mathlib.Algebra.BigOperators.Group.Finset.Basic
import Mathlib.Algebra.BigOperators.Intervals
import Mathlib.Tactic.Ring

/-
C71: polynomial models.
-/
namespace Verif.Poly

open Verif.Heap (Heap)

variable {K : Type} [Field K]

/-! ### Evaluation -/

theorem valueAt_loop (cf : ℕ → K) (t : K) (n : ℕ) (k : ℕ) (y : K) :
    (List.range' k n).foldl (fun p i => (p.1 + cf i * p.2, p.2 * t)) (y, t ^ k) =
      (y + ∑ i ∈ Finset.Ico k (k + n), cf i * t ^ i, t ^ (k + n)) := by
  induction n generalizing k y with
  | zero => simp
  | succ n ih =>
    rw [List.range'_succ, List.foldl_cons]
    have e : t ^ k * t = t ^ (k + 1) := (pow_succ t k).symm
    dsimp only
    rw [e, ih (k + 1), Finset.sum_eq_sum_Ico_succ_bot (by omega : k < k + (n + 1))]
    rw [show k + 1 + n = k + (n + 1) by omega, add_assoc]

/-- **C71 (evaluation).**  `value_at` is the polynomial with these coefficients at `x - xref`. -/
theorem valueAt_eq (order : ℕ) (xref : K) (cf : ℕ → K) (x : K) :
    valueAt order xref cf x = ∑ i ∈ Finset.range (order + 1), cf i * (x - xref) ^ i := by
  unfold valueAt
  have h := valueAt_loop cf (x - xref) order 1 (cf 0)
  rw [pow_one] at h
  rw [h, Finset.range_eq_Ico, Finset.sum_eq_sum_Ico_succ_bot (by omega : 0 < order + 1)]
  simp [Nat.add_comm]

/-- The linear model is the polynomial model of order 1. -/
theorem linear_eq_poly (xref a b x : K) :
    linearValue xref a b x = valueAt 1 xref (fun i => if i = 0 then a else b) x := by
  rw [valueAt_eq]
  simp [Finset.sum_range_succ, linearValue]

/-! ### Ownership

The reference semantics: objects are values; nothing is shared. -/

/-- A polynomial as a value. -/
structure Val (K : Type) where
  order : ℕ
  xref : K
  coefs : List K

/-- Reference semantics of the operations without moves; `none` is a misuse (including a coefficient
that does not exist). -/
def refStep (v : ℕ → Option (Val K)) : Op K → Option (ℕ → Option (Val K))
  | .construct x n r g =>
    match v x with
    | some _ => none
    | none => some (set v x (some ⟨n, r, fresh n g⟩))
  | .copyConstruct x y =>
    match v x, v y with
    | none, some p => some (set v x (some p))
    | _, _ => none
  | .moveConstruct _ _ => none
  | .moveAssign _ _ => none
  | .resize x n g =>
    match v x with
    | none => none
    | some p => if n = p.order then some v else some (set v x (some ⟨n, p.xref, fresh n g⟩))
  | .setCoef x i c =>
    match v x with
    | none => none
    | some p => if i ≤ p.order then some (set v x (some { p with coefs := p.coefs.set i c })) else none
  | .setRef x r =>
    match v x with
    | none => none
    | some p => some (set v x (some { p with xref := r }))
  | .destroy x =>
    match v x with
    | none => none
    | some _ => some (set v x none)

/-- A history in the reference semantics. -/
def refRun (v : ℕ → Option (Val K)) : List (Op K) → Option (ℕ → Option (Val K))
  | [] => some v
  | op :: ops => (refStep v op).bind fun v' => refRun v' ops

/-- The objects of a program state as values. -/
def values (s : State K) : ℕ → Option (Val K) :=
  fun x => (s.objs x).map fun o => ⟨o.order, o.xref, s.mem o.cf⟩

/-- Every object owns a live block of its own, of the right size. -/
structure Owns (s : State K) : Prop where
  wf : s.heap.WF
  live : ∀ x o, s.objs x = some o → o.cf ∈ s.heap.live
  size : ∀ x o, s.objs x = some o → (s.mem o.cf).length = o.order + 1
  apart : ∀ x y o p, s.objs x = some o → s.objs y = some p → o.cf = p.cf → x = y

theorem owns_init : Owns (State.init : State K) :=
  ⟨Verif.Heap.Heap.wf_init, fun _ _ h => by simp [State.init] at h, fun _ _ h => by simp [State.init] at h,
    fun _ _ _ _ h => by simp [State.init] at h⟩

/-- Giving object `x` a fresh block. -/
theorem Owns.give {s : State K} (hs : Owns s) (x : ℕ) (h : Heap) (hw : h.WF)
    (hl : ∀ y o, y ≠ x → s.objs y = some o → o.cf ∈ h.live) (n : ℕ) (r : K) (c : List K)
    (hc : c.length = n + 1) :
    Owns ⟨h.alloc.2, set s.mem h.alloc.1 c, set s.objs x (some ⟨n, r, h.alloc.1⟩)⟩ ∧
      values ⟨h.alloc.2, set s.mem h.alloc.1 c, set s.objs x (some ⟨n, r, h.alloc.1⟩)⟩ =
        set (values s) x (some ⟨n, r, c⟩) := by
  have hf : h.alloc.1 ∉ h.live := Verif.Heap.Heap.alloc_fresh hw
  have hne : ∀ y o, y ≠ x → s.objs y = some o → o.cf ≠ h.alloc.1 := fun y o hy ho e =>
    hf (e ▸ hl y o hy ho)
  refine ⟨⟨Verif.Heap.Heap.alloc_wf hw, ?_, ?_, ?_⟩, ?_⟩
  · intro y o ho
    dsimp only [set] at ho
    split at ho
    · cases ho; exact List.mem_cons_self
    · rename_i hy; exact List.mem_cons_of_mem _ (hl y o hy ho)
  · intro y o ho
    dsimp only [set] at ho ⊢
    split at ho
    · cases ho; rw [if_pos rfl]; exact hc
    · rename_i hy; rw [if_neg (hne y o hy ho)]; exact hs.size y o ho
  · intro y z o p ho hp e
    dsimp only [set] at ho hp
    split at ho <;> split at hp
    · rename_i h1 h2; rw [h1, h2]
    · rename_i h1 h2; cases ho; exact absurd e.symm (hne z p h2 hp)
    · rename_i h1 h2; cases hp; exact absurd e (hne y o h1 ho)
    · exact hs.apart y z o p ho hp e
  · funext y
    dsimp only [values, set]
    split
    · simp
    · rename_i hy
      cases ho : s.objs y with
      | none => rfl
      | some o => simp only [Option.map_some]; rw [if_neg (hne y o hy ho)]

/-- Removing object `x`. -/
theorem Owns.drop {s : State K} (hs : Owns s) (x : ℕ) (h : Heap) (hw : h.WF)
    (hl : ∀ y o, y ≠ x → s.objs y = some o → o.cf ∈ h.live) :
    Owns { s with heap := h, objs := set s.objs x none } ∧
      values { s with heap := h, objs := set s.objs x none } = set (values s) x none := by
  refine ⟨⟨hw, ?_, ?_, ?_⟩, ?_⟩
  · intro y o ho
    dsimp only [set] at ho
    split at ho
    · cases ho
    · rename_i hy; exact hl y o hy ho
  · intro y o ho
    dsimp only [set] at ho
    split at ho
    · cases ho
    · exact hs.size y o ho
  · intro y z o p ho hp e
    dsimp only [set] at ho hp
    split at ho
    · cases ho
    · split at hp
      · cases hp
      · exact hs.apart y z o p ho hp e
  · funext y
    dsimp only [values, set]
    split <;> rfl

/-- Freeing the block of `x` leaves the blocks of the other objects. -/
theorem Owns.free {s : State K} (hs : Owns s) (x : ℕ) (o : Obj K) (ho : s.objs x = some o) :
    ∃ h, s.heap.free o.cf = some h ∧ h.WF ∧
      ∀ y p, y ≠ x → s.objs y = some p → p.cf ∈ h.live := by
  refine ⟨⟨s.heap.next, s.heap.live.erase o.cf⟩, ?_, ?_, ?_⟩
  · unfold Heap.free
    rw [if_pos (hs.live x o ho)]
  · exact ⟨hs.wf.1.erase _, fun p hp => hs.wf.2 p (List.mem_of_mem_erase hp)⟩
  · intro y p hy hp
    refine (List.mem_erase_of_ne ?_).2 (hs.live y p hp)
    intro e
    exact hy (hs.apart y x p o hp ho e)

/-- One operation without moves agrees with the reference semantics. -/
theorem step_ref (s : State K) (hs : Owns s) (op : Op K) (v : ℕ → Option (Val K))
    (h : refStep (values s) op = some v) :
    ∃ s', step s op = .ok s' ∧ Owns s' ∧ values s' = v := by
  have hval : ∀ x, values s x = (s.objs x).map fun o => ⟨o.order, o.xref, s.mem o.cf⟩ := fun _ => rfl
  cases op with
  | construct x n r g =>
    simp only [refStep, hval] at h
    cases ho : s.objs x with
    | some o => simp [ho] at h
    | none =>
      simp only [ho, Option.map_none, Option.some.injEq] at h
      obtain ⟨h1, h2⟩ := hs.give x s.heap hs.wf (fun y o _ hy => hs.live y o hy) n r (fresh n g)
        (by simp [fresh])
      exact ⟨_, by simp only [step, ho], h1, h2.trans h⟩
  | copyConstruct x y =>
    simp only [refStep, hval] at h
    cases hx : s.objs x with
    | some o => simp [hx] at h
    | none =>
      cases hy : s.objs y with
      | none => simp [hx, hy] at h
      | some o =>
        simp only [hx, hy, Option.map_none, Option.map_some, Option.some.injEq] at h
        have hsz := hs.size y o hy
        have htk : (s.mem o.cf).take (o.order + 1) = s.mem o.cf := List.take_of_length_le (by omega)
        obtain ⟨h1, h2⟩ := hs.give x s.heap hs.wf (fun y o _ hy => hs.live y o hy) o.order o.xref
          (s.mem o.cf) hsz
        refine ⟨⟨s.heap.alloc.2, set s.mem s.heap.alloc.1 (s.mem o.cf),
          set s.objs x (some ⟨o.order, o.xref, s.heap.alloc.1⟩)⟩, ?_, h1, h2.trans h⟩
        simp only [step, hx, hy]
        rw [if_pos ⟨hs.live y o hy, by omega⟩, htk]
  | moveConstruct x y => simp [refStep] at h
  | moveAssign x y => simp [refStep] at h
  | resize x n g =>
    simp only [refStep, hval] at h
    cases hx : s.objs x with
    | none => simp [hx] at h
    | some o =>
      simp only [hx, Option.map_some] at h
      by_cases hn : n = o.order
      · rw [if_pos hn] at h
        refine ⟨s, ?_, hs, by simpa using h⟩
        simp only [step, hx]
        rw [if_pos hn]
      · rw [if_neg hn] at h
        obtain ⟨h', e, hw, hl⟩ := hs.free x o hx
        obtain ⟨h1, h2⟩ := hs.give x h' hw hl n o.xref (fresh n g) (by simp [fresh])
        refine ⟨_, ?_, h1, h2.trans (by simpa using h)⟩
        simp only [step, hx]
        rw [if_neg hn, e]
  | setCoef x i c =>
    simp only [refStep, hval] at h
    cases hx : s.objs x with
    | none => simp [hx] at h
    | some o =>
      simp only [hx, Option.map_some] at h
      have hsz := hs.size x o hx
      by_cases hi : i ≤ o.order
      · rw [if_pos hi] at h
        refine ⟨{ s with mem := set s.mem o.cf ((s.mem o.cf).set i c) }, ?_, ?_, ?_⟩
        · simp only [step, hx]
          rw [if_pos ⟨hs.live x o hx, by omega⟩]
        · refine ⟨hs.wf, hs.live, ?_, hs.apart⟩
          intro y p hp
          dsimp only [set]
          split
          · rename_i e
            rw [List.length_set, ← e]
            exact hs.size y p hp
          · exact hs.size y p hp
        · rw [← Option.some.inj h]
          funext y
          dsimp only [values, set]
          by_cases hyx : y = x
          · subst hyx
            rw [if_pos rfl, hx]
            simp
          · rw [if_neg hyx]
            cases hy : s.objs y with
            | none => rfl
            | some p =>
              simp only [Option.map_some]
              rw [if_neg fun e => hyx (hs.apart y x p o hy hx e)]
      · rw [if_neg hi] at h; cases h
  | setRef x r =>
    simp only [refStep, hval] at h
    cases hx : s.objs x with
    | none => simp [hx] at h
    | some o =>
      simp only [hx, Option.map_some, Option.some.injEq] at h
      refine ⟨{ s with objs := set s.objs x (some { o with xref := r }) }, ?_, ?_, ?_⟩
      · simp only [step, hx]
      · refine ⟨hs.wf, ?_, ?_, ?_⟩
        · intro y p hp
          dsimp only [set] at hp
          split at hp
          · cases hp; exact hs.live x o hx
          · exact hs.live y p hp
        · intro y p hp
          dsimp only [set] at hp
          split at hp
          · cases hp; exact hs.size x o hx
          · exact hs.size y p hp
        · intro y z p q hp hq e
          dsimp only [set] at hp hq
          split at hp <;> split at hq
          · rename_i h1 h2; rw [h1, h2]
          · rename_i h1 h2; cases hp; exact h1.trans (hs.apart x z o q hx hq e)
          · rename_i h1 h2; cases hq; exact (hs.apart y x p o hp hx e).trans h2.symm
          · exact hs.apart y z p q hp hq e
      · rw [← h]
        funext y
        dsimp only [values, set]
        split <;> rfl
  | destroy x =>
    simp only [refStep, hval] at h
    cases hx : s.objs x with
    | none => simp [hx] at h
    | some o =>
      simp only [hx, Option.map_some, Option.some.injEq] at h
      by_cases hn : o.order ≠ 0
      · obtain ⟨h', e, hw, hl⟩ := hs.free x o hx
        obtain ⟨h1, h2⟩ := hs.drop x h' hw hl
        refine ⟨_, ?_, h1, h2.trans h⟩
        simp only [step, hx]
        rw [if_pos hn, e]
      · obtain ⟨h1, h2⟩ := hs.drop x s.heap hs.wf (fun y p _ hp => hs.live y p hp)
        refine ⟨_, ?_, h1, h2.trans h⟩
        simp only [step, hx]
        rw [if_neg hn]

/-- **C71 (ownership).**  In every history of construction, copying, resizing, assignment of coefficients
and destruction, without moves, every object owns storage of its own and behaves as a value: writing to
one never changes another, nothing is freed twice or used after being freed. -/
theorem value_semantics_partial (ops : List (Op K)) :
    ∀ (s : State K), Owns s → ∀ v, refRun (values s) ops = some v →
      ∃ s', run s ops = .ok s' ∧ Owns s' ∧ values s' = v := by
  induction ops with
  | nil =>
    intro s hs v h
    exact ⟨s, rfl, hs, by simpa [refRun] using h⟩
  | cons op ops ih =>
    intro s hs v h
    simp only [refRun, Option.bind_eq_some_iff] at h
    obtain ⟨v1, h1, h2⟩ := h
    obtain ⟨s1, e1, hs1, hv1⟩ := step_ref s hs op v1 h1
    obtain ⟨s2, e2, hs2, hv2⟩ := ih s1 hs1 v (hv1.symm ▸ h2)
    exact ⟨s2, by simp only [run, e1]; exact e2, hs2, hv2⟩

/-- Evaluation of an object after such a history. -/
theorem eval_after (s : State K) (v : ℕ → Option (Val K)) (h : values s = v) (x : ℕ) (o : Obj K)
    (p : Val K) (ho : s.objs x = some o) (hp : v x = some p) (t : K) :
    valueAt o.order o.xref (fun i => (s.mem o.cf).getD i 0) t =
      ∑ i ∈ Finset.range (p.order + 1), p.coefs.getD i 0 * (t - p.xref) ^ i := by
  subst h
  simp only [values, ho, Option.map_some, Option.some.injEq] at hp
  subst hp
  exact valueAt_eq _ _ _ _

/-- A history with a copy that is then changed. -/
def sample : List (Op ℚ) :=
  [.construct 0 2 10 (fun _ => 7), .setCoef 0 0 1, .copyConstruct 1 0, .setCoef 1 0 5, .resize 1 0 (fun _ => 9),
    .destroy 0]

example : (refRun (values (State.init : State ℚ)) sample).isSome = true := by
  simp [sample, refRun, refStep, values, State.init, set, fresh]

/-- **C71 is false after a move.**  The source and the target share the storage, and destroying both
frees it twice. -/
theorem move_counterexample :
    (run (State.init : State ℚ)
      [.construct 0 1 0 (fun _ => 0), .moveConstruct 1 0, .destroy 0, .destroy 1]) = .error .ub := by
  simp [run, step, State.init, set, Heap.free, Heap.alloc, Heap.init, fresh]

/-- After a move, writing to one object changes the other. -/
theorem move_shares_counterexample (a b : ℚ) :
    ∃ s, run (State.init : State ℚ)
      [.construct 0 1 0 (fun _ => a), .moveConstruct 1 0, .setCoef 1 0 b] = .ok s ∧
      values s 0 = some ⟨1, 0, [b, a]⟩ := by
  refine ⟨_, rfl, ?_⟩
  simp [values, set, State.init, Heap.alloc, Heap.init, fresh, List.range_succ]

/-- The move assignment, used on a temporary, leaves a freed block behind: using the target is undefined
behaviour. -/
theorem move_assign_counterexample :
    (run (State.init : State ℚ)
      [.construct 0 1 0 (fun _ => 0), .construct 1 1 0 (fun _ => 0), .moveAssign 0 1, .destroy 1,
        .setCoef 0 0 3]) = .error .ub := by
  simp [run, step, State.init, set, Heap.free, Heap.alloc, Heap.init, fresh]

/-- The storage of a polynomial of order 0 is never released. -/
theorem constant_leak_counterexample :
    ∃ s, run (State.init : State ℚ) [.construct 0 0 0 (fun _ => 0), .destroy 0] = .ok s ∧
      s.objs 0 = none ∧ s.heap.live ≠ [] := by
  refine ⟨_, rfl, ?_, ?_⟩
  · simp [set]
  · simp [State.init, Heap.alloc, Heap.init]

end Verif.Poly
