import Verif.Forces.PassModel
import Mathlib.Data.List.Range
import Mathlib.Tactic.NormNum
import Mathlib.Algebra.Order.Floor.Defs
import Mathlib.Data.Int.Order.Basic

/-!
C131: the passes that test_satellite_shadow lists are the intervals in which a model reports shadow, with the
first epoch in shadow and the first epoch in light after it.

For the models without penumbra this holds from the second pass on; the first one listed is never a pass with
a beginning.  For the models with penumbra it holds when no epoch is in penumbra; otherwise the beginnings of
umbra are right and everything else can be wrong.
-/
namespace Verif.Forces.Passes

/-! ### Specification

The samples are numbered; `t i` is the epoch of sample `i` and `d i` tells if it is in shadow. -/

/-- Sample `i` begins a pass; at the first sample a pass begins only if `b`. -/
def begins (b : Bool) (d : Nat → Bool) : Nat → Bool
  | 0 => b && d 0
  | i + 1 => d (i + 1) && !d i

/-- The first of the samples below `n` that is after `i` and in light. -/
def endOf (d : Nat → Bool) (n i : Nat) : Option Nat := (List.range n).find? fun j => decide (i < j) && !d j

/-- The first of the samples below `n` in light. -/
def firstLight (d : Nat → Bool) (n : Nat) : Option Nat := (List.range n).find? fun j => !d j

/-- The samples below `n` that begin a pass. -/
def starts (b : Bool) (d : Nat → Bool) (n : Nat) : List Nat := (List.range n).filter (begins b d)

/-! ### Lemmas about the specification -/

theorem starts_succ (b : Bool) (d : Nat → Bool) (n : Nat) :
    starts b d (n + 1) = if begins b d n then starts b d n ++ [n] else starts b d n := by
  unfold starts
  rw [List.range_succ, List.filter_append]
  split
  · rename_i h; simp [h]
  · rename_i h; simp [h]

theorem mem_starts {b : Bool} {d : Nat → Bool} {n i : Nat} :
    i ∈ starts b d n ↔ i < n ∧ begins b d i = true := by
  unfold starts
  simp

theorem endOf_succ (d : Nat → Bool) (n i : Nat) : endOf d (n + 1) i =
    if (endOf d n i).isSome then endOf d n i else if i < n ∧ d n = false then some n else none := by
  unfold endOf
  rw [List.range_succ, List.find?_append]
  cases h : (List.range n).find? fun j => decide (i < j) && !d j with
  | some v => simp
  | none =>
    simp only [Option.none_or, Option.isSome_none, Bool.false_eq_true, if_false]
    by_cases h1 : i < n
    · cases h2 : d n <;> simp [h1, h2]
    · simp [h1]

theorem firstLight_succ (d : Nat → Bool) (n : Nat) : firstLight d (n + 1) =
    if (firstLight d n).isSome then firstLight d n else if d n = false then some n else none := by
  unfold firstLight
  rw [List.range_succ, List.find?_append]
  cases h : (List.range n).find? fun j => !d j with
  | some v => simp
  | none =>
    simp only [Option.none_or, Option.isSome_none, Bool.false_eq_true, if_false]
    cases h2 : d n <;> simp [h2]

theorem endOf_isSome {d : Nat → Bool} {n i : Nat} (j : Nat) (h1 : i < j) (h2 : j < n) (h3 : d j = false) :
    (endOf d n i).isSome = true := by
  unfold endOf
  rw [List.find?_isSome]
  exact ⟨j, by simpa using h2, by simp [h1, h3]⟩

theorem firstLight_isSome {d : Nat → Bool} {n : Nat} (j : Nat) (h2 : j < n) (h3 : d j = false) :
    (firstLight d n).isSome = true := by
  unfold firstLight
  rw [List.find?_isSome]
  exact ⟨j, by simpa using h2, by simp [h3]⟩

theorem begins_dark {b : Bool} {d : Nat → Bool} {i : Nat} (h : begins b d i = true) : d i = true := by
  cases i with
  | zero => simp [begins] at h; exact h.2
  | succ i => simp [begins] at h; exact h.1

/-- In light: every pass has ended. -/
theorem light_ended {b : Bool} {d : Nat → Bool} {n : Nat} (h : d n = false) {i : Nat} (hi : i ∈ starts b d (n + 1)) :
    (endOf d (n + 1) i).isSome = true := by
  rw [mem_starts] at hi
  have hd := begins_dark hi.2
  refine endOf_isSome n ?_ (by omega) h
  rcases Nat.lt_or_ge i n with h1 | h1
  · exact h1
  · have : i = n := by omega
    rw [this, h] at hd
    simp at hd

/-- Every pass but the last has ended. -/
theorem earlier_ended {b : Bool} {d : Nat → Bool} {n i : Nat} {l r : List Nat} (h : starts b d n = l ++ i :: r)
    {k : Nat} (hk : k ∈ l) : (endOf d n k).isSome = true := by
  have hs : (starts b d n).Pairwise (· < ·) := by
    unfold starts
    exact List.Pairwise.filter _ List.pairwise_lt_range
  rw [h, List.pairwise_append] at hs
  have hki : k < i := hs.2.2 k hk i List.mem_cons_self
  have hi : i ∈ starts b d n := by rw [h]; simp
  have hk' : k ∈ starts b d n := by rw [h]; simp [hk]
  rw [mem_starts] at hi hk'
  cases i with
  | zero => omega
  | succ i =>
    have hb := hi.2
    simp only [begins, Bool.and_eq_true, Bool.not_eq_true'] at hb
    refine endOf_isSome i ?_ (by omega) hb.2
    rcases Nat.lt_or_ge k i with h1 | h1
    · exact h1
    · have : k = i := by omega
      have hd := begins_dark hk'.2
      rw [this, hb.2] at hd
      simp at hd

/-- In shadow: the last pass has not ended. -/
theorem dark_open {b : Bool} {d : Nat → Bool} {n : Nat} (h : d n = true) {i : Nat} {l : List Nat}
    (hi : starts b d (n + 1) = l ++ [i]) : endOf d (n + 1) i = none := by
  induction n generalizing l i with
  | zero =>
    have : i ∈ starts b d 1 := by rw [hi]; simp
    rw [mem_starts] at this
    unfold endOf
    have : i = 0 := by omega
    rw [this]
    rfl
  | succ n ih =>
    have hself : endOf d (n + 1 + 1) (n + 1) = none := by
      unfold endOf
      rw [List.find?_eq_none]
      intro j hj
      have : j < n + 1 + 1 := by simpa using hj
      simp
      omega
    rw [starts_succ] at hi
    by_cases hb : begins b d (n + 1) = true
    · rw [if_pos hb] at hi
      have := List.append_inj_right' hi rfl
      have : n + 1 = i := by simpa using this
      rw [← this]
      exact hself
    · rw [if_neg hb] at hi
      have hd : d n = true := by
        simp only [begins, h, Bool.true_and, Bool.not_eq_true', Bool.not_eq_false] at hb
        exact hb
      rw [endOf_succ, ih hd hi]
      simp [h]

theorem firstLight_dark {d : Nat → Bool} {n : Nat} (h : d n = true) (hs : starts false d (n + 1) = []) :
    firstLight d (n + 1) = none := by
  induction n with
  | zero =>
    unfold firstLight
    rw [List.find?_eq_none]
    intro j hj
    have : j = 0 := by simpa using hj
    rw [this]
    simp [h]
  | succ n ih =>
    rw [starts_succ] at hs
    by_cases hb : begins false d (n + 1) = true
    · rw [if_pos hb] at hs
      simp at hs
    · rw [if_neg hb] at hs
      have hd : d n = true := by
        simp only [begins, h, Bool.true_and, Bool.not_eq_true', Bool.not_eq_false] at hb
        exact hb
      rw [firstLight_succ, ih hd hs]
      simp [h]

theorem firstLight_started {d : Nat → Bool} {n i : Nat} (h : i ∈ starts false d n) :
    (firstLight d n).isSome = true := by
  rw [mem_starts] at h
  cases i with
  | zero => simp [begins] at h
  | succ i =>
    simp only [begins, Bool.and_eq_true, Bool.not_eq_true'] at h
    exact firstLight_isSome i (by omega) h.2.2

/-! ### Models without penumbra -/

/-- The list after `n` samples. -/
def run2 (t : Nat → Int) (c : Nat → ℚ) (n : Nat) : List Pass :=
  (List.range n).foldl (fun L i => step2 (t i) (c i) L) [Pass.new none]

/-- In shadow for such a model. -/
def dark2 (c : Nat → ℚ) (i : Nat) : Bool := decide (c i = 0)

theorem run2_succ (t : Nat → Int) (c : Nat → ℚ) (n : Nat) : run2 t c (n + 1) = step2 (t n) (c n) (run2 t c n) := by
  unfold run2
  rw [List.range_succ, List.foldl_append]
  rfl

/-- What is listed for a pass that begins at sample `i`. -/
def pass2 (t : Nat → Int) (d : Nat → Bool) (n i : Nat) : Pass := ⟨some (t i), (endOf d n i).map t, none, none⟩

/-- C131, models without penumbra: after a first entry without beginning, the passes from the first that
begins after an epoch in light, in order, with the epochs of beginning and end. -/
theorem passes_shadow (t : Nat → Int) (c : Nat → ℚ) (n : Nat) :
    (run2 t c n).reverse = ⟨none, (firstLight (dark2 c) n).map t, none, none⟩ ::
      (starts false (dark2 c) n).map (pass2 t (dark2 c) n) := by
  rw [← List.reverse_inj, List.reverse_reverse, List.reverse_cons, ← List.map_reverse]
  induction n with
  | zero => rfl
  | succ n ih =>
    rw [run2_succ, ih, starts_succ]
    set d := dark2 c with hd
    by_cases hn : c n = 0
    · have hdn : d n = true := by simp [hd, dark2, hn]
      have hend : ∀ i, endOf d (n + 1) i = endOf d n i := by
        intro i
        rw [endOf_succ]
        cases h : endOf d n i <;> simp [hdn]
      have hfl : firstLight d (n + 1) = firstLight d n := by
        rw [firstLight_succ]
        cases h : firstLight d n <;> simp [hdn]
      have hp : pass2 t d (n + 1) = pass2 t d n := by
        funext i
        unfold pass2
        rw [hend]
      rw [hfl, hp]
      by_cases hb : begins false d n = true
      · -- the previous sample is in light
        rw [if_pos hb, List.reverse_append, List.reverse_singleton, List.singleton_append, List.map_cons]
        obtain ⟨m, rfl⟩ : ∃ m, n = m + 1 := by
          cases n with
          | zero => simp [begins] at hb
          | succ m => exact ⟨m, rfl⟩
        have hm : d m = false := by
          simp only [begins, Bool.and_eq_true, Bool.not_eq_true'] at hb
          exact hb.2
        have hnew : pass2 t d (m + 1) (m + 1) = Pass.new (some (t (m + 1))) := by
          unfold pass2 Pass.new
          have : endOf d (m + 1) (m + 1) = none := by
            unfold endOf
            rw [List.find?_eq_none]
            intro j hj
            have : j < m + 1 := by simpa using hj
            simp
            omega
          rw [this]
          rfl
        rw [hnew]
        cases e : (starts false d (m + 1)).reverse with
        | nil =>
          rw [List.map_nil, List.nil_append, step2, if_pos hn, if_pos]
          · rfl
          · have := firstLight_isSome (d := d) (n := m + 1) m (by omega) hm
            unfold Pass.closed
            simpa using this
        | cons i r =>
          have hi : i ∈ starts false d (m + 1) := by
            rw [← List.mem_reverse, e]
            simp
          rw [List.map_cons, List.cons_append, step2, if_pos hn, if_pos]
          · rfl
          · have := light_ended hm hi
            unfold Pass.closed pass2
            simpa using this
      · rw [if_neg hb]
        cases n with
        | zero =>
          unfold starts
          rw [List.range_zero, List.filter_nil, List.reverse_nil, List.map_nil, List.nil_append, step2, if_pos hn]
          rfl
        | succ m =>
          have hm : d m = true := by
            simp only [begins, hdn, Bool.true_and, Bool.not_eq_true', Bool.not_eq_false] at hb
            exact hb
          cases e : (starts false d (m + 1)).reverse with
          | nil =>
            rw [List.map_nil, List.nil_append, step2, if_pos hn, if_neg]
            rw [firstLight_dark hm (by simpa using e)]
            simp [Pass.closed]
          | cons i r =>
            have hs : starts false d (m + 1) = r.reverse ++ [i] := by
              rw [← List.reverse_reverse (starts false d (m + 1)), e]
              simp
            rw [List.map_cons, List.cons_append, step2, if_pos hn, if_neg]
            unfold pass2
            rw [dark_open hm hs]
            simp [Pass.closed]
    · have hdn : d n = false := by simp [hd, dark2, hn]
      have hb : ¬ begins false d n = true := fun h => by
        rw [begins_dark h] at hdn
        simp at hdn
      rw [if_neg hb]
      have hend : ∀ i, (endOf d n i).isSome = true → endOf d (n + 1) i = endOf d n i := by
        intro i h
        rw [endOf_succ, if_pos h]
      cases e : (starts false d n).reverse with
      | nil =>
        rw [List.map_nil, List.map_nil, List.nil_append, List.nil_append, step2, if_neg hn, firstLight_succ]
        cases h : firstLight d n <;> simp [Pass.closed, hdn]
      | cons i r =>
        have hi : i ∈ starts false d n := by
          rw [← List.mem_reverse, e]
          simp
        have hs : starts false d n = r.reverse ++ i :: [] := by
          rw [← List.reverse_reverse (starts false d n), e]
          simp
        have hr : r.map (pass2 t d (n + 1)) = r.map (pass2 t d n) := by
          rw [List.map_inj_left]
          intro k hk
          unfold pass2
          rw [hend k (earlier_ended hs (by simpa using hk))]
        rw [List.map_cons, List.map_cons, List.cons_append, List.cons_append, step2, if_neg hn, hr, firstLight_succ,
          if_pos (firstLight_started hi)]
        have hlt := (mem_starts.mp hi).1
        cases h : endOf d n i <;> simp [pass2, endOf_succ, h, Pass.closed, hdn, hlt]

/-- One pass too many when the first epoch is in light. -/
theorem extra_counterexample (t : Nat → Int) (c : Nat → ℚ) (n : Nat) (h : c 0 ≠ 0) :
    (run2 t c (n + 1)).length = (starts true (dark2 c) (n + 1)).length + 1 ∧
    (run2 t c (n + 1)).getLast? = some ⟨none, some (t 0), none, none⟩ := by
  have h0 : dark2 c 0 = false := by simp [dark2, h]
  have hs : starts true (dark2 c) (n + 1) = starts false (dark2 c) (n + 1) := by
    unfold starts
    refine List.filter_congr ?_
    intro i _
    cases i with
    | zero => simp [begins, h0]
    | succ i => rfl
  have hf : firstLight (dark2 c) (n + 1) = some 0 := by
    unfold firstLight
    rw [List.range_succ_eq_map, List.find?_cons_of_pos]
    simp [h0]
  have := passes_shadow t c (n + 1)
  rw [hf] at this
  constructor
  · rw [← List.length_reverse, this, hs]
    simp
  · rw [← List.head?_reverse, this]
    rfl

/-- A pass that begins with the first epoch is listed without its beginning. -/
theorem first_counterexample (t : Nat → Int) (c : Nat → ℚ) (n : Nat) :
    ∃ e, (run2 t c n).getLast? = some ⟨none, e, none, none⟩ := by
  rw [← List.head?_reverse, passes_shadow]
  exact ⟨_, rfl⟩

/-! ### Models with penumbra -/

/-- The list after `n` samples. -/
def run3 (t : Nat → Int) (c : Nat → ℚ) (n : Nat) : List Pass :=
  (List.range n).foldl (fun L i => step3 (t i) (c i) L) [Pass.new none]

theorem run3_succ (t : Nat → Int) (c : Nat → ℚ) (n : Nat) : run3 t c (n + 1) = step3 (t n) (c n) (run3 t c n) := by
  unfold run3
  rw [List.range_succ, List.foldl_append]
  rfl

/-- What is listed for a pass that begins at sample `i`. -/
def pass3 (t : Nat → Int) (d : Nat → Bool) (n i : Nat) : Pass :=
  ⟨some (t i), (endOf d n i).map t, some (t i), (endOf d n i).map t⟩

theorem starts_ne_nil {d : Nat → Bool} {n : Nat} (h : d n = true) : starts true d (n + 1) ≠ [] := by
  induction n with
  | zero => simp [starts, List.range_succ, begins, h]
  | succ n ih =>
    rw [starts_succ]
    by_cases hb : begins true d (n + 1) = true
    · rw [if_pos hb]
      simp
    · rw [if_neg hb]
      refine ih ?_
      simp only [begins, h, Bool.true_and, Bool.not_eq_true', Bool.not_eq_false] at hb
      exact hb

/-- C131, models with penumbra, without an epoch in penumbra: the passes in order, with the epochs of
beginning and end; before the first an empty one. -/
theorem passes_umbra_partial (t : Nat → Int) (c : Nat → ℚ) (n : Nat) (hc : ∀ i < n, c i = 0 ∨ 1 ≤ c i) :
    (run3 t c n).reverse = if starts true (dark2 c) n = [] then [Pass.new none]
      else (starts true (dark2 c) n).map (pass3 t (dark2 c) n) := by
  have key : run3 t c n = if (starts true (dark2 c) n).reverse = [] then [Pass.new none]
      else (starts true (dark2 c) n).reverse.map (pass3 t (dark2 c) n) := by
    induction n with
    | zero => rfl
    | succ n ih =>
      rw [run3_succ, ih (fun i hi => hc i (by omega)), starts_succ]
      set d := dark2 c with hd
      rcases hc n (by omega) with hn | hn
      · have hdn : d n = true := by simp [hd, dark2, hn]
        have hend : ∀ i, endOf d (n + 1) i = endOf d n i := by
          intro i
          rw [endOf_succ]
          cases h : endOf d n i <;> simp [hdn]
        have hp : pass3 t d (n + 1) = pass3 t d n := by
          funext i
          unfold pass3
          rw [hend]
        have hlt : c n < 1 := by rw [hn]; norm_num
        rw [hp]
        by_cases hb : begins true d n = true
        · have hnew : pass3 t d n n = ⟨some (t n), none, some (t n), none⟩ := by
            unfold pass3
            have : endOf d n n = none := by
              unfold endOf
              rw [List.find?_eq_none]
              intro j hj
              have : j < n := by simpa using hj
              simp
              omega
            rw [this]
            rfl
          rw [if_pos hb, List.reverse_append, List.reverse_singleton, List.singleton_append, List.map_cons, hnew]
          cases e : (starts true d n).reverse with
          | nil =>
            rw [if_pos rfl, if_neg (List.cons_ne_nil _ _), step3, if_pos hlt, if_pos hn]
            rfl
          | cons i r =>
            have hi : i ∈ starts true d n := by
              rw [← List.mem_reverse, e]
              simp
            obtain ⟨m, rfl⟩ : ∃ m, n = m + 1 := by
              cases n with
              | zero => simp [starts] at hi
              | succ m => exact ⟨m, rfl⟩
            have hm : d m = false := by
              simp only [begins, Bool.and_eq_true, Bool.not_eq_true'] at hb
              exact hb.2
            have hended := light_ended hm hi
            rw [if_neg (List.cons_ne_nil _ _), if_neg (List.cons_ne_nil _ _), List.map_cons, step3, if_pos hlt,
              if_pos hn, if_neg, if_pos]
            · rfl
            · simpa [pass3] using hended
            · simp [Pass.empty, pass3]
        · rw [if_neg hb]
          obtain ⟨m, rfl⟩ : ∃ m, n = m + 1 := by
            cases n with
            | zero => simp [begins, hdn] at hb
            | succ m => exact ⟨m, rfl⟩
          have hm : d m = true := by
            simp only [begins, hdn, Bool.true_and, Bool.not_eq_true', Bool.not_eq_false] at hb
            exact hb
          cases e : (starts true d (m + 1)).reverse with
          | nil => exact absurd (by simpa using e) (starts_ne_nil hm)
          | cons i r =>
            have hs : starts true d (m + 1) = r.reverse ++ [i] := by
              rw [← List.reverse_reverse (starts true d (m + 1)), e]
              simp
            have ho := dark_open hm hs
            rw [if_neg (List.cons_ne_nil _ _), List.map_cons, step3, if_pos hlt, if_pos hn]
            simp [Pass.empty, pass3, ho]
      · have hn0 : c n ≠ 0 := fun h => by rw [h] at hn; norm_num at hn
        have hdn : d n = false := by simp [hd, dark2, hn0]
        have hb : ¬ begins true d n = true := fun h => by
          rw [begins_dark h] at hdn
          simp at hdn
        rw [if_neg hb]
        cases e : (starts true d n).reverse with
        | nil =>
          rw [if_pos rfl, if_pos rfl, step3, if_neg (by simpa using hn)]
          rfl
        | cons i r =>
          have hi : i ∈ starts true d n := by
            rw [← List.mem_reverse, e]
            simp
          have hs : starts true d n = r.reverse ++ i :: [] := by
            rw [← List.reverse_reverse (starts true d n), e]
            simp
          have hr : r.map (pass3 t d (n + 1)) = r.map (pass3 t d n) := by
            rw [List.map_inj_left]
            intro k hk
            unfold pass3
            rw [endOf_succ, if_pos (earlier_ended hs (by simpa using hk))]
          rw [if_neg (List.cons_ne_nil _ _), if_neg (List.cons_ne_nil _ _), List.map_cons, List.map_cons, step3,
            if_neg (by simpa using hn), hr]
          have hlt := (mem_starts.mp hi).1
          cases h : endOf d n i <;> simp [pass3, endOf_succ, h, hdn, hlt]
  rw [key]
  by_cases h : starts true (dark2 c) n = []
  · rw [if_pos (by simpa using h), if_pos h]
    rfl
  · rw [if_neg (by simpa using h), if_neg h, ← List.map_reverse, List.reverse_reverse]

/-- The newest pass is empty, open or closed. -/
def Shape (p : Pass) : Prop :=
  p = Pass.new none ∨ (p.pstart.isSome = true ∧ p.pstop = none ∧ p.ustop = none) ∨
    (p.pstart.isSome = true ∧ p.pstop.isSome = true ∧ p.ustop.isSome = true)

/-- Whatever the coefficients: the shape of the newest pass; it is in umbra exactly when the last sample
was; the beginnings of umbra listed are those of the samples. -/
theorem run3_state (t : Nat → Int) (c : Nat → ℚ) (n : Nat) :
    ∃ p ps, run3 t c n = p :: ps ∧ Shape p ∧
      ((p.ustart.isSome = true ∧ p.pstop = none) ↔ 0 < n ∧ c (n - 1) = 0) ∧
      (p :: ps).reverse.filterMap (·.ustart) = (starts true (dark2 c) n).map t := by
  induction n with
  | zero => exact ⟨Pass.new none, [], rfl, .inl rfl, by simp [Pass.new], by simp [Pass.new, starts]⟩
  | succ n ih =>
    obtain ⟨p, ps, h1, h2, h3, h4⟩ := ih
    rw [run3_succ, h1]
    rw [starts_succ]
    have hbeg : begins true (dark2 c) n = true ↔ c n = 0 ∧ ¬ (0 < n ∧ c (n - 1) = 0) := by
      cases n with
      | zero => simp [begins, dark2]
      | succ m => simp [begins, dark2]
    rw [← h3] at hbeg
    rw [List.reverse_cons, List.filterMap_append] at h4
    simp only [Nat.add_sub_cancel, Nat.zero_lt_succ, true_and]
    by_cases hlt : c n < 1
    · by_cases hn : c n = 0
      · rw [step3, if_pos hlt, if_pos hn]
        rcases h2 with rfl | ⟨a1, a2, a3⟩ | ⟨a1, a2, a3⟩
        · refine ⟨_, _, rfl, .inr (.inl ⟨rfl, rfl, rfl⟩), by simp [hn, Pass.new], ?_⟩
          rw [if_pos (hbeg.mpr ⟨hn, by simp [Pass.new]⟩), List.map_append, ← h4]
          simp [Pass.new]
        · have he : p.empty = false := by simp [Pass.empty, Option.isSome_iff_ne_none.mp a1]
          rw [if_neg (by simp [he]), if_neg (by simp [a2])]
          cases hu : p.ustart with
          | none =>
            rw [if_pos (by simp [a1])]
            refine ⟨_, _, rfl, .inr (.inl ⟨a1, a2, a3⟩), by simp [hn, a2], ?_⟩
            rw [if_pos (hbeg.mpr ⟨hn, by simp [hu]⟩), List.map_append, ← h4]
            simp [hu]
          | some u =>
            rw [if_neg (by simp)]
            refine ⟨_, _, rfl, .inr (.inl ⟨a1, a2, a3⟩), by simp [hn, a2, hu], ?_⟩
            rw [if_neg (fun h => (hbeg.mp h).2 ⟨by simp [hu], a2⟩), ← h4]
            simp
        · have he : p.empty = false := by simp [Pass.empty, Option.isSome_iff_ne_none.mp a1]
          rw [if_neg (by simp [he]), if_pos (by simp [a2])]
          refine ⟨_, _, rfl, .inr (.inl ⟨rfl, rfl, rfl⟩), by simp [hn, Pass.new], ?_⟩
          rw [if_pos (hbeg.mpr ⟨hn, fun h => by rw [h.2] at a2; simp at a2⟩), List.map_append, ← h4]
          cases hu : p.ustart <;> simp [hu]
      · rw [step3, if_pos hlt, if_neg hn, if_neg (fun h => hn (hbeg.mp h).1)]
        rcases h2 with rfl | ⟨a1, a2, a3⟩ | ⟨a1, a2, a3⟩
        · refine ⟨_, _, rfl, .inr (.inl ⟨rfl, rfl, rfl⟩), by simp [hn, Pass.new], ?_⟩
          rw [← h4]
          simp [Pass.new]
        · have he : p.empty = false := by simp [Pass.empty, Option.isSome_iff_ne_none.mp a1]
          rw [if_neg (by simp [he]), if_pos (by simp [a2])]
          refine ⟨_, _, rfl, .inr (.inl ⟨rfl, rfl, rfl⟩), by simp [hn, Pass.new], ?_⟩
          rw [← h4]
          cases hu : p.ustart <;> simp [Pass.new, hu]
        · have he : p.empty = false := by simp [Pass.empty, Option.isSome_iff_ne_none.mp a1]
          rw [if_neg (by simp [he]), if_neg (by simpa using Option.isSome_iff_ne_none.mp a2)]
          refine ⟨_, _, rfl, .inr (.inr ⟨a1, a2, a3⟩), by simp [hn, Option.isSome_iff_ne_none.mp a2], ?_⟩
          rw [← h4]
          simp
    · have hn : c n ≠ 0 := fun h => hlt (by rw [h]; norm_num)
      rw [step3, if_neg hlt, if_neg (fun h => hn (hbeg.mp h).1)]
      rcases h2 with rfl | ⟨a1, a2, a3⟩ | ⟨a1, a2, a3⟩
      · refine ⟨_, _, rfl, .inl rfl, by simp [hn, Pass.new], ?_⟩
        rw [← h4]
        simp
      · rw [if_pos (by simp [a1, a2])]
        refine ⟨_, _, rfl, .inr (.inr ⟨a1, rfl, by simp [a3]⟩), by simp [hn], ?_⟩
        rw [← h4]
        cases hu : p.ustart <;> simp [hu]
      · rw [if_neg (by simp [Option.isSome_iff_ne_none.mp a2])]
        refine ⟨_, _, rfl, .inr (.inr ⟨a1, a2, a3⟩), by simp [hn, Option.isSome_iff_ne_none.mp a2], ?_⟩
        rw [← h4]
        simp

/-- C131, umbra: the beginnings of umbra listed are the epochs at which umbra begins, for all coefficients. -/
theorem umbra_starts (t : Nat → Int) (c : Nat → ℚ) (n : Nat) :
    (run3 t c n).reverse.filterMap (·.ustart) = (starts true (dark2 c) n).map t := by
  obtain ⟨p, ps, h1, -, -, h4⟩ := run3_state t c n
  rw [h1]
  exact h4

/-- C131, newest pass: open in penumbra and umbra after an epoch in umbra, neither after an epoch in light. -/
theorem newest_pass (t : Nat → Int) (c : Nat → ℚ) (n : Nat) :
    ∃ p ps, run3 t c (n + 1) = p :: ps ∧ (c n = 0 → p.inUmbra = true ∧ p.inPenumbra = true) ∧
      (1 ≤ c n → p.inUmbra = false ∧ p.inPenumbra = false) := by
  obtain ⟨p, ps, h1, h2, h3, -⟩ := run3_state t c (n + 1)
  refine ⟨p, ps, h1, fun h => ?_, fun h => ?_⟩
  · have := h3.mpr ⟨by omega, h⟩
    rcases h2 with rfl | ⟨a1, a2, a3⟩ | ⟨a1, a2, a3⟩
    · simp [Pass.new] at this
    · simp [Pass.inUmbra, Pass.inPenumbra, this.1, a1, a2, a3]
    · rw [this.2] at a2
      simp at a2
  · have hlt : ¬ c n < 1 := by simpa using h
    obtain ⟨q, qs, g1, g2, -, -⟩ := run3_state t c n
    rw [run3_succ, g1, step3, if_neg hlt] at h1
    rcases g2 with rfl | ⟨a1, a2, a3⟩ | ⟨a1, a2, a3⟩
    · rw [if_neg (by simp [Pass.new]), List.cons.injEq] at h1
      rw [← h1.1]
      decide
    · rw [if_pos (by simp [a1, a2]), List.cons.injEq] at h1
      rw [← h1.1]
      simp [Pass.inUmbra, Pass.inPenumbra, a3]
    · rw [if_neg (by simp [Option.isSome_iff_ne_none.mp a2]), List.cons.injEq] at h1
      rw [← h1.1]
      simp [Pass.inUmbra, Pass.inPenumbra, a2, a3]

/-- Every epoch in penumbra begins a pass of its own, which has no end. -/
theorem many_counterexample (t : Nat → Int) (c : Nat → ℚ) (n : Nat) (hc : ∀ i ≤ n, 0 < c i ∧ c i < 1) :
    (run3 t c (n + 1)).reverse = (List.range (n + 1)).map fun i => Pass.new (some (t i)) := by
  induction n with
  | zero =>
    obtain ⟨h1, h2⟩ := hc 0 (by omega)
    rw [run3_succ]
    have : run3 t c 0 = [Pass.new none] := rfl
    rw [this, step3, if_pos h2, if_neg h1.ne']
    rfl
  | succ n ih =>
    obtain ⟨h1, h2⟩ := hc (n + 1) (by omega)
    have h := ih (fun i hi => hc i (by omega))
    rw [← List.reverse_inj, List.reverse_reverse] at h
    rw [run3_succ, h, List.range_succ (n := n + 1), List.map_append, ← List.reverse_inj, List.reverse_reverse,
      List.reverse_append]
    rw [List.range_succ (n := n), List.map_append, List.reverse_append]
    simp only [List.map_cons, List.map_nil, List.reverse_singleton, List.singleton_append]
    rw [step3, if_pos h2, if_neg h1.ne', if_neg (by simp [Pass.empty, Pass.new]), if_pos (by rfl)]

/-- Once a pass is closed, epochs in penumbra change nothing: a later pass through penumbra alone is missing,
and one through umbra begins at the umbra. -/
theorem lost_counterexample (t : Nat → Int) (c : Nat → ℚ) (n m : Nat) (hm : n ≤ m) (p : Pass) (ps : List Pass)
    (hp : run3 t c n = p :: ps) (hcl : p.closed = true) (hc : ∀ i, n ≤ i → i < m → c i ≠ 0 ∧ c i < 1) :
    run3 t c m = p :: ps := by
  induction m with
  | zero =>
    have : n = 0 := by omega
    rw [← this]
    exact hp
  | succ m ih =>
    rcases Nat.lt_or_ge m n with h | h
    · have : n = m + 1 := by omega
      rw [← this]
      exact hp
    · obtain ⟨h1, h2⟩ := hc m h (by omega)
      have hs : p.pstop.isSome = true := hcl
      rw [run3_succ, ih h (fun i hi hi' => hc i hi (by omega)), step3, if_pos h2, if_neg h1, if_neg, if_neg]
      · simpa using Option.isSome_iff_ne_none.mp hs
      · simp [Pass.empty, Option.isSome_iff_ne_none.mp hs]

/-- The end of umbra listed is always the end of penumbra, even for passes without umbra. -/
theorem umbra_end_counterexample (t : Nat → Int) (c : Nat → ℚ) (n : Nat) : ∀ p ∈ run3 t c n, p.ustop = p.pstop := by
  induction n with
  | zero =>
    intro p hp
    have : p = Pass.new none := by simpa [run3] using hp
    rw [this]
    rfl
  | succ n ih =>
    rw [run3_succ]
    cases h : run3 t c n with
    | nil => simp [step3]
    | cons q qs =>
      rw [h] at ih
      have hq := ih q List.mem_cons_self
      have hqs : ∀ p ∈ qs, p.ustop = p.pstop := fun p hp => ih p (List.mem_cons_of_mem _ hp)
      have hcons : ∀ r : Pass, r.ustop = r.pstop → ∀ p ∈ r :: qs, p.ustop = p.pstop := by
        intro r hr p hp
        rcases List.mem_cons.mp hp with rfl | hp
        · exact hr
        · exact hqs p hp
      have hcons2 : ∀ r : Pass, r.ustop = r.pstop → ∀ p ∈ r :: q :: qs, p.ustop = p.pstop := by
        intro r hr p hp
        rcases List.mem_cons.mp hp with rfl | hp
        · exact hr
        · exact hcons q hq p hp
      rw [step3]
      split
      · split
        · split
          · exact hcons _ hq
          · split
            · exact hcons2 _ rfl
            · split
              · exact hcons _ hq
              · exact hcons _ hq
        · split
          · exact hcons _ hq
          · split
            · exact hcons2 _ rfl
            · exact hcons _ hq
      · split
        · rename_i h5
          simp only [Bool.and_eq_true, Option.isNone_iff_eq_none] at h5
          refine hcons _ ?_
          simp only
          rw [hq, h5.2]
          rfl
        · exact hcons _ hq

/-! ### The program -/

/-- The number of epochs. -/
def count (start stop every : Int) : Nat := ((stop - start + every - 1) / every).toNat

/-- The samples: epochs and coefficients where the interpolation succeeds. -/
def samples (sample : Int → Option Coefs) (start every : Int) (n : Nat) : List (Int × Coefs) :=
  (List.range n).filterMap fun i : Nat => (sample (start + (i : Int) * every)).map fun c => (start + i * every, c)

theorem loop_fold (sample : Int → Option Coefs) (stop every : Int) (he : 0 < every) (k : Nat) :
    ∀ (start : Int) (L : Logs), count start stop every < k →
      loop sample stop every k start L =
        some ((samples sample start every (count start stop every)).foldl (fun L s => shadowCoeff s.1 s.2 L) L) := by
  induction k with
  | zero => intro start L h; omega
  | succ k ih =>
    intro start L h
    rw [loop]
    by_cases hs : start < stop
    · rw [if_pos hs]
      have hc : count start stop every = count (start + every) stop every + 1 := by
        unfold count
        have e : stop - start + every - 1 = (stop - (start + every) + every - 1) + every := by omega
        have hnn : 0 ≤ (stop - (start + every) + every - 1) / every := Int.ediv_nonneg (by omega) (by omega)
        rw [e, Int.add_ediv_of_dvd_right (dvd_refl every), Int.ediv_self (by omega)]
        omega
      rw [ih _ _ (by omega), hc]
      have hsm : samples sample start every (count (start + every) stop every + 1) =
          (((sample start).map fun c => (start, c)).toList ++
            samples sample (start + every) every (count (start + every) stop every)) := by
        unfold samples
        rw [List.range_succ_eq_map]
        have h0 : start + ((0 : Nat) : Int) * every = start := by simp
        have hsh : ∀ i : Nat, start + ((i + 1 : Nat) : Int) * every = start + every + (i : Int) * every := by
          intro i
          push_cast
          rw [Int.add_mul]
          omega
        rw [List.filterMap_cons, List.filterMap_map, h0]
        have hfun : ((fun i : Nat => (sample (start + (i : Int) * every)).map fun c => (start + (i : Int) * every, c)) ∘
            Nat.succ) = fun i : Nat => (sample (start + every + (i : Int) * every)).map
              fun c => (start + every + (i : Int) * every, c) := by
          funext i
          simp only [Function.comp_apply, Nat.succ_eq_add_one, hsh]
        rw [hfun]
        cases sample start <;> rfl
      rw [hsm, List.foldl_append]
      cases h1 : sample start <;> simp [turn]
    · rw [if_neg hs]
      have hc : count start stop every = 0 := by
        unfold count
        have : (stop - start + every - 1) / every < 1 := Int.ediv_lt_of_lt_mul he (by omega)
        omega
      rw [hc]
      rfl

theorem foldl_range {α β : Type} (f : β → α → β) (S : List α) (x : α) (b : β) :
    S.foldl f b = (List.range S.length).foldl (fun b i => f b (S.getD i x)) b := by
  induction S using List.reverseRecOn generalizing b with
  | nil => rfl
  | append_singleton S a ih =>
    rw [List.foldl_append, List.length_append, List.length_singleton, List.range_succ, List.foldl_append, ih]
    have h : (List.range S.length).foldl (fun b i => f b ((S ++ [a]).getD i x)) b =
        (List.range S.length).foldl (fun b i => f b (S.getD i x)) b := by
      refine List.foldl_ext _ _ _ ?_
      intro b i hi
      have : i < S.length := by simpa using hi
      simp [List.getD, List.getElem?_append_left this]
    rw [h]
    simp [List.getD]

theorem logs_fold (S : List (Int × Coefs)) (L : Logs) :
    S.foldl (fun L s => shadowCoeff s.1 s.2 L) L =
      ⟨S.foldl (fun l s => step2 s.1 s.2.c1 l) L.mon, S.foldl (fun l s => step3 s.1 s.2.c3 l) L.val,
        S.foldl (fun l s => step3 s.1 s.2.c3 l) L.con, S.foldl (fun l s => step2 s.1 s.2.c4 l) L.bn1⟩ := by
  induction S generalizing L with
  | nil => rfl
  | cons s S ih =>
    rw [List.foldl_cons, ih]
    rfl

/-- C131, the program: it ends, and its four lists are those of the epochs at which the interpolation
succeeds, spaced regularly from the first epoch and before the last. -/
theorem program_lists (sample : Int → Option Coefs) (start stop every : Int) (he : 0 < every) (k : Nat)
    (hk : count start stop every < k) (x : Int × Coefs) :
    let S := samples sample start every (count start stop every)
    let t := fun i => (S.getD i x).1
    loop sample stop every k start Logs.init = some
      ⟨run2 t (fun i => (S.getD i x).2.c1) S.length, run3 t (fun i => (S.getD i x).2.c3) S.length,
        run3 t (fun i => (S.getD i x).2.c3) S.length, run2 t (fun i => (S.getD i x).2.c4) S.length⟩ := by
  intro S t
  rw [loop_fold sample stop every he k start Logs.init hk, logs_fold]
  rw [foldl_range _ S x, foldl_range _ S x, foldl_range _ S x, foldl_range _ S x]
  rfl

/-- The epochs are those of the loop: regularly spaced, not after the end. -/
theorem count_spec (start stop every : Int) (he : 0 < every) (i : Nat) :
    i < count start stop every ↔ start + i * every < stop := by
  unfold count
  constructor
  · intro h
    have h1 : (i : Int) + 1 ≤ (stop - start + every - 1) / every := by omega
    have := (Int.le_ediv_iff_mul_le he).mp h1
    rw [Int.add_mul] at this
    omega
  · intro h
    have h1 : ((i : Int) + 1) * every ≤ stop - start + every - 1 := by
      rw [Int.add_mul]
      omega
    have := (Int.le_ediv_iff_mul_le he).mpr h1
    omega

/-- The list for the conical model is that of Vallado's model, whatever the conical coefficients. -/
theorem conic_counterexample (sample : Int → Option Coefs) (start stop every : Int) (k : Nat) (L : Logs)
    (h : loop sample stop every k start Logs.init = some L) : L.con = L.val := by
  have key : ∀ (k : Nat) (start : Int) (M : Logs), M.con = M.val → ∀ L,
      loop sample stop every k start M = some L → L.con = L.val := by
    intro k
    induction k with
    | zero => intro start M _ L h; simp [loop] at h
    | succ k ih =>
      intro start M hM L h
      rw [loop] at h
      split at h
      · refine ih _ _ ?_ L h
        cases sample start with
        | none => exact hM
        | some c =>
          simp only [turn, shadowCoeff]
          rw [hM]
      · rw [← Option.some.inj h]
        exact hM
  exact key k start Logs.init rfl L h

/-! ### Examples -/

/-- Light, shadow, shadow, light, shadow: two passes and an entry before them. -/
example : (run2 (fun i => 10 * i) (fun i => if i = 1 ∨ i = 2 ∨ i = 4 then 0 else 1) 5).reverse =
    [⟨none, some 0, none, none⟩, ⟨some 10, some 30, none, none⟩, ⟨some 40, none, none, none⟩] := by decide +kernel

/-- The same for a model with penumbra. -/
example : (run3 (fun i => 10 * i) (fun i => if i = 1 ∨ i = 2 ∨ i = 4 then 0 else 1) 5).reverse =
    [⟨some 10, some 30, some 10, some 30⟩, ⟨some 40, none, some 40, none⟩] := by decide +kernel

/-- A passage with two epochs in penumbra before and after the umbra is listed as four passes, three of them
without an end; the next passage through penumbra is missing. -/
example : (run3 (fun i => 10 * i) (fun i => if i = 0 ∨ i = 6 ∨ i = 9 then 1 else if i = 3 then 0 else 1 / 2) 10).reverse =
    [⟨some 10, none, none, none⟩, ⟨some 20, none, some 30, none⟩, ⟨some 40, none, none, none⟩,
      ⟨some 50, some 60, none, some 60⟩] := by decide +kernel

/-- A closed pass, so that later epochs in penumbra are lost. -/
example : run3 (fun i => 10 * i) (fun i => if i = 0 then 0 else 1) 2 = [⟨some 0, some 10, some 0, some 10⟩] ∧
    (⟨some 0, some 10, some 0, some 10⟩ : Pass).closed = true := by decide +kernel

/-- The conical coefficient is in umbra throughout, the list says that it never is. -/
example : (loop (fun _ => some ⟨1, 0, 1, 1⟩) 100 10 20 0 Logs.init).map (·.con) = some [Pass.new none] := by
  decide +kernel

end Verif.Forces.Passes
