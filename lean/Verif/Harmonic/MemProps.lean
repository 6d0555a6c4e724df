import Verif.Harmonic.MemLemmas

/-! C07: memory histories of coefficient tables. -/
namespace Verif.Harmonic
open Verif.Heap (Heap)

/-- Safety invariant: every block an object can reach is live, no two objects (and no two
rows) share a block, and there are at least `degree + 1` rows. -/
structure Safe (s : State) : Prop where
  wf : s.heap.WF
  live : ∀ x o, s.objs x = some o → ∀ p ∈ o.blocks, p ∈ s.heap.live
  nodup : ∀ x o, s.objs x = some o → o.blocks.Nodup
  disj : ∀ x y ox oy, s.objs x = some ox → s.objs y = some oy → x ≠ y →
    ∀ p ∈ ox.blocks, p ∉ oy.blocks
  len : ∀ x o outer rows, s.objs x = some o → o.data = some (outer, rows) →
    o.degree + 1 ≤ rows.length

theorem safe_init : Safe State.init where
  wf := Heap.Heap.wf_init
  live := by intro x o h; cases h
  nodup := by intro x o h; cases h
  disj := by intro x y ox oy h; cases h
  len := by intro x o outer rows h; cases h

/-- Replace object `x` by one whose blocks are among its old ones. -/
theorem Safe.shrink {s : State} (hs : Safe s) (x : Nat) (o' : Obj)
    (hb : ∀ o, s.objs x = some o → o'.blocks = o.blocks) (hb' : s.objs x = none → o'.blocks = [])
    (hl : ∀ outer rows, o'.data = some (outer, rows) → o'.degree + 1 ≤ rows.length) :
    Safe ⟨s.heap, upd s.objs x (some o')⟩ := by
  have hsub : ∀ p ∈ o'.blocks, ∃ o, s.objs x = some o ∧ p ∈ o.blocks := by
    intro p hp
    cases hx : s.objs x with
    | none => rw [hb' hx] at hp; cases hp
    | some o => exact ⟨o, rfl, by rw [← hb o hx]; exact hp⟩
  constructor
  · exact hs.wf
  · intro z o hz p hp
    simp only [upd] at hz
    split at hz
    · cases hz; obtain ⟨o, ho, hpo⟩ := hsub p hp; exact hs.live x o ho p hpo
    · exact hs.live z o hz p hp
  · intro z o hz
    simp only [upd] at hz
    split at hz
    · cases hz
      cases hx : s.objs x with
      | none => rw [hb' hx]; exact List.nodup_nil
      | some o => rw [hb o hx]; exact hs.nodup x o hx
    · exact hs.nodup z o hz
  · intro y z oy oz hy hz hyz p hp
    simp only [upd] at hy hz
    split at hy <;> split at hz
    · omega
    · rename_i h1 h2
      cases hy
      obtain ⟨o, ho, hpo⟩ := hsub p hp
      exact hs.disj x z o oz ho hz (fun e => h2 e.symm) p hpo
    · rename_i h1 h2
      cases hz
      intro hp'
      obtain ⟨o, ho, hpo⟩ := hsub p hp'
      exact hs.disj y x oy o hy ho h1 p hp hpo
    · exact hs.disj y z oy oz hy hz hyz p hp
  · intro z o outer rows hz hd
    simp only [upd] at hz
    split at hz
    · cases hz; exact hl outer rows hd
    · exact hs.len z o outer rows hz hd

/-- Forget object `x` after freeing some of its blocks. -/
theorem Safe.drop {s : State} (hs : Safe s) (x : Nat) (o : Obj) (hx : s.objs x = some o) :
    ∃ h, deallocate s.heap o = some h ∧
      (∀ p, p ∈ h.live ↔ p ∈ s.heap.live ∧ p ∉ o.freed) ∧
      Safe ⟨h, upd s.objs x none⟩ := by
  obtain ⟨h, e, w, m⟩ := Heap.Heap.freeAll_spec o.freed hs.wf
    (freed_nodup o (hs.nodup x o hx)) (fun p hp => hs.live x o hx p (freed_sub o p hp))
  refine ⟨h, by rw [deallocate_eq _ _ (fun a b hab => hs.len x o a b hx hab)]; exact e, m, ?_⟩
  constructor
  · exact w
  · intro z oz hz p hp
    simp only [upd] at hz
    split at hz
    · cases hz
    · rename_i hzx
      rw [m]
      exact ⟨hs.live z oz hz p hp, fun hf =>
        hs.disj z x oz o hz hx hzx p hp (freed_sub o p hf)⟩
  · intro z oz hz
    simp only [upd] at hz
    split at hz
    · cases hz
    · exact hs.nodup z oz hz
  · intro y z oy oz hy hz hyz p hp
    simp only [upd] at hy hz
    split at hy
    · cases hy
    · split at hz
      · cases hz
      · exact hs.disj y z oy oz hy hz hyz p hp
  · intro z oz outer rows hz hd
    simp only [upd] at hz
    split at hz
    · cases hz
    · exact hs.len z oz outer rows hz hd

/-- Put a freshly allocated object in an empty place. -/
theorem Safe.alloc {s : State} (hs : Safe s) (x n : Nat) :
    Safe ⟨(allocate s.heap n).2, upd s.objs x (some ⟨n, some (allocate s.heap n).1⟩)⟩ := by
  obtain ⟨h1, h2, h3, h4, h5⟩ := allocate_spec s.heap hs.wf n
  have hbl : (⟨n, some (allocate s.heap n).1⟩ : Obj).blocks
      = (allocate s.heap n).1.1 :: (allocate s.heap n).1.2 := rfl
  constructor
  · exact h1
  · intro z oz hz p hp
    simp only [upd] at hz
    rw [h5]
    split at hz
    · cases hz; exact Or.inl hp
    · exact Or.inr (hs.live z oz hz p hp)
  · intro z oz hz
    simp only [upd] at hz
    split at hz
    · cases hz; rw [hbl]; exact h3
    · exact hs.nodup z oz hz
  · intro y z oy oz hy hz hyz p hp
    simp only [upd] at hy hz
    split at hy <;> split at hz
    · omega
    · cases hy
      exact fun hp' => h4 p hp (hs.live z oz hz p hp')
    · cases hz
      exact fun hp' => h4 p hp' (hs.live y oy hy p hp)
    · exact hs.disj y z oy oz hy hz hyz p hp
  · intro z oz outer rows hz hd
    simp only [upd] at hz
    split at hz
    · cases hz
      simp only [Option.some.injEq] at hd
      rw [hd] at h2
      simp only at h2 ⊢
      omega
    · exact hs.len z oz outer rows hz hd

theorem upd_upd (f : Nat → Option Obj) (x : Nat) (a b : Option Obj) :
    upd (upd f x a) x b = upd f x b := by
  funext z; simp only [upd]; split <;> rfl

theorem upd_self (f : Nat → Option Obj) (x : Nat) : upd f x (f x) = f := by
  funext z; simp only [upd]; split
  · rename_i h; rw [h]
  · rfl

theorem upd_comm (f : Nat → Option Obj) {x y : Nat} (h : x ≠ y) (a b : Option Obj) :
    upd (upd f x a) y b = upd (upd f y b) x a := by
  funext z; simp only [upd]
  split
  · split
    · omega
    · rfl
  · rfl

/-- Moving the content of `y` into `x` (both move construction and move assignment). -/
theorem Safe.move {s : State} (hs : Safe s) (x y : Nat) (o : Obj) (hy : s.objs y = some o) :
    Safe ⟨s.heap, upd (upd s.objs x (some o)) y (some ⟨0, none⟩)⟩ := by
  have hlook : ∀ z oz, upd (upd s.objs x (some o)) y (some ⟨0, none⟩) z = some oz →
      oz.blocks = [] ∨ (∃ w, s.objs w = some oz ∧ (w = z ∨ (w = y ∧ z = x)) ∧ (z = x → w = y)
        ∧ z ≠ y) := by
    intro z oz hz
    simp only [upd] at hz
    split at hz
    · cases hz; exact Or.inl rfl
    · rename_i hzy
      split at hz
      · rename_i hzx
        cases hz
        exact Or.inr ⟨y, hy, Or.inr ⟨rfl, hzx⟩, fun _ => rfl, hzy⟩
      · rename_i hzx
        exact Or.inr ⟨z, hz, Or.inl rfl, fun e => absurd e hzx, hzy⟩
  constructor
  · exact hs.wf
  · intro z oz hz p hp
    rcases hlook z oz hz with h | ⟨w, hw, -⟩
    · rw [h] at hp; cases hp
    · exact hs.live w oz hw p hp
  · intro z oz hz
    rcases hlook z oz hz with h | ⟨w, hw, -⟩
    · rw [h]; exact List.nodup_nil
    · exact hs.nodup w oz hw
  · intro a b oa ob ha hb hab p hp
    rcases hlook a oa ha with h | ⟨w, hw, hw1, hw2, hw3⟩
    · rw [h] at hp; cases hp
    · rcases hlook b ob hb with h' | ⟨w', hw', hw1', hw2', hw3'⟩
      · rw [h']; exact List.not_mem_nil
      · refine hs.disj w w' oa ob hw hw' ?_ p hp
        intro e
        rcases hw1 with h1 | h1 <;> rcases hw1' with h2 | h2 <;> omega
  · intro z oz outer rows hz hd
    rcases hlook z oz hz with h | ⟨w, hw, -⟩
    · simp [Obj.blocks, hd] at h
    · exact hs.len w oz outer rows hw hd

/-- **C07 (a)** One operation keeps the memory safe, and is undefined behaviour only when it is
an access to a table without data or to a row that was never allocated. -/
theorem step_safe (s : State) (hs : Safe s) (op : Op) :
    match step s op with
    | .ok s' => Safe s'
    | .error .misuse => True
    | .error .ub => ∃ x r o, op = .access x r ∧ s.objs x = some o ∧
        (o.data = none ∨ ∃ outer rows, o.data = some (outer, rows) ∧ rows.length ≤ r) := by
  cases op with
  | default x =>
    cases hx : s.objs x with
    | some o => simp [step, hx]
    | none =>
      simp only [step, hx]
      exact hs.shrink x ⟨0, none⟩ (by intro o ho; rw [hx] at ho; cases ho) (fun _ => rfl)
        (by intro a b h; cases h)
  | construct x n =>
    cases hx : s.objs x with
    | some o => simp [step, hx]
    | none => simp only [step, hx]; exact hs.alloc x n
  | moveConstruct x y =>
    cases hx : s.objs x with
    | some o => simp [step, hx]
    | none =>
      cases hy : s.objs y with
      | none => simp [step, hx, hy]
      | some o => simp only [step, hx, hy]; exact hs.move x y o hy
  | moveAssign x y =>
    cases hx : s.objs x with
    | none => simp [step, hx]
    | some ox =>
      cases hy : s.objs y with
      | none => simp [step, hx, hy]
      | some o => simp only [step, hx, hy]; exact hs.move x y o hy
  | resize x n =>
    cases hx : s.objs x with
    | none => simp [step, hx]
    | some o =>
      simp only [step, hx]
      by_cases hn : n ≤ o.degree
      · simp only [hn, if_true]
        refine hs.shrink x ⟨n, o.data⟩ ?_ (by intro h; rw [hx] at h; cases h) ?_
        · intro o' ho'; rw [hx] at ho'; cases ho'; rfl
        · intro outer rows h
          have := hs.len x o outer rows hx h
          simp only; omega
      · simp only [hn, if_false]
        obtain ⟨h, e, -, hs'⟩ := hs.drop x o hx
        rw [e]
        have := hs'.alloc x n
        simp only [upd_upd] at this
        exact this
  | destroy x =>
    cases hx : s.objs x with
    | none => simp [step, hx]
    | some o =>
      obtain ⟨h, e, -, hs'⟩ := hs.drop x o hx
      simp only [step, hx, e]
      exact hs'
  | access x r =>
    cases hx : s.objs x with
    | none => simp [step, hx]
    | some o =>
      cases hd : o.data with
      | none => simp only [step, hx, hd]; exact ⟨x, r, o, rfl, hx, Or.inl hd⟩
      | some d =>
        obtain ⟨outer, rows⟩ := d
        have hl := hs.live x o hx
        simp only [Obj.blocks, hd] at hl
        simp only [step, hx, hd, if_pos (hl outer (List.mem_cons_self ..))]
        cases hr : rows[r]? with
        | none =>
          exact ⟨x, r, o, rfl, hx, Or.inr ⟨outer, rows, hd, by
            rw [List.getElem?_eq_none_iff] at hr; exact hr⟩⟩
        | some p =>
          have : p ∈ s.heap.live := hl p (List.mem_cons_of_mem _ (List.mem_of_getElem? hr))
          simp only [if_pos this]
          exact hs

theorem run_safe (ops : List Op) : ∀ s, Safe s → ∀ s', run s ops = .ok s' → Safe s' := by
  induction ops with
  | nil => intro s hs s' h; cases h; exact hs
  | cons op t ih =>
    intro s hs s' h
    have h1 := step_safe s hs op
    simp only [run] at h
    cases hst : step s op with
    | error e => rw [hst] at h; cases h
    | ok s1 => rw [hst] at h h1; exact ih s1 h1 s' h

/-- **C07 (b)** No history of constructions, moves, resizes and destructions ever frees a block
twice, frees a block it does not own, or reads a row pointer outside its array. -/
theorem no_ub (ops : List Op) (ha : ∀ x r, Op.access x r ∉ ops) :
    run State.init ops ≠ .error .ub := by
  have H : ∀ (ops : List Op) s, Safe s → (∀ x r, Op.access x r ∉ ops) → run s ops ≠ .error .ub := by
    intro ops
    induction ops with
    | nil => intro s _ _ h; cases h
    | cons op t ih =>
      intro s hs ha h
      have h1 := step_safe s hs op
      simp only [run] at h
      cases hst : step s op with
      | error e =>
        rw [hst] at h h1
        cases h
        obtain ⟨x, r, o, rfl, -⟩ := h1
        exact ha x r (List.mem_cons_self ..)
      | ok s1 =>
        rw [hst] at h h1
        exact ih s1 h1 (fun x r hx => ha x r (List.mem_cons_of_mem _ hx)) h
  exact H ops State.init safe_init ha

/-- **C07 (c)** In every reachable state, a coefficient in row `r ≤ degree` of a table that has
data can be accessed. -/
theorem access_ok (ops : List Op) (s : State) (h : run State.init ops = .ok s) (x r : Nat) (o : Obj)
    (hx : s.objs x = some o) (hd : o.data.isSome) (hr : r ≤ o.degree) :
    step s (.access x r) = .ok s := by
  have hs := run_safe ops _ safe_init s h
  obtain ⟨⟨outer, rows⟩, hd⟩ := Option.isSome_iff_exists.1 hd
  have hl := hs.live x o hx
  have hlen := hs.len x o outer rows hx hd
  simp only [Obj.blocks, hd] at hl
  have hr' : rows[r]? = some rows[r] := List.getElem?_eq_getElem (by omega)
  simp only [step, hx, hd, if_pos (hl outer (List.mem_cons_self ..)), hr']
  rw [if_pos (hl _ (List.mem_cons_of_mem _ (List.getElem_mem _)))]

/-! ### Leaks -/

/-- Operations that cannot lose memory: no shrinking resize of a table with data, and move
assignment only onto a table without data. -/
def Clean (s : State) : Op → Prop
  | .resize x n => ∀ o, s.objs x = some o → o.data = none ∨ o.degree ≤ n
  | .moveAssign x _ => ∀ o, s.objs x = some o → o.data = none
  | _ => True

/-- Every operation of the history is clean at the moment it is executed. -/
def CleanRun (s : State) : List Op → Prop
  | [] => True
  | op :: t => Clean s op ∧ ∀ s', step s op = .ok s' → CleanRun s' t

/-- No-leak invariant: every live block is reachable and the degree is the allocated one. -/
structure Tight (s : State) : Prop where
  safe : Safe s
  owned : ∀ p ∈ s.heap.live, ∃ x o, s.objs x = some o ∧ p ∈ o.blocks
  len : ∀ x o outer rows, s.objs x = some o → o.data = some (outer, rows) →
    o.degree + 1 = rows.length

theorem tight_init : Tight State.init :=
  ⟨safe_init, (by intro p hp; cases hp), (by intro x o outer rows h; cases h)⟩

theorem Tight.drop {s : State} (ht : Tight s) (x : Nat) (o : Obj) (hx : s.objs x = some o) (h : Heap)
    (e : deallocate s.heap o = some h) : Tight ⟨h, upd s.objs x none⟩ := by
  obtain ⟨h', e', m, hs'⟩ := ht.safe.drop x o hx
  rw [e] at e'
  cases e'
  refine ⟨hs', ?_, ?_⟩
  · intro p hp
    replace hp := (m p).1 hp
    obtain ⟨z, oz, hz, hpz⟩ := ht.owned p hp.1
    by_cases hzx : z = x
    · subst hzx
      rw [hx] at hz; cases hz
      exact absurd (freed_all o (fun a b hab => ht.len z o a b hx hab) p hpz) hp.2
    · exact ⟨z, oz, by simp [upd, hzx, hz], hpz⟩
  · intro z oz outer rows hz hd
    simp only [upd] at hz
    split at hz
    · cases hz
    · exact ht.len z oz outer rows hz hd

theorem Tight.alloc {s : State} (ht : Tight s) (x n : Nat) (hx : s.objs x = none) :
    Tight ⟨(allocate s.heap n).2, upd s.objs x (some ⟨n, some (allocate s.heap n).1⟩)⟩ := by
  obtain ⟨h1, h2, h3, h4, h5⟩ := allocate_spec s.heap ht.safe.wf n
  refine ⟨ht.safe.alloc x n, ?_, ?_⟩
  · intro p hp
    rcases (h5 p).1 hp with hp | hp
    · exact ⟨x, ⟨n, some (allocate s.heap n).1⟩, by simp [upd], hp⟩
    · obtain ⟨z, oz, hz, hpz⟩ := ht.owned p hp
      have : z ≠ x := by rintro rfl; rw [hx] at hz; cases hz
      exact ⟨z, oz, by simp [upd, this, hz], hpz⟩
  · intro z oz outer rows hz hd
    simp only [upd] at hz
    split at hz
    · cases hz
      simp only [Option.some.injEq] at hd
      rw [hd] at h2
      simp only at h2 ⊢
      omega
    · exact ht.len z oz outer rows hz hd

theorem Tight.move {s : State} (ht : Tight s) (x y : Nat) (o : Obj) (hy : s.objs y = some o)
    (hx : ∀ ox, s.objs x = some ox → ox.data = none) :
    Tight ⟨s.heap, upd (upd s.objs x (some o)) y (some ⟨0, none⟩)⟩ := by
  refine ⟨ht.safe.move x y o hy, ?_, ?_⟩
  · intro p hp
    obtain ⟨z, oz, hz, hpz⟩ := ht.owned p hp
    have hzx : z ≠ x := by
      rintro rfl
      have := hx oz hz
      simp [Obj.blocks, this] at hpz
    by_cases hzy : z = y
    · subst hzy
      rw [hy] at hz; cases hz
      exact ⟨x, o, by simp [upd, Ne.symm hzx], hpz⟩
    · exact ⟨z, oz, by simp [upd, hzx, hzy, hz], hpz⟩
  · intro z oz outer rows hz hd
    simp only [upd] at hz
    split at hz
    · cases hz; cases hd
    · split at hz
      · cases hz; exact ht.len y _ outer rows hy hd
      · exact ht.len z oz outer rows hz hd

theorem step_tight (s : State) (ht : Tight s) (op : Op) (hc : Clean s op) (s' : State)
    (h : step s op = .ok s') : Tight s' := by
  have hsafe := step_safe s ht.safe op
  cases op with
  | default x =>
    cases hx : s.objs x with
    | some o => simp [step, hx] at h
    | none =>
      simp only [step, hx] at h hsafe
      cases h
      refine ⟨hsafe, ?_, ?_⟩
      · intro p hp
        obtain ⟨z, oz, hz, hpz⟩ := ht.owned p hp
        have : z ≠ x := by rintro rfl; rw [hx] at hz; cases hz
        exact ⟨z, oz, by simp [upd, this, hz], hpz⟩
      · intro z oz outer rows hz hd
        simp only [upd] at hz
        split at hz
        · cases hz; cases hd
        · exact ht.len z oz outer rows hz hd
  | construct x n =>
    cases hx : s.objs x with
    | some o => simp [step, hx] at h
    | none => simp only [step, hx] at h; cases h; exact ht.alloc x n hx
  | moveConstruct x y =>
    cases hx : s.objs x with
    | some o => simp [step, hx] at h
    | none =>
      cases hy : s.objs y with
      | none => simp [step, hx, hy] at h
      | some o =>
        simp only [step, hx, hy] at h
        cases h
        exact ht.move x y o hy (by intro ox hox; rw [hx] at hox; cases hox)
  | moveAssign x y =>
    cases hx : s.objs x with
    | none => simp [step, hx] at h
    | some ox =>
      cases hy : s.objs y with
      | none => simp [step, hx, hy] at h
      | some o =>
        simp only [step, hx, hy] at h
        cases h
        exact ht.move x y o hy hc
  | resize x n =>
    cases hx : s.objs x with
    | none => simp [step, hx] at h
    | some o =>
      simp only [step, hx] at h hsafe
      by_cases hn : n ≤ o.degree
      · simp only [hn, if_true] at h hsafe
        cases h
        refine ⟨hsafe, ?_, ?_⟩
        · intro p hp
          obtain ⟨z, oz, hz, hpz⟩ := ht.owned p hp
          by_cases hzx : z = x
          · subst hzx; rw [hx] at hz; cases hz
            exact ⟨z, ⟨n, o.data⟩, by simp [upd], hpz⟩
          · exact ⟨z, oz, by simp [upd, hzx, hz], hpz⟩
        · intro z oz outer rows hz hd
          simp only [upd] at hz
          split at hz
          · cases hz
            rcases hc o hx with h0 | h0
            · rw [h0] at hd; cases hd
            · have := ht.len x o outer rows hx hd
              simp only; omega
          · exact ht.len z oz outer rows hz hd
      · simp only [hn, if_false] at h
        obtain ⟨h', e, -, -⟩ := ht.safe.drop x o hx
        rw [e] at h
        have := (ht.drop x o hx h' e).alloc x n (by simp [upd])
        simp only [upd_upd] at this
        cases h
        exact this
  | destroy x =>
    cases hx : s.objs x with
    | none => simp [step, hx] at h
    | some o =>
      obtain ⟨h', e, -, -⟩ := ht.safe.drop x o hx
      simp only [step, hx, e] at h
      cases h
      exact ht.drop x o hx h' e
  | access x r =>
    have : s' = s := by
      simp only [step] at h
      repeat' split at h
      all_goals first | cases h; rfl | cases h
    rw [this]; exact ht

/-- **C07 (d), partial** When no resize shrinks a table that has data and no move assignment
targets one, destroying every table returns all memory.  Missing from the full claim: the
excluded operations do lose memory (next two theorems). -/
theorem no_leak_partial (ops : List Op) (hc : CleanRun State.init ops) (s : State)
    (h : run State.init ops = .ok s) (hd : ∀ x, s.objs x = none) : s.heap.live = [] := by
  have H : ∀ (ops : List Op) s0, Tight s0 → CleanRun s0 ops → ∀ s, run s0 ops = .ok s → Tight s := by
    intro ops
    induction ops with
    | nil => intro s0 ht _ s h; cases h; exact ht
    | cons op t ih =>
      intro s0 ht hc s h
      simp only [run] at h
      cases hst : step s0 op with
      | error e => rw [hst] at h; cases h
      | ok s1 =>
        rw [hst] at h
        exact ih s1 (step_tight s0 ht op hc.1 s1 hst) (hc.2 s1 hst) s h
  have ht := H ops _ tight_init hc s h
  cases hl : s.heap.live with
  | nil => rfl
  | cons p t =>
    obtain ⟨x, o, hx, -⟩ := ht.owned p (by rw [hl]; exact List.mem_cons_self ..)
    rw [hd x] at hx; cases hx

/-- **C07, violation** A shrinking resize followed by destruction loses rows. -/
theorem shrink_leaks_counterexample :
    ∃ s, run State.init [.construct 0 3, .resize 0 1, .destroy 0] = .ok s ∧
      (∀ x, s.objs x = none) ∧ s.heap.live = [4, 3] := by
  refine ⟨_, rfl, ?_, rfl⟩
  intro x; simp only [upd, State.init]; split <;> rfl

/-- **C07, violation** Move assignment onto a table with data loses all of its rows. -/
theorem moveAssign_leaks_counterexample :
    ∃ s, run State.init [.construct 0 1, .construct 1 1, .moveAssign 0 1, .destroy 0, .destroy 1]
      = .ok s ∧ (∀ x, s.objs x = none) ∧ s.heap.live = [2, 1, 0] := by
  refine ⟨_, rfl, ?_, rfl⟩
  intro x; simp only [upd, State.init]; repeat' split
  all_goals rfl

/-- A self move assignment empties the table and loses its memory. -/
theorem selfMove_leaks_counterexample :
    ∃ s, run State.init [.construct 0 0, .moveAssign 0 0] = .ok s ∧
      s.objs 0 = some ⟨0, none⟩ ∧ s.heap.live = [1, 0] := ⟨_, rfl, rfl, rfl⟩

/-- A default-constructed table resized to degree 0 has no data: its only coefficient cannot be
accessed. -/
theorem default_resize_zero_counterexample :
    run State.init [.default 0, .resize 0 0, .access 0 0] = .error .ub := rfl

/-- Non-vacuity: a clean history with a growing resize and moves. -/
example : CleanRun State.init [.default 0, .resize 0 2, .moveConstruct 1 0, .resize 1 4,
    .access 1 4, .moveAssign 0 1, .destroy 0, .destroy 1] := by
  refine ⟨trivial, ?_⟩
  intro s h; cases h
  refine ⟨by intro o ho; cases ho; exact Or.inl rfl, ?_⟩
  intro s h; cases h
  refine ⟨trivial, ?_⟩
  intro s h; cases h
  refine ⟨by intro o ho; cases ho; exact Or.inr (by decide), ?_⟩
  intro s h; cases h
  refine ⟨trivial, ?_⟩
  intro s h; cases h
  refine ⟨by intro o ho; cases ho; rfl, ?_⟩
  intro s h; cases h
  refine ⟨trivial, ?_⟩
  intro s h; cases h
  exact ⟨trivial, fun _ _ => trivial⟩

end Verif.Harmonic
