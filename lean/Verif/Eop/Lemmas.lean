import Verif.Eop.Model
import Mathlib.Tactic.ByContra
import Mathlib.Data.List.Basic

namespace Verif.Eop

variable {V : Type} [DecidableEq V]

/-! ### Arrays -/

theorem load_congr (b b' : Block V) (i j : Nat)
    (h : ∀ k < 8, b.byte (8 * i + k) = b'.byte (8 * j + k)) : b.load i = b'.load j := by
  have h0 := h 0 (by omega)
  simp only [Nat.add_zero] at h0
  unfold Block.load
  rw [h0]
  split
  · rfl
  · rename_i v k hv
    have : (List.range 8).all (fun k => b.byte (8 * i + k) == some (v, k)) =
        (List.range 8).all (fun k => b'.byte (8 * j + k) == some (v, k)) := by
      rw [Bool.eq_iff_iff]
      simp only [List.all_eq_true, List.mem_range]
      constructor
      · intro hh k hk
        rw [← h k hk]
        exact hh k hk
      · intro hh k hk
        rw [h k hk]
        exact hh k hk
    rw [this]

theorem load_store_same (b : Block V) (i : Nat) (v : V) : (b.store i v).load i = some v := by
  have hb : ∀ k < 8, (b.store i v).byte (8 * i + k) = some (v, k) := by
    intro k hk
    have h1 : (8 * i + k) / 8 = i := by omega
    have h2 : (8 * i + k) % 8 = k := by omega
    simp [Block.store, h1, h2]
  have h0 := hb 0 (by omega)
  simp only [Nat.add_zero] at h0
  unfold Block.load
  rw [h0]
  simp only
  rw [if_pos]
  simp only [List.all_eq_true, List.mem_range]
  intro k hk
  rw [hb k hk]
  simp

theorem load_store_other (b : Block V) (i j : Nat) (v : V) (h : j ≠ i) :
    (b.store i v).load j = b.load j := by
  apply load_congr
  intro k hk
  have h1 : ¬ (8 * j + k) / 8 = i := by omega
  simp [Block.store, h1]

theorem store_size (b : Block V) (i : Nat) (v : V) : (b.store i v).size = b.size := rfl

theorem memcpy_size (b b' : Block V) (d s n : Nat) : (b.memcpy d b' s n).size = b.size := rfl

/-- Column copies, as a fold. -/
def copyFold (b b' : Block V) (dcap scap sz : Nat) (cs : List Nat) : Block V :=
  cs.foldl (fun b c => b.memcpy (c * dcap) b' (c * scap) sz) b

theorem copyFold_size (b b' : Block V) (dcap scap sz : Nat) (cs : List Nat) :
    (copyFold b b' dcap scap sz cs).size = b.size := by
  unfold copyFold
  induction cs generalizing b with
  | nil => rfl
  | cons c cs ih => simp only [List.foldl_cons]; rw [ih]; rfl

theorem copyFold_byte_outside (b b' : Block V) (dcap scap sz : Nat) (cs : List Nat) (a : Nat)
    (h : ∀ c ∈ cs, ¬ (8 * (c * dcap) ≤ a ∧ a < 8 * (c * dcap) + sz)) :
    (copyFold b b' dcap scap sz cs).byte a = b.byte a := by
  unfold copyFold
  induction cs generalizing b with
  | nil => rfl
  | cons c cs ih =>
    simp only [List.foldl_cons]
    rw [ih]
    · simp only [Block.memcpy]
      rw [if_neg (h c (List.mem_cons_self))]
    · intro c' hc'
      exact h c' (List.mem_cons_of_mem _ hc')

theorem copyFold_byte (b b' : Block V) (dcap scap sz : Nat) (hsz : sz ≤ 8 * dcap) (n : Nat)
    (c : Nat) (hc : c < n) (a : Nat) (ha : a < sz) :
    (copyFold b b' dcap scap sz (List.range n)).byte (8 * (c * dcap) + a) =
      b'.byte (8 * (c * scap) + a) := by
  induction n with
  | zero => omega
  | succ n ih =>
    have hfold : copyFold b b' dcap scap sz (List.range (n + 1)) =
        (copyFold b b' dcap scap sz (List.range n)).memcpy (n * dcap) b' (n * scap) sz := by
      simp [copyFold, List.range_succ]
    rw [hfold]
    by_cases hcn : c = n
    · subst hcn
      simp only [Block.memcpy]
      rw [if_pos (by omega)]
      congr 1
      omega
    · simp only [Block.memcpy]
      rw [if_neg]
      · exact ih (by omega)
      · intro hh
        have h1 : (c + 1) * dcap ≤ n * dcap := Nat.mul_le_mul_right _ (by omega)
        have h2 : (c + 1) * dcap = c * dcap + dcap := by
          rw [Nat.add_mul, Nat.one_mul]
        omega

/-! ### Invariant -/

/-- Every table owns its own live array, which has room for eight columns of `stride` doubles. -/
structure Inv (s : State V) : Prop where
  fresh : ∀ p, s.next ≤ p → s.heap p = none
  owned : ∀ o t p, s.tab o = some t → t.arena = some p →
    t.colBlk = p ∧ t.sz ≤ t.capacity ∧ t.capacity ≤ t.stride ∧
    ∃ b, s.heap p = some b ∧ 8 * t.stride ≤ b.size
  empty : ∀ o t, s.tab o = some t → t.arena = none → t.sz = 0 ∧ t.capacity = 0
  unique : ∀ o o' t t' p, s.tab o = some t → s.tab o' = some t' → t.arena = some p →
    t'.arena = some p → o = o'

/-- Every live array belongs to a live table. -/
def NoLeak (s : State V) : Prop :=
  ∀ p b, s.heap p = some b → ∃ o t, s.tab o = some t ∧ t.arena = some p

theorem inv_init : Inv (State.init : State V) :=
  ⟨fun _ _ => rfl, fun _ _ _ h => (by cases h), fun _ _ h => (by cases h),
    fun _ _ _ _ _ h => (by cases h)⟩

theorem alloc_next (s : State V) (n : Nat) : (s.alloc n).1.next = s.next + 1 := rfl
theorem alloc_snd (s : State V) (n : Nat) : (s.alloc n).2 = s.next := rfl
theorem alloc_tab (s : State V) (n : Nat) : (s.alloc n).1.tab = s.tab := rfl
theorem alloc_heap (s : State V) (n p : Nat) :
    (s.alloc n).1.heap p = if p = s.next then some (Block.fresh n) else s.heap p := rfl

/-- Giving an object a new array of its own keeps the invariant. -/
theorem inv_newArray (s : State V) (hI : Inv s) (o n : Nat)
    (ho : ∀ t p, s.tab o = some t → t.arena = some p → False) :
    Inv (((s.alloc (n * 8)).1).setTab o (some ⟨n, n, some s.next, s.next, n⟩)) := by
  refine ⟨?_, ?_, ?_, ?_⟩
  · intro p hp
    simp only [State.setTab, alloc_next, alloc_heap] at *
    rw [if_neg (by omega)]
    exact hI.fresh p (by omega)
  · intro x t p hx hp
    simp only [State.setTab, alloc_tab, alloc_heap] at *
    by_cases hxo : x = o
    · rw [if_pos hxo] at hx
      cases hx
      cases hp
      refine ⟨rfl, Nat.le_refl _, Nat.le_refl _, Block.fresh (n * 8), by simp, ?_⟩
      simp only [Block.fresh]; omega
    · rw [if_neg hxo] at hx
      obtain ⟨h1, h2, h3, b, hb, h4⟩ := hI.owned x t p hx hp
      refine ⟨h1, h2, h3, b, ?_, h4⟩
      rw [if_neg]
      · exact hb
      · intro hpn
        rw [hI.fresh p (by omega)] at hb
        cases hb
  · intro x t hx hp
    simp only [State.setTab, alloc_tab] at *
    by_cases hxo : x = o
    · rw [if_pos hxo] at hx
      cases hx; cases hp
    · rw [if_neg hxo] at hx
      exact hI.empty x t hx hp
  · intro x y t t' p hx hy hp hp'
    simp only [State.setTab, alloc_tab] at *
    have old : ∀ z u, s.tab z = some u → u.arena = some s.next → False := by
      intro z u hz hu
      obtain ⟨_, _, _, b, hb, _⟩ := hI.owned z u _ hz hu
      rw [hI.fresh _ (Nat.le_refl _)] at hb
      cases hb
    by_cases hxo : x = o <;> by_cases hyo : y = o
    · omega
    · rw [if_pos hxo] at hx; rw [if_neg hyo] at hy
      cases hx; cases hp
      exact (old y t' hy hp').elim
    · rw [if_neg hxo] at hx; rw [if_pos hyo] at hy
      cases hy; cases hp'
      exact (old x t hx hp).elim
    · rw [if_neg hxo] at hx; rw [if_neg hyo] at hy
      exact hI.unique x y t t' p hx hy hp hp'

/-- The state after releasing the array of `o` and forgetting it. -/
theorem inv_release (s s1 : State V) (hI : Inv s) (o : Nat) (t : Table) (ho : s.tab o = some t)
    (hf : s.free t.arena = some s1) : Inv (s1.setTab o none) ∧ s1.next = s.next ∧ s1.tab = s.tab ∧
      (∀ p, t.arena ≠ some p → s1.heap p = s.heap p) ∧
      (∀ p, t.arena = some p → s1.heap p = none) := by
  cases ha : t.arena with
  | none =>
    rw [ha] at hf
    cases hf
    refine ⟨⟨hI.fresh, ?_, ?_, ?_⟩, rfl, rfl, fun p _ => rfl, fun p h => (by cases h)⟩
    · intro x u p hx
      simp only [State.setTab] at *
      split at hx
      · cases hx
      · exact hI.owned x u p hx
    · intro x u hx
      simp only [State.setTab] at *
      split at hx
      · cases hx
      · exact hI.empty x u hx
    · intro x y u u' p hx hy
      simp only [State.setTab] at *
      split at hx
      · cases hx
      · split at hy
        · cases hy
        · exact hI.unique x y u u' p hx hy
  | some q =>
    rw [ha] at hf
    simp only [State.free] at hf
    split at hf
    · cases hf
      refine ⟨⟨?_, ?_, ?_, ?_⟩, rfl, rfl, ?_, ?_⟩
      · intro p hp
        simp only [State.setTab, State.setBlk] at *
        split
        · rfl
        · exact hI.fresh p hp
      · intro x u p hx hp
        simp only [State.setTab, State.setBlk] at *
        split at hx
        · cases hx
        · rename_i hne
          obtain ⟨h1, h2, h3, b, hb, h4⟩ := hI.owned x u p hx hp
          refine ⟨h1, h2, h3, b, ?_, h4⟩
          rw [if_neg]
          · exact hb
          · intro hpq
            subst hpq
            exact hne (hI.unique x o u t p hx ho hp ha)
      · intro x u hx
        simp only [State.setTab, State.setBlk] at *
        split at hx
        · cases hx
        · exact hI.empty x u hx
      · intro x y u u' p hx hy
        simp only [State.setTab, State.setBlk] at *
        split at hx
        · cases hx
        · split at hy
          · cases hy
          · exact hI.unique x y u u' p hx hy
      · intro p hp
        simp only [State.setBlk]
        rw [if_neg]
        intro h
        exact hp (by rw [h])
      · intro p hp
        cases hp
        simp [State.setBlk]
    · cases hf

theorem free_some (s : State V) (hI : Inv s) (o : Nat) (t : Table) (ho : s.tab o = some t) :
    ∃ s1, s.free t.arena = some s1 := by
  cases ha : t.arena with
  | none => exact ⟨s, rfl⟩
  | some q =>
    obtain ⟨_, _, _, b, hb, _⟩ := hI.owned o t q ho ha
    exact ⟨s.setBlk q none, by simp [State.free, hb]⟩

theorem setTab_setTab (s : State V) (o : Nat) (a b : Option Table) :
    (s.setTab o a).setTab o b = s.setTab o b := by
  simp only [State.setTab]
  congr 1
  funext x
  split <;> rfl

theorem setTab_alloc (s : State V) (o n : Nat) (a : Option Table) :
    ((s.setTab o a).alloc n).1 = ((s.alloc n).1).setTab o a := rfl

/-- What `resize` does when the new size does not fit. -/
theorem resize_grow (s : State V) (hI : Inv s) (o n : Nat) (t : Table) (ho : s.tab o = some t)
    (hn : ¬ n < t.capacity) : ∃ s1, s.free t.arena = some s1 ∧
      resize s o n = some (((s1.alloc (n * 8)).1).setTab o (some ⟨n, n, some s.next, s.next, n⟩)) ∧
      Inv (((s1.alloc (n * 8)).1).setTab o (some ⟨n, n, some s.next, s.next, n⟩)) := by
  obtain ⟨s1, hs1⟩ := free_some s hI o t ho
  obtain ⟨hI1, hnx, htab, _, _⟩ := inv_release s s1 hI o t ho hs1
  refine ⟨s1, hs1, ?_, ?_⟩
  · simp only [resize, ho, if_neg hn, hs1]
    rw [alloc_snd, hnx]
  · have := inv_newArray (s1.setTab o none) hI1 o n (by
      intro u p hu
      simp [State.setTab] at hu)
    rw [setTab_alloc, setTab_setTab] at this
    have e : (s1.setTab o none).next = s.next := hnx
    rw [e] at this
    exact this

theorem inv_shrink (s : State V) (hI : Inv s) (o n : Nat) (t : Table) (ho : s.tab o = some t)
    (hn : n < t.capacity) : Inv (s.setTab o (some { t with sz := n })) := by
  refine ⟨hI.fresh, ?_, ?_, ?_⟩
  · intro x u p hx hp
    simp only [State.setTab] at *
    split at hx
    · cases hx
      obtain ⟨h1, h2, h3, h4⟩ := hI.owned o t p ho hp
      exact ⟨h1, Nat.le_of_lt hn, h3, h4⟩
    · exact hI.owned x u p hx hp
  · intro x u hx hp
    simp only [State.setTab] at *
    split at hx
    · cases hx
      have := (hI.empty o t ho hp).2
      omega
    · exact hI.empty x u hx hp
  · intro x y u u' p hx hy hp hp'
    simp only [State.setTab] at *
    split at hx
    · rename_i hxo
      cases hx
      split at hy
      · rename_i hyo; omega
      · rw [hxo]; exact hI.unique o y t u' p ho hy hp hp'
    · split at hy
      · rename_i hyo
        cases hy
        rw [hyo]; exact hI.unique x o u t p hx ho hp hp'
      · exact hI.unique x y u u' p hx hy hp hp'

theorem inv_resize (s : State V) (hI : Inv s) (o n : Nat) (t : Table) (ho : s.tab o = some t) :
    ∃ s', resize s o n = some s' ∧ Inv s' := by
  by_cases hn : n < t.capacity
  · exact ⟨_, by simp only [resize, ho, if_pos hn], inv_shrink s hI o n t ho hn⟩
  · obtain ⟨s1, _, h2, h3⟩ := resize_grow s hI o n t ho hn
    exact ⟨_, h2, h3⟩

theorem inv_move (s : State V) (hI : Inv s) (o o' : Nat) (t : Table) (hne : o ≠ o')
    (ho : s.tab o' = some t) :
    Inv ((s.setTab o (some { t with capacity := t.sz })).setTab o'
      (some { t with sz := 0, capacity := 0, arena := none })) := by
  refine ⟨hI.fresh, ?_, ?_, ?_⟩
  · intro x u p hx hp
    simp only [State.setTab] at *
    split at hx
    · cases hx; cases hp
    · split at hx
      · cases hx
        obtain ⟨h1, h2, h3, h4⟩ := hI.owned o' t p ho hp
        exact ⟨h1, Nat.le_refl _, Nat.le_trans h2 h3, h4⟩
      · exact hI.owned x u p hx hp
  · intro x u hx hp
    simp only [State.setTab] at *
    split at hx
    · cases hx; exact ⟨rfl, rfl⟩
    · split at hx
      · cases hx
        have := (hI.empty o' t ho hp).1
        exact ⟨this, this⟩
      · exact hI.empty x u hx hp
  · intro x y u u' p hx hy hp hp'
    simp only [State.setTab] at *
    split at hx
    · cases hx; cases hp
    · rename_i hxo'
      split at hy
      · cases hy; cases hp'
      · rename_i hyo'
        split at hx
        · rename_i hxo
          cases hx
          split at hy
          · rename_i hyo; omega
          · exact (hyo' (hI.unique o' y t u' p ho hy hp hp').symm).elim
        · split at hy
          · cases hy
            exact (hxo' (hI.unique x o' u t p hx ho hp hp')).elim
          · exact hI.unique x y u u' p hx hy hp hp'

/-- Changing the contents of an array keeps the invariant. -/
theorem inv_setBlk (s : State V) (hI : Inv s) (p : Nat) (b b' : Block V) (hb : s.heap p = some b)
    (hsz : b'.size = b.size) : Inv (s.setBlk p (some b')) := by
  refine ⟨?_, ?_, hI.empty, hI.unique⟩
  · intro q hq
    simp only [State.setBlk] at *
    rw [if_neg]
    · exact hI.fresh q hq
    · intro h
      rw [h] at hq
      rw [hI.fresh p hq] at hb
      cases hb
  · intro x u q hx hq
    obtain ⟨h1, h2, h3, b2, hb2, h4⟩ := hI.owned x u q hx hq
    simp only [State.setBlk]
    by_cases hqp : q = p
    · subst hqp
      rw [hb] at hb2
      cases hb2
      exact ⟨h1, h2, h3, b', by simp, by rw [hsz]; exact h4⟩
    · exact ⟨h1, h2, h3, b2, by rw [if_neg hqp]; exact hb2, h4⟩

/-- The column copies between two tables of the same size succeed. -/
theorem copyCols_ok (s : State V) (p q : Nat) (b b' : Block V) (dcap scap sz : Nat)
    (hp : s.heap p = some b) (hq : s.heap q = some b') (h1 : sz ≤ 8 * dcap)
    (h2 : 8 * dcap ≤ b.size) (h3 : sz ≤ 8 * scap) (h4 : 8 * scap ≤ b'.size) :
    copyCols s (some p) (some q) dcap scap sz =
      some (s.setBlk p (some (copyFold b b' dcap scap sz (List.range 8)))) := by
  simp only [copyCols, hp, hq]
  rw [if_pos]
  · rfl
  · simp only [List.all_eq_true, List.mem_range, decide_eq_true_eq]
    intro c hc
    have e1 : c * dcap ≤ 7 * dcap := Nat.mul_le_mul_right _ (by omega)
    have e2 : c * scap ≤ 7 * scap := Nat.mul_le_mul_right _ (by omega)
    omega

/-- A table's pointers may be recomputed from the array with `capacity` as distance. -/
theorem inv_restride (s : State V) (hI : Inv s) (o : Nat) (t : Table) (ho : s.tab o = some t) :
    Inv (s.setTab o (some { t with colBlk := t.arena.getD t.colBlk, stride := t.capacity })) := by
  refine ⟨hI.fresh, ?_, ?_, ?_⟩
  · intro x u p hx hp
    simp only [State.setTab] at *
    split at hx
    · cases hx
      simp only at hp
      obtain ⟨h1, h2, h3, b, hb, h4⟩ := hI.owned o t p ho hp
      refine ⟨by simp [hp], h2, Nat.le_refl _, b, hb, ?_⟩
      simp only
      omega
    · exact hI.owned x u p hx hp
  · intro x u hx hp
    simp only [State.setTab] at *
    split at hx
    · cases hx
      exact hI.empty o t ho hp
    · exact hI.empty x u hx hp
  · intro x y u u' p hx hy hp hp'
    simp only [State.setTab] at *
    split at hx
    · rename_i hxo
      cases hx
      split at hy
      · rename_i hyo; omega
      · rw [hxo]; exact hI.unique o y t u' p ho hy hp hp'
    · split at hy
      · rename_i hyo
        cases hy
        rw [hyo]; exact hI.unique x o u t p hx ho hp hp'
      · exact hI.unique x y u u' p hx hy hp hp'

/-- Copying columns from table `o'` to table `o` of the same size. -/
theorem copyCols_tables (s : State V) (hI : Inv s) (o o' : Nat) (t t' : Table)
    (ho : s.tab o = some t) (ho' : s.tab o' = some t') (hsz : t.sz = t'.sz) :
    ∃ s', copyCols s t.arena t'.arena t.capacity t'.capacity t.sz = some s' ∧ Inv s' ∧
      s'.tab = s.tab := by
  cases ha : t.arena with
  | none =>
    have h0 := (hI.empty o t ho ha).1
    exact ⟨s, by simp [copyCols, h0], hI, rfl⟩
  | some p =>
    cases ha' : t'.arena with
    | none =>
      have h0 := (hI.empty o' t' ho' ha').1
      exact ⟨s, by simp [copyCols, hsz, h0], hI, rfl⟩
    | some q =>
      obtain ⟨h1, h2, h3, b, hb, h4⟩ := hI.owned o t p ho ha
      obtain ⟨h1', h2', h3', b', hb', h4'⟩ := hI.owned o' t' q ho' ha'
      refine ⟨_, copyCols_ok s p q b b' t.capacity t'.capacity t.sz hb hb' (by omega) (by omega)
        (by omega) (by omega), ?_, rfl⟩
      exact inv_setBlk s hI p b _ hb (copyFold_size _ _ _ _ _ _)

theorem inv_write (s : State V) (hI : Inv s) (o c i : Nat) (v : V) (t : Table)
    (ho : s.tab o = some t) (hi : i < t.sz) (hc : c < 8) :
    ∃ p b, t.arena = some p ∧ t.colBlk = p ∧ s.heap p = some b ∧ c * t.stride + i < b.size ∧
      write s o c i v = some (s.setBlk p (some (b.store (c * t.stride + i) v))) ∧
      Inv (s.setBlk p (some (b.store (c * t.stride + i) v))) := by
  cases ha : t.arena with
  | none =>
    have := (hI.empty o t ho ha).1
    omega
  | some p =>
    obtain ⟨h1, h2, h3, b, hb, h4⟩ := hI.owned o t p ho ha
    have hlt : c * t.stride + i < b.size := by
      have : c * t.stride ≤ 7 * t.stride := Nat.mul_le_mul_right _ (by omega)
      omega
    refine ⟨p, b, rfl, h1, hb, hlt, ?_, inv_setBlk s hI p b _ hb rfl⟩
    simp only [write, ho]
    rw [if_pos ⟨hi, hc⟩, h1, hb]
    simp only
    rw [if_pos hlt]

theorem inv_construct (s : State V) (hI : Inv s) (o n : Nat) (ho : s.tab o = none) :
    construct s o n = some (((s.alloc (n * 8)).1).setTab o (some ⟨n, n, some s.next, s.next, n⟩)) ∧
      Inv (((s.alloc (n * 8)).1).setTab o (some ⟨n, n, some s.next, s.next, n⟩)) := by
  refine ⟨?_, inv_newArray s hI o n (by intro t p h; rw [ho] at h; cases h)⟩
  simp only [construct, ho]
  rfl

theorem inv_copyCtor (s : State V) (hI : Inv s) (o o' : Nat) (t : Table) (ho : s.tab o = none)
    (ho' : s.tab o' = some t) : ∃ s', copyCtor s o o' = some s' ∧ Inv s' := by
  have hne : o' ≠ o := by intro h; rw [h, ho] at ho'; cases ho'
  obtain ⟨_, hI1⟩ := inv_construct s hI o t.sz ho
  obtain ⟨s2, hs2, hI2, htab⟩ := copyCols_tables _ hI1 o o' ⟨t.sz, t.sz, some s.next, s.next, t.sz⟩ t
    (by simp [State.setTab]) (by simp [State.setTab, alloc_tab, hne, ho']) rfl
  simp only at hs2
  -- the copy does not look at the object map
  have key : ∃ s3, copyCols (s.alloc (t.sz * 8)).1 (some s.next) t.arena t.sz t.capacity t.sz =
      some s3 ∧ s2 = s3.setTab o (some ⟨t.sz, t.sz, some s.next, s.next, t.sz⟩) := by
    revert hs2
    simp only [copyCols, State.setTab]
    cases t.arena with
    | none =>
      simp only
      split
      · intro h; cases h; exact ⟨_, rfl, rfl⟩
      · intro h; cases h
    | some q =>
      simp only
      cases h1 : (s.alloc (t.sz * 8)).1.heap s.next with
      | none => intro h; cases h
      | some b =>
        cases h2 : (s.alloc (t.sz * 8)).1.heap q with
        | none => intro h; cases h
        | some b' =>
          simp only
          split
          · intro h; cases h; exact ⟨_, rfl, rfl⟩
          · intro h; cases h
  obtain ⟨s3, hs3, e⟩ := key
  refine ⟨s2, ?_, hI2⟩
  simp only [copyCtor, ho, ho', alloc_snd, hs3, e]

theorem inv_copyAssign (s : State V) (hI : Inv s) (o o' : Nat) (t t' : Table)
    (ho : s.tab o = some t) (ho' : s.tab o' = some t') : ∃ s', copyAssign s o o' = some s' ∧
      Inv s' := by
  by_cases hoo : o = o'
  · exact ⟨s, by simp only [copyAssign, ho, ho', if_pos hoo], hI⟩
  · have h1 : ∃ s1 t1, (if t.sz ≠ t'.sz then resize s o t'.sz else some s) = some s1 ∧ Inv s1 ∧
        s1.tab o = some t1 ∧ t1.sz = t'.sz ∧ s1.tab o' = some t' := by
      by_cases hsz : t.sz = t'.sz
      · exact ⟨s, t, by simp [hsz], hI, ho, hsz, ho'⟩
      · rw [if_pos hsz]
        have hne : o' ≠ o := fun h => hoo h.symm
        by_cases hn : t'.sz < t.capacity
        · refine ⟨_, { t with sz := t'.sz }, by simp only [resize, ho, if_pos hn],
            inv_shrink s hI o _ t ho hn, by simp [State.setTab], rfl, ?_⟩
          simp [State.setTab, hne, ho']
        · obtain ⟨s1, hf, h2, h3⟩ := resize_grow s hI o t'.sz t ho hn
          obtain ⟨_, _, htab, _, _⟩ := inv_release s s1 hI o t ho hf
          refine ⟨_, ⟨t'.sz, t'.sz, some s.next, s.next, t'.sz⟩, h2, h3, by simp [State.setTab], rfl, ?_⟩
          simp [State.setTab, hne, alloc_tab, htab, ho']
    obtain ⟨s1, t1, e1, hI1, ht1, hsz1, ht'⟩ := h1
    obtain ⟨s2, hs2, hI2, htab⟩ := copyCols_tables s1 hI1 o o' t1 t' ht1 ht' hsz1
    refine ⟨_, ?_, inv_restride s2 hI2 o t1 (by rw [htab]; exact ht1)⟩
    simp only [copyAssign, ho, ho', if_neg hoo, e1, ht1, hs2]

/-- Every legal operation succeeds and keeps the invariant. -/
theorem inv_step (s : State V) (hI : Inv s) (op : Op V) (hL : Legal s op) :
    ∃ s', step s op = some s' ∧ Inv s' := by
  cases op with
  | construct o n => exact ⟨_, inv_construct s hI o n hL⟩
  | resize o n =>
    obtain ⟨t, ht⟩ := Option.isSome_iff_exists.mp hL
    exact inv_resize s hI o n t ht
  | destroy o =>
    obtain ⟨t, ht⟩ := Option.isSome_iff_exists.mp hL
    obtain ⟨s1, hs1⟩ := free_some s hI o t ht
    exact ⟨_, by simp only [step, destroy, ht, hs1], (inv_release s s1 hI o t ht hs1).1⟩
  | moveCtor o o' =>
    obtain ⟨h1, h2⟩ := hL
    obtain ⟨t, ht⟩ := Option.isSome_iff_exists.mp h2
    have hne : o ≠ o' := by intro h; rw [← h, h1] at ht; cases ht
    exact ⟨_, by simp only [step, moveCtor, h1, ht], inv_move s hI o o' t hne ht⟩
  | moveAssign o o' =>
    obtain ⟨h1, h2⟩ := hL
    obtain ⟨u, hu⟩ := Option.isSome_iff_exists.mp h1
    obtain ⟨t, ht⟩ := Option.isSome_iff_exists.mp h2
    by_cases hoo : o = o'
    · exact ⟨s, by simp only [step, moveAssign, hu, ht, if_pos hoo], hI⟩
    · exact ⟨_, by simp only [step, moveAssign, hu, ht, if_neg hoo], inv_move s hI o o' t hoo ht⟩
  | copyCtor o o' =>
    obtain ⟨h1, h2⟩ := hL
    obtain ⟨t, ht⟩ := Option.isSome_iff_exists.mp h2
    exact inv_copyCtor s hI o o' t h1 ht
  | copyAssign o o' =>
    obtain ⟨h1, h2⟩ := hL
    obtain ⟨t, ht⟩ := Option.isSome_iff_exists.mp h1
    obtain ⟨t', ht'⟩ := Option.isSome_iff_exists.mp h2
    exact inv_copyAssign s hI o o' t t' ht ht'
  | write o c i v =>
    obtain ⟨t, ht, hi, hc⟩ := hL
    obtain ⟨p, b, _, _, _, _, h, h'⟩ := inv_write s hI o c i v t ht hi hc
    exact ⟨_, h, h'⟩

theorem inv_runs {s s' : State V} {ops : List (Op V)} (h : Runs s ops s') (hI : Inv s) : Inv s' := by
  induction h with
  | nil => exact hI
  | cons hL hs _ ih =>
    obtain ⟨s1, h1, h2⟩ := inv_step _ hI _ hL
    rw [hs] at h1
    cases h1
    exact ih h2

end Verif.Eop
