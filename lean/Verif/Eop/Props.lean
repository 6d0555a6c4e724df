import Verif.Eop.Lemmas

/-
C24: the eight columns of an EOP table never overlap; copies and moves read back the same records.

Histories are those of clients that keep their obligations (`Legal`).  The columns part and the
moves hold; the copies do not: `memcpy` is given the number of records instead of the number of
bytes, so only the first eighth of every column is copied, and a table that was moved reports its
size as distance between columns, so that copying it mixes columns up.
-/
namespace Verif.Eop

variable {V : Type} [DecidableEq V]

/-- States that clients can reach. -/
def Reachable (s : State V) : Prop := ∃ ops, Runs (State.init : State V) ops s

theorem reachable_inv {s : State V} (h : Reachable s) : Inv s := by
  obtain ⟨ops, h⟩ := h
  exact inv_runs h inv_init

/-- No operation of a legal history leaves its arrays, frees twice or fails. -/
theorem no_undefined_behaviour (s : State V) (h : Reachable s) (op : Op V) (hL : Legal s op) :
    ∃ s', step s op = some s' ∧ Reachable s' := by
  obtain ⟨s', h1, _⟩ := inv_step s (reachable_inv h) op hL
  obtain ⟨ops, hr⟩ := h
  refine ⟨s', h1, ops ++ [op], ?_⟩
  generalize (State.init : State V) = s0 at hr
  clear * - hr hL h1
  induction hr with
  | nil => exact Runs.cons hL h1 (Runs.nil _)
  | cons a b _ ih => exact Runs.cons a b (ih hL h1)

/-- Every element of every table can be read. -/
theorem read_defined (s : State V) (h : Reachable s) (o c i : Nat) (t : Table)
    (ho : s.tab o = some t) (hi : i < t.sz) (hc : c < 8) : ∃ r, read s o c i = some r := by
  have hI := reachable_inv h
  cases ha : t.arena with
  | none =>
    have := (hI.empty o t ho ha).1
    omega
  | some p =>
    obtain ⟨h1, h2, h3, b, hb, h4⟩ := hI.owned o t p ho ha
    have hlt : c * t.stride + i < b.size := by
      have : c * t.stride ≤ 7 * t.stride := Nat.mul_le_mul_right _ (by omega)
      omega
    refine ⟨b.load (c * t.stride + i), ?_⟩
    simp only [read, ho]
    rw [if_pos ⟨hi, hc⟩, h1, hb]
    simp only
    rw [if_pos hlt]

/-- Stored values are read back. -/
theorem write_read_same (s : State V) (h : Reachable s) (o c i : Nat) (v : V)
    (hL : Legal s (.write o c i v)) :
    ∃ s', write s o c i v = some s' ∧ read s' o c i = some (some v) := by
  obtain ⟨t, ht, hi, hc⟩ := hL
  obtain ⟨p, b, ha, hcb, hb, hlt, hw, _⟩ := inv_write s (reachable_inv h) o c i v t ht hi hc
  refine ⟨_, hw, ?_⟩
  simp only [read, State.setBlk, ht]
  rw [if_pos ⟨hi, hc⟩]
  simp only [hcb, if_true]
  rw [if_pos (show _ < (b.store _ v).size from hlt), load_store_same]

/-- A store changes nothing else: not another column, not another record, not another table. -/
theorem write_read_other (s : State V) (h : Reachable s) (o c i : Nat) (v : V)
    (hL : Legal s (.write o c i v)) (o' c' i' : Nat) (hne : (o', c', i') ≠ (o, c, i)) (t' : Table)
    (ho' : s.tab o' = some t') (hi' : i' < t'.sz) (hc' : c' < 8) :
    ∃ s', write s o c i v = some s' ∧ read s' o' c' i' = read s o' c' i' := by
  have hI := reachable_inv h
  obtain ⟨t, ht, hi, hc⟩ := hL
  obtain ⟨p, b, ha, hcb, hb, hlt, hw, _⟩ := inv_write s hI o c i v t ht hi hc
  refine ⟨_, hw, ?_⟩
  simp only [read, State.setBlk, ho']
  have hcond : i' < t'.sz ∧ c' < 8 := ⟨hi', hc'⟩
  rw [if_pos hcond, if_pos hcond]
  by_cases hp : t'.colBlk = p
  · have ha' : ∃ q, t'.arena = some q := by
      cases h0 : t'.arena with
      | none => have := (hI.empty o' t' ho' h0).1; omega
      | some q => exact ⟨q, rfl⟩
    obtain ⟨q, ha'⟩ := ha'
    obtain ⟨h1, h2, h3, _⟩ := hI.owned o' t' q ho' ha'
    obtain ⟨_, h2t, h3t, _⟩ := hI.owned o t p ht ha
    have hq : q = p := by rw [← h1, hp]
    have hoo : o' = o := hI.unique o' o t' t p ho' ht (by rw [ha', hq]) ha
    subst hoo
    have htt : t' = t := by rw [ht] at ho'; exact (Option.some.inj ho').symm
    subst htt
    simp only [hp, if_true, hb]
    have hidx : c' * t'.stride + i' ≠ c * t'.stride + i := by
      intro e
      rcases Nat.lt_trichotomy c' c with hlt | heq | hgt
      · have : (c' + 1) * t'.stride ≤ c * t'.stride := Nat.mul_le_mul_right _ hlt
        rw [Nat.add_mul, Nat.one_mul] at this
        omega
      · subst heq
        exact hne (by rw [show i' = i by omega])
      · have : (c + 1) * t'.stride ≤ c' * t'.stride := Nat.mul_le_mul_right _ hgt
        rw [Nat.add_mul, Nat.one_mul] at this
        omega
    rw [load_store_other _ _ _ _ hidx]
    rfl
  · simp only [hp, if_false]

/-- Shrinking (below the capacity) keeps the remaining records. -/
theorem resize_keeps (s : State V) (o n : Nat) (t : Table) (ho : s.tab o = some t)
    (hn : n < t.capacity) (c i : Nat) (hi : i < n) (hit : i < t.sz) :
    ∃ s', resize s o n = some s' ∧ read s' o c i = read s o c i := by
  refine ⟨_, by simp only [resize, ho, if_pos hn]; rfl, ?_⟩
  simp only [read, State.setTab, if_true, ho, hi, hit, true_and]

/-- A move-constructed table reads back exactly the records of its source. -/
theorem moveCtor_reads (s : State V) (o o' : Nat) (hL : Legal s (.moveCtor o o')) :
    ∃ s', moveCtor s o o' = some s' ∧ (∀ c i, read s' o c i = read s o' c i) ∧
      (∀ x, x ≠ o → x ≠ o' → ∀ c i, read s' x c i = read s x c i) ∧
      (∀ c i, read s' o' c i = none) := by
  obtain ⟨h1, h2⟩ := hL
  obtain ⟨t, ht⟩ := Option.isSome_iff_exists.mp h2
  have hne : o ≠ o' := by intro h; rw [← h, h1] at ht; cases ht
  refine ⟨_, by simp only [moveCtor, h1, ht]; rfl, ?_, ?_, ?_⟩
  · intro c i
    simp only [read, State.setTab, hne, if_true, if_false, ht]
  · intro x hx hx' c i
    simp only [read, State.setTab, hx, hx', if_false]
  · intro c i
    simp [read, State.setTab]

/-- So does a move-assigned one. -/
theorem moveAssign_reads (s : State V) (o o' : Nat) (hoo : o ≠ o')
    (hL : Legal s (.moveAssign o o')) :
    ∃ s', moveAssign s o o' = some s' ∧ (∀ c i, read s' o c i = read s o' c i) ∧
      (∀ x, x ≠ o → x ≠ o' → ∀ c i, read s' x c i = read s x c i) := by
  obtain ⟨h1, h2⟩ := hL
  obtain ⟨u, hu⟩ := Option.isSome_iff_exists.mp h1
  obtain ⟨t, ht⟩ := Option.isSome_iff_exists.mp h2
  refine ⟨_, by simp only [moveAssign, hu, ht, if_neg hoo]; rfl, ?_, ?_⟩
  · intro c i
    simp only [read, State.setTab, hoo, if_true, if_false, ht]
  · intro x hx hx' c i
    simp only [read, State.setTab, hx, hx', if_false]

/-- What copy construction does deliver: the records in the first eighth of each column, and only
if the source has not been moved (distance of its columns equal to its capacity). -/
theorem copyCtor_reads_partial (s : State V) (h : Reachable s) (o o' : Nat) (t : Table)
    (ho : s.tab o = none) (ho' : s.tab o' = some t) (hst : t.stride = t.capacity) (c i : Nat)
    (hi : 8 * (i + 1) ≤ t.sz) (hc : c < 8) :
    ∃ s', copyCtor s o o' = some s' ∧ read s' o c i = read s o' c i := by
  have hI := reachable_inv h
  have ha : ∃ q, t.arena = some q := by
    cases h0 : t.arena with
    | none => have := (hI.empty o' t ho' h0).1; omega
    | some q => exact ⟨q, rfl⟩
  obtain ⟨q, ha⟩ := ha
  obtain ⟨h1, h2, h3, b, hb, h4⟩ := hI.owned o' t q ho' ha
  have hq : q ≠ s.next := by
    intro hh
    rw [hI.fresh q (by omega)] at hb
    cases hb
  have hcc := copyCols_ok (s.alloc (t.sz * 8)).1 s.next q (Block.fresh (t.sz * 8)) b t.sz t.capacity
    t.sz (by simp [alloc_heap]) (by simp [alloc_heap, hq, hb]) (by omega)
    (by simp only [Block.fresh]; omega) (by omega) (by omega)
  refine ⟨_, by simp only [copyCtor, ho, ho', alloc_snd, ha, hcc]; rfl, ?_⟩
  have hlt : c * t.stride + i < b.size := by
    have : c * t.stride ≤ 7 * t.stride := Nat.mul_le_mul_right _ (by omega)
    omega
  have hlt' : c * t.sz + i < t.sz * 8 := by
    have : c * t.sz ≤ 7 * t.sz := Nat.mul_le_mul_right _ (by omega)
    omega
  simp only [read, State.setTab, State.setBlk, if_true, ho', h1, hb]
  have hcond : i < t.sz ∧ c < 8 := ⟨by omega, hc⟩
  have hlt2 : c * t.sz + i <
      (copyFold (Block.fresh (t.sz * 8)) b t.sz t.capacity t.sz (List.range 8)).size := by
    rw [copyFold_size]; exact hlt'
  rw [if_pos hcond, if_pos hcond, if_pos hlt, if_pos hlt2]
  congr 1
  apply load_congr
  intro k hk
  have := copyFold_byte (Block.fresh (t.sz * 8)) b t.sz t.capacity t.sz (by omega) 8 c hc
    (8 * i + k) (by omega)
  rw [hst]
  rw [show 8 * (c * t.sz + i) + k = 8 * (c * t.sz) + (8 * i + k) by omega, this]
  congr 1
  omega

/-- An array lives exactly as long as a table owns it, in histories without move assignment. -/
theorem no_leak {s s' : State V} {ops : List (Op V)} (hr : Runs s ops s') (hI : Inv s)
    (hno : ∀ o o', Op.moveAssign o o' ∉ ops) (hn : NoLeak s) : NoLeak s' := by
  induction hr with
  | nil => exact hn
  | @cons s op s1 ops s2 hL hs _ ih =>
    obtain ⟨_, h1, hI1⟩ := inv_step _ hI _ hL
    rw [hs] at h1
    cases h1
    refine ih hI1 (fun o o' hm => hno o o' (List.mem_cons_of_mem _ hm)) ?_
    clear ih
    have grow : ∀ o n, ∀ s' : State V, (∀ p b, s'.heap p = some b → ∃ x t, x ≠ o ∧ s'.tab x = some t ∧
        t.arena = some p) → NoLeak (((s'.alloc (n * 8)).1).setTab o
          (some ⟨n, n, some s'.next, s'.next, n⟩)) := by
      intro o n s' hs' p b hb
      simp only [State.setTab, alloc_heap] at hb
      by_cases hp : p = s'.next
      · exact ⟨o, ⟨n, n, some s'.next, s'.next, n⟩, by simp [State.setTab], by simp [hp]⟩
      · rw [if_neg hp] at hb
        obtain ⟨x, t, hx, ht, ha⟩ := hs' p b hb
        exact ⟨x, t, by simp [State.setTab, hx, alloc_tab, ht], ha⟩
    have keepTab : ∀ (s' : State V) o t t', s'.tab o = some t → t'.arena = t.arena → NoLeak s' →
        NoLeak (s'.setTab o (some t')) := by
      intro s' o t t' ho he hn p b hb
      obtain ⟨x, u, hx, ha⟩ := hn p b hb
      by_cases hxo : x = o
      · subst hxo
        rw [ho] at hx
        cases hx
        exact ⟨x, t', by simp [State.setTab], by rw [he, ha]⟩
      · exact ⟨x, u, by simp [State.setTab, hxo, hx], ha⟩
    have keepBlk : ∀ (s' : State V) p b b', s'.heap p = some b → NoLeak s' →
        NoLeak (s'.setBlk p (some b')) := by
      intro s' p b b' hp hn q c hq
      simp only [State.setBlk] at hq
      by_cases hqp : q = p
      · subst hqp
        obtain ⟨x, u, hx, ha⟩ := hn q b hp
        exact ⟨x, u, hx, ha⟩
      · rw [if_neg hqp] at hq
        obtain ⟨x, u, hx, ha⟩ := hn q c hq
        exact ⟨x, u, hx, ha⟩
    have rel : ∀ o t s', s.tab o = some t → s.free t.arena = some s' →
        ∀ p b, s'.heap p = some b → ∃ x u, x ≠ o ∧ s'.tab x = some u ∧ u.arena = some p := by
      intro o t s' ho hf p b hb
      obtain ⟨_, _, htab, hk, hz⟩ := inv_release s s' hI o t ho hf
      have hap : t.arena ≠ some p := by
        intro hh
        rw [hz p hh] at hb
        cases hb
      rw [hk p hap] at hb
      obtain ⟨x, u, hx, ha⟩ := hn p b hb
      refine ⟨x, u, ?_, by rw [htab]; exact hx, ha⟩
      intro hxo
      subst hxo
      rw [ho] at hx
      cases hx
      exact hap ha
    have rsz : ∀ o n t s', s.tab o = some t → resize s o n = some s' → NoLeak s' := by
      intro o n t s' ht hs'
      by_cases hlt : n < t.capacity
      · simp only [resize, ht, if_pos hlt] at hs'
        cases hs'
        exact keepTab s o t _ ht rfl hn
      · obtain ⟨s1, hf, h2, _⟩ := resize_grow s hI o n t ht hlt
        rw [h2] at hs'
        cases hs'
        have hnx := (inv_release s s1 hI o t ht hf).2.1
        have := grow o n s1 (rel o t s1 ht hf)
        rw [hnx] at this
        exact this
    have cc : ∀ (s' s'' : State V) a b x y z, copyCols s' a b x y z = some s'' → NoLeak s' →
        NoLeak s'' := by
      intro s' s'' a b x y z hcc hn
      unfold copyCols at hcc
      split at hcc
      · split at hcc
        · split at hcc
          · rename_i hp _ _
            cases hcc
            exact keepBlk s' _ _ _ hp hn
          · cases hcc
        · cases hcc
      · split at hcc
        · cases hcc; exact hn
        · cases hcc
    cases op with
    | construct o n =>
      obtain ⟨hc, _⟩ := inv_construct s hI o n hL
      simp only [step] at hs
      rw [hc] at hs
      cases hs
      apply grow o n s
      intro p b hb
      obtain ⟨x, t, hx, ha⟩ := hn p b hb
      have hxo : x ≠ o := by intro h; rw [h, show s.tab o = none from hL] at hx; cases hx
      exact ⟨x, t, hxo, hx, ha⟩
    | resize o n =>
      obtain ⟨t, ht⟩ := Option.isSome_iff_exists.mp hL
      exact rsz o n t s1 ht hs
    | destroy o =>
      obtain ⟨t, ht⟩ := Option.isSome_iff_exists.mp hL
      obtain ⟨s2, hs2⟩ := free_some s hI o t ht
      simp only [step, destroy, ht, hs2] at hs
      cases hs
      intro p b hb
      obtain ⟨x, u, hx, hu, ha⟩ := rel o t s2 ht hs2 p b hb
      exact ⟨x, u, by simp [State.setTab, hx, hu], ha⟩
    | moveCtor o o' =>
      obtain ⟨g1, g2⟩ := hL
      obtain ⟨t, ht⟩ := Option.isSome_iff_exists.mp g2
      have hne : o ≠ o' := by intro h; rw [← h, g1] at ht; cases ht
      simp only [step, moveCtor, g1, ht] at hs
      cases hs
      intro p b hb
      obtain ⟨x, u, hx, ha⟩ := hn p b hb
      by_cases hxo : x = o'
      · subst hxo
        rw [ht] at hx
        cases hx
        exact ⟨o, { t with capacity := t.sz }, by simp [State.setTab, hne], ha⟩
      · have hxo2 : x ≠ o := by intro h; rw [h, g1] at hx; cases hx
        exact ⟨x, u, by simp [State.setTab, hxo, hxo2, hx], ha⟩
    | moveAssign o o' => exact (hno o o' List.mem_cons_self).elim
    | copyCtor o o' =>
      obtain ⟨g1, g2⟩ := hL
      obtain ⟨t, ht⟩ := Option.isSome_iff_exists.mp g2
      simp only [step, copyCtor, g1, ht] at hs
      split at hs
      · cases hs
      · rename_i s3 hcc
        cases hs
        have htab3 : s3.tab = s.tab ∧ ∀ p b, s3.heap p = some b → p = s.next ∨ ∃ b', s.heap p = some b' := by
          have hsp : ∀ p b, (s.alloc (t.sz * 8)).1.heap p = some b → p = s.next ∨ ∃ b', s.heap p = some b' := by
            intro p b hb
            simp only [alloc_heap] at hb
            by_cases hp : p = s.next
            · exact .inl hp
            · rw [if_neg hp] at hb
              exact .inr ⟨b, hb⟩
          unfold copyCols at hcc
          split at hcc
          · split at hcc
            · split at hcc
              · rename_i hp _ _ hpeq
                cases hcc
                refine ⟨rfl, ?_⟩
                intro p b hb
                simp only [State.setBlk] at hb
                split at hb
                · rename_i e
                  rw [e]
                  exact hsp _ _ (by assumption)
                · exact hsp p b hb
              · cases hcc
            · cases hcc
          · split at hcc
            · cases hcc; exact ⟨rfl, hsp⟩
            · cases hcc
        intro p b hb
        rcases htab3.2 p b hb with hp | ⟨b', hb'⟩
        · exact ⟨o, ⟨t.sz, t.sz, some s.next, s.next, t.sz⟩, by simp [State.setTab, alloc_snd],
            by simp [hp]⟩
        · obtain ⟨x, u, hx, ha⟩ := hn p b' hb'
          have hxo : x ≠ o := by intro h; rw [h, g1] at hx; cases hx
          exact ⟨x, u, by simp [State.setTab, hxo, htab3.1, hx], ha⟩
    | copyAssign o o' =>
      obtain ⟨g1, g2⟩ := hL
      obtain ⟨t, ht⟩ := Option.isSome_iff_exists.mp g1
      obtain ⟨t', ht'⟩ := Option.isSome_iff_exists.mp g2
      simp only [step, copyAssign, ht, ht'] at hs
      by_cases hoo : o = o'
      · rw [if_pos hoo] at hs
        cases hs
        exact hn
      · rw [if_neg hoo] at hs
        generalize hr' : (if t.sz ≠ t'.sz then resize s o t'.sz else some s) = r at hs
        cases r with
        | none => cases hs
        | some s3 =>
          have hn3 : NoLeak s3 := by
            split at hr'
            · exact rsz o _ t s3 ht hr'
            · cases hr'; exact hn
          simp only at hs
          split at hs
          · cases hs
          · rename_i t1 ht1
            split at hs
            · cases hs
            · rename_i s4 hcc
              cases hs
              have htab : s4.tab = s3.tab := by
                unfold copyCols at hcc
                split at hcc
                · split at hcc
                  · split at hcc
                    · cases hcc; rfl
                    · cases hcc
                  · cases hcc
                · split at hcc
                  · cases hcc; rfl
                  · cases hcc
              exact keepTab s4 o t1 _ (by rw [htab]; exact ht1) rfl (cc _ _ _ _ _ _ _ hcc hn3)
    | write o c i v =>
      obtain ⟨t, ht, hi, hc⟩ := hL
      obtain ⟨p, b, _, _, hb, _, hw, _⟩ := inv_write s hI o c i v t ht hi hc
      simp only [step] at hs
      rw [hw] at hs
      cases hs
      exact keepBlk s p b _ hb hn

/-! ### Counterexamples -/

/-- Run a history (no check of the client's obligations). -/
def run (ops : List (Op Int)) : Option (State Int) :=
  ops.foldlM step State.init

def readAfter (ops : List (Op Int)) (o c i : Nat) : Option (Option Int) :=
  (run ops).bind fun s => read s o c i

/-- A copy of a one-record table has an indeterminate record. -/
theorem copyCtor_counterexample :
    readAfter [.construct 0 1, .write 0 1 0 5, .copyCtor 1 0] 0 1 0 = some (some 5) ∧
    readAfter [.construct 0 1, .write 0 1 0 5, .copyCtor 1 0] 1 1 0 = some none := by
  decide +kernel

/-- Copy assignment keeps the old value of records that should have been overwritten. -/
theorem copyAssign_counterexample :
    readAfter [.construct 0 2, .write 0 3 1 5, .construct 1 2, .write 1 3 1 9, .copyAssign 1 0] 0 3 1
      = some (some 5) ∧
    readAfter [.construct 0 2, .write 0 3 1 5, .construct 1 2, .write 1 3 1 9, .copyAssign 1 0] 1 3 1
      = some (some 9) := by
  decide +kernel

/-- Even in the first eighth: a copy of a moved table reads another column's values. -/
theorem copy_of_moved_counterexample :
    readAfter [.construct 0 10, .write 0 0 8 7, .write 0 1 0 5, .resize 0 8, .moveCtor 1 0,
      .copyCtor 2 1] 1 1 0 = some (some 5) ∧
    readAfter [.construct 0 10, .write 0 0 8 7, .write 0 1 0 5, .resize 0 8, .moveCtor 1 0,
      .copyCtor 2 1] 2 1 0 = some (some 7) := by
  decide +kernel

/-- Move assignment loses the array of its target: after both tables are destroyed, array 0 is
still allocated. -/
theorem moveAssign_leak_counterexample :
    ((run [.construct 0 1, .construct 1 1, .moveAssign 0 1, .destroy 0, .destroy 1]).map
      fun s => ((s.tab 0).isNone, (s.tab 1).isNone, (s.heap 0).isSome, (s.heap 1).isSome)) =
      some (true, true, true, false) := by
  decide +kernel

/-- Non-vacuity: a history with two tables, a resize and stores, all legal. -/
example : ∃ s : State Int, Reachable s ∧ read s 0 2 1 = some (some 4) ∧ read s 1 2 1 = some (some 6) ∧
    Legal s (.write 0 2 1 9) ∧ Legal s (.copyCtor 2 1) := by
  refine ⟨_, ⟨[.construct 0 10, .resize 0 3, .write 0 2 1 4, .construct 1 2, .write 1 2 1 6],
    Runs.cons rfl rfl (Runs.cons rfl rfl (Runs.cons ⟨_, rfl, by decide, by decide⟩ rfl
      (Runs.cons rfl rfl (Runs.cons ⟨_, rfl, by decide, by decide⟩ rfl (Runs.nil _)))))⟩, ?_, ?_,
      ⟨_, rfl, by decide, by decide⟩, ⟨rfl, rfl⟩⟩ <;> decide +kernel

/-- Non-vacuity of `copyCtor_reads_partial`: a table of 16 records copies its first two. -/
example : readAfter [.construct 0 16, .write 0 7 1 5, .copyCtor 1 0] 1 7 1 = some (some 5) := by
  decide +kernel

end Verif.Eop
