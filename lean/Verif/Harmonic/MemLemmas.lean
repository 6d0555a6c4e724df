import Verif.Harmonic.Model
import Verif.Heap.Lemmas

/-! Memory laws of `allocate`/`deallocate`. -/
namespace Verif.Harmonic
open Verif.Heap (Heap)

/-- The blocks reachable from an object: all of them, including rows beyond the degree. -/
def Obj.blocks (o : Obj) : List Nat :=
  match o.data with
  | none => []
  | some (outer, rows) => outer :: rows

/-- The blocks `deallocate` frees. -/
def Obj.freed (o : Obj) : List Nat :=
  match o.data with
  | none => []
  | some (outer, rows) => rows.take (o.degree + 1) ++ [outer]

theorem freeAll_append (l1 l2 : List Nat) : ∀ h : Heap,
    h.freeAll (l1 ++ l2) = (h.freeAll l1).bind fun h' => h'.freeAll l2 := by
  induction l1 with
  | nil => intro h; rfl
  | cons a t ih =>
    intro h
    simp only [List.cons_append, Heap.Heap.freeAll]
    cases h.free a with
    | none => rfl
    | some h' => simp [ih]

theorem deallocate_eq (h : Heap) (o : Obj)
    (hlen : ∀ outer rows, o.data = some (outer, rows) → o.degree + 1 ≤ rows.length) :
    deallocate h o = h.freeAll o.freed := by
  unfold deallocate Obj.freed
  cases hd : o.data with
  | none => rfl
  | some d =>
    obtain ⟨outer, rows⟩ := d
    simp only [if_pos (hlen outer rows hd), freeAll_append]
    congr 1
    funext h'
    simp only [Heap.Heap.freeAll]
    cases h'.free outer <;> rfl

theorem freed_sub (o : Obj) : ∀ p ∈ o.freed, p ∈ o.blocks := by
  intro p hp
  unfold Obj.freed at hp
  unfold Obj.blocks
  cases hd : o.data with
  | none => simp [hd] at hp
  | some d =>
    obtain ⟨outer, rows⟩ := d
    simp only [hd, List.mem_append, List.mem_singleton] at hp
    rcases hp with hp | hp
    · exact List.mem_cons_of_mem _ (List.mem_of_mem_take hp)
    · rw [hp]; exact List.mem_cons_self ..

theorem freed_nodup (o : Obj) (h : o.blocks.Nodup) : o.freed.Nodup := by
  unfold Obj.freed
  unfold Obj.blocks at h
  cases hd : o.data with
  | none => exact List.nodup_nil
  | some d =>
    obtain ⟨outer, rows⟩ := d
    simp only [hd, List.nodup_cons] at h
    simp only [List.nodup_append, List.mem_singleton]
    refine ⟨h.2.take, by simp, ?_⟩
    intro a ha b hb hab
    subst hb hab
    exact h.1 (List.mem_of_mem_take ha)

/-- When the degree is the one the rows were allocated for, everything is freed. -/
theorem freed_all (o : Obj)
    (hlen : ∀ outer rows, o.data = some (outer, rows) → o.degree + 1 = rows.length) :
    ∀ p ∈ o.blocks, p ∈ o.freed := by
  intro p hp
  unfold Obj.blocks at hp
  unfold Obj.freed
  cases hd : o.data with
  | none => simp [hd] at hp
  | some d =>
    obtain ⟨outer, rows⟩ := d
    simp only [hd, List.mem_cons] at hp
    rw [hlen outer rows hd]
    simp only [List.take_length, List.mem_append, List.mem_singleton]
    exact hp.symm

theorem allocate_spec (h : Heap) (hw : h.WF) (n : Nat) :
    (allocate h n).2.WF ∧ (allocate h n).1.2.length = n + 1 ∧
    ((allocate h n).1.1 :: (allocate h n).1.2).Nodup ∧
    (∀ p ∈ (allocate h n).1.1 :: (allocate h n).1.2, p ∉ h.live) ∧
    (∀ p, p ∈ (allocate h n).2.live ↔
      p ∈ (allocate h n).1.1 :: (allocate h n).1.2 ∨ p ∈ h.live) := by
  obtain ⟨h1, h2, h3, h4, h5⟩ := Heap.Heap.allocN_spec (n + 1) (Heap.Heap.alloc_wf hw)
  refine ⟨h1, h3, ?_, ?_, ?_⟩
  · refine List.nodup_cons.2 ⟨?_, h2⟩
    intro hm
    exact (h4 _ hm).2 (List.mem_cons_self ..)
  · intro p hp
    rcases List.mem_cons.1 hp with rfl | hp
    · exact Heap.Heap.alloc_fresh hw
    · exact fun hl => (h4 p hp).2 (List.mem_cons_of_mem _ hl)
  · intro p
    show p ∈ (h.alloc.2.allocN (n + 1)).2.live ↔
      p ∈ h.alloc.1 :: (h.alloc.2.allocN (n + 1)).1 ∨ p ∈ h.live
    rw [h5]
    simp only [Heap.Heap.alloc, List.mem_cons]
    constructor
    · rintro (h | h | h)
      · exact Or.inl (Or.inr h)
      · exact Or.inl (Or.inl h)
      · exact Or.inr h
    · rintro ((h | h) | h)
      · exact Or.inr (Or.inl h)
      · exact Or.inl h
      · exact Or.inr (Or.inr h)

end Verif.Harmonic
