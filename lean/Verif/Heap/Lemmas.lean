import Verif.Heap.Model
import Mathlib.Data.List.Nodup

/-! Laws of the allocator model. -/
set_option linter.dupNamespace false

namespace Verif.Heap.Heap

theorem wf_init : init.WF := ⟨List.nodup_nil, by intro p hp; cases hp⟩

theorem alloc_fresh {h : Heap} (hw : h.WF) : h.alloc.1 ∉ h.live :=
  fun hm => Nat.lt_irrefl _ (hw.2 _ hm)

theorem alloc_wf {h : Heap} (hw : h.WF) : h.alloc.2.WF := by
  refine ⟨List.nodup_cons.2 ⟨alloc_fresh hw, hw.1⟩, ?_⟩
  intro p hp
  rcases List.mem_cons.1 hp with rfl | hp
  · exact Nat.lt_succ_self _
  · exact Nat.lt_succ_of_lt (hw.2 p hp)

/-- Everything one needs to know about `k` allocations. -/
theorem allocN_spec (k : Nat) : ∀ {h : Heap}, h.WF →
    (h.allocN k).2.WF ∧ (h.allocN k).1.Nodup ∧ (h.allocN k).1.length = k ∧
    (∀ p ∈ (h.allocN k).1, h.next ≤ p ∧ p ∉ h.live) ∧
    (∀ p, p ∈ (h.allocN k).2.live ↔ p ∈ (h.allocN k).1 ∨ p ∈ h.live) := by
  induction k with
  | zero =>
    intro h hw
    refine ⟨hw, List.nodup_nil, rfl, ?_, ?_⟩
    · intro p hp; cases hp
    · intro p; simp [allocN]
  | succ k ih =>
    intro h hw
    obtain ⟨h1, h2, h3, h4, h5⟩ := ih (alloc_wf hw)
    simp only [allocN]
    refine ⟨h1, ?_, by simp [h3], ?_, ?_⟩
    · refine List.nodup_cons.2 ⟨?_, h2⟩
      intro hm
      have := (h4 _ hm).2
      exact this (List.mem_cons_self ..)
    · intro p hp
      rcases List.mem_cons.1 hp with rfl | hp
      · exact ⟨Nat.le_refl _, alloc_fresh hw⟩
      · have := h4 p hp
        refine ⟨Nat.le_of_succ_le this.1, fun hm => this.2 (List.mem_cons_of_mem _ hm)⟩
    · intro p
      rw [h5]
      simp only [alloc, List.mem_cons]
      constructor
      · rintro (h | h | h)
        · exact Or.inl (Or.inr h)
        · exact Or.inl (Or.inl h)
        · exact Or.inr h
      · rintro ((h | h) | h)
        · exact Or.inr (Or.inl h)
        · exact Or.inl h
        · exact Or.inr (Or.inr h)

/-- Freeing distinct live blocks succeeds and removes exactly them. -/
theorem freeAll_spec (ps : List Nat) : ∀ {h : Heap}, h.WF → ps.Nodup → (∀ p ∈ ps, p ∈ h.live) →
    ∃ h', h.freeAll ps = some h' ∧ h'.WF ∧ (∀ p, p ∈ h'.live ↔ p ∈ h.live ∧ p ∉ ps) := by
  induction ps with
  | nil => intro h hw _ _; exact ⟨h, rfl, hw, by intro p; simp⟩
  | cons q t ih =>
    intro h hw hn hl
    have hq : q ∈ h.live := hl q (List.mem_cons_self ..)
    obtain ⟨hqt, hnt⟩ := List.nodup_cons.1 hn
    have hw' : (⟨h.next, h.live.erase q⟩ : Heap).WF :=
      ⟨hw.1.erase q, fun p hp => hw.2 p (List.mem_of_mem_erase hp)⟩
    obtain ⟨h', e, w, m⟩ := ih hw' hnt (by
      intro p hp
      refine (List.mem_erase_of_ne ?_).2 (hl p (List.mem_cons_of_mem _ hp))
      rintro rfl; exact hqt hp)
    refine ⟨h', by simp [freeAll, free, hq, e], w, ?_⟩
    intro p
    rw [m, hw.1.mem_erase_iff, List.mem_cons]
    constructor
    · rintro ⟨⟨a, b⟩, c⟩; exact ⟨b, by rintro (d | d); exacts [a d, c d]⟩
    · rintro ⟨a, b⟩; exact ⟨⟨fun d => b (Or.inl d), a⟩, fun d => b (Or.inr d)⟩

end Verif.Heap.Heap
