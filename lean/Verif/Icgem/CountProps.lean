import Verif.Icgem.Model
import Mathlib.Tactic.Ring
import Mathlib.Data.List.Nodup

/-! C31: number of coefficients. -/
namespace Verif.Icgem

/-- Specification: the pairs `(n, k)` with `n ≤ l` and `k ≤ min n m`. -/
def pairs (l m : Nat) : List (Nat × Nat) :=
  (List.range (l + 1)).flatMap fun n => (List.range (min n m + 1)).map fun k => (n, k)

theorem mem_pairs (l m n k : Nat) : (n, k) ∈ pairs l m ↔ n ≤ l ∧ k ≤ n ∧ k ≤ m := by
  simp only [pairs, List.mem_flatMap, List.mem_range, List.mem_map, Prod.mk.injEq]
  constructor
  · rintro ⟨a, ha, b, hb, rfl, rfl⟩; omega
  · rintro ⟨h1, h2, h3⟩
    exact ⟨n, by omega, k, by omega, rfl, rfl⟩

theorem pairs_nodup (l m : Nat) : (pairs l m).Nodup := by
  unfold pairs
  rw [List.nodup_flatMap]
  refine ⟨fun n _ => List.nodup_range.map (fun a b h => by simpa using h), ?_⟩
  refine List.Pairwise.imp_of_mem ?_ List.nodup_range
  intro a b _ _ hab x hx hy
  simp only [List.mem_map] at hx hy
  obtain ⟨_, _, rfl⟩ := hx
  obtain ⟨_, _, h⟩ := hy
  simp only [Prod.mk.injEq] at h
  exact hab h.1.symm

theorem sum_succ (l : Nat) :
    ((List.range (l + 1)).map fun i => i + 1).sum = ((l + 1) * (l + 1 - 1)) / 2 + (l + 1) := by
  have h2 : 2 * ((List.range (l + 1)).map fun i => i + 1).sum = (l + 1) * (l + 2) := by
    induction l with
    | zero => simp
    | succ l ih =>
      rw [List.range_succ, List.map_append, List.sum_append, Nat.mul_add, ih]
      simp only [List.map_cons, List.map_nil, List.sum_cons, List.sum_nil]
      ring
  have h3 : (l + 1) * (l + 2) = (l + 1) * l + 2 * (l + 1) := by ring
  have h4 : (l + 1) * (l + 1 - 1) = (l + 1) * l := by simp
  omega

/-- **C31** `coeffs_nr` is the number of pairs `(n, k)` with `0 ≤ n ≤ l`, `0 ≤ k ≤ min n m`,
whatever the order of `l` and `m`. -/
theorem coeffsNr_eq (l m : Nat) : coeffsNr l m = (pairs l m).length := by
  have hsum : (pairs l m).length = ((List.range (l + 1)).map fun i => min i m + 1).sum := by
    simp [pairs, List.length_flatMap, Function.comp_def]
  rw [hsum]
  unfold coeffsNr
  by_cases h : l = m
  · subst h
    rw [if_pos rfl]
    simp only
    rw [← sum_succ]
    congr 1
    apply List.map_congr_left
    intro i hi
    have := List.mem_range.1 hi
    omega
  · rw [if_neg h]
    congr 1
    apply List.map_congr_left
    intro i _
    by_cases hi : i > m
    · rw [if_pos hi]; omega
    · rw [if_neg hi]; omega

/-- The pairs are listed once each, so the length counts them. -/
theorem pairs_spec (l m : Nat) :
    (pairs l m).Nodup ∧ ∀ n k, (n, k) ∈ pairs l m ↔ n ≤ l ∧ k ≤ n ∧ k ≤ m :=
  ⟨pairs_nodup l m, mem_pairs l m⟩

example : coeffsNr 3 3 = 10 ∧ coeffsNr 3 1 = 7 ∧ coeffsNr 2 5 = 6 ∧ coeffsNr 4 0 = 5 := by
  decide

end Verif.Icgem
