import Verif.Harmonic.Model
import Verif.Heap.Lemmas
import Mathlib.Data.Nat.Factorial.Basic
import Mathlib.Tactic.Ring
import Mathlib.Tactic.FieldSimp
import Mathlib.Tactic.Positivity
import Mathlib.Tactic.Push

/-! Helper lemmas for the harmonic-coefficient tables. -/
namespace Verif.Harmonic

theorem addrS_eq (N i j : Nat) : addrS N i j = (N - i, N - i + j) := by
  unfold addrS; congr 1; omega

/-- A loop dividing the slots `A k`, `k ∈ L`, all different. -/
theorem foldl_divAt (A : Nat → Nat × Nat) (f : Nat → ℝ) (L : List Nat) (hn : (L.map A).Nodup) :
    ∀ (t : Table), (∀ k ∈ L, (L.foldl (fun t m => divAt t (A m) (f m)) t) (A k) = t (A k) / f k) ∧
      (∀ b, b ∉ L.map A → (L.foldl (fun t m => divAt t (A m) (f m)) t) b = t b) := by
  induction L with
  | nil => intro t; exact ⟨(by intro k hk; cases hk), fun b _ => rfl⟩
  | cons a l ih =>
    intro t
    rw [List.map_cons, List.nodup_cons] at hn
    obtain ⟨ih1, ih2⟩ := ih hn.2 (divAt t (A a) (f a))
    constructor
    · intro k hk
      rcases List.mem_cons.1 hk with rfl | hk
      · rw [List.foldl_cons, ih2 _ hn.1]; simp [divAt, Table.store]
      · rw [List.foldl_cons, ih1 k hk]
        have : A k ≠ A a := by
          intro h; apply hn.1; rw [← h]; exact List.mem_map_of_mem hk
        simp [divAt, Table.store, this]
    · intro b hb
      rw [List.map_cons, List.mem_cons, not_or] at hb
      rw [List.foldl_cons, ih2 b hb.2]
      simp [divAt, Table.store, hb.1]

theorem nodup_mapC (N n k : Nat) : ((List.range k).map (addrC N n)).Nodup := by
  apply List.Nodup.map _ List.nodup_range
  intro a b h; simpa [addrC] using h

theorem nodup_mapS (N n s k : Nat) : ((List.range' s k).map (addrS N n)).Nodup := by
  apply List.Nodup.map _ List.nodup_range'
  intro a b h; simp only [addrS_eq, Prod.mk.injEq] at h; omega

theorem denormRow_C (N order : Nat) (t : Table) (n i j : Nat) (hj : j ≤ i) :
    denormRow N order t n (addrC N i j) =
      if i = n ∧ j ≤ order then t (addrC N i j) / fac n j else t (addrC N i j) := by
  unfold denormRow
  rw [(foldl_divAt (addrS N n) (fac n) _ (nodup_mapS N n 1 _) _).2]
  · split
    · rename_i h
      obtain ⟨rfl, h⟩ := h
      rw [(foldl_divAt (addrC N i) (fac i) _ (nodup_mapC N i _) t).1]
      rw [List.mem_range]; omega
    · rename_i h
      rw [(foldl_divAt (addrC N n) (fac n) _ (nodup_mapC N n _) t).2]
      simp only [List.mem_map, List.mem_range, addrC, Prod.mk.injEq, not_exists, not_and]
      intro a ha hni haj
      apply h; omega
  · simp only [List.mem_map, addrC, addrS_eq, Prod.mk.injEq, not_exists, not_and]
    intro a ha h1 h2
    rw [List.mem_range'_1] at ha; omega

theorem denormRow_S (N order : Nat) (t : Table) (n i j : Nat) (hj1 : 1 ≤ j) (hj : j ≤ i)
    (hi : i ≤ N) (hn : n ≤ N) :
    denormRow N order t n (addrS N i j) =
      if i = n ∧ j ≤ order then t (addrS N i j) / fac n j else t (addrS N i j) := by
  have hC : addrS N i j ∉ (List.range (min order n + 1)).map (addrC N n) := by
    simp only [List.mem_map, List.mem_range, addrC, addrS_eq, Prod.mk.injEq, not_exists, not_and]
    intro a ha h1 h2; omega
  unfold denormRow
  split
  · rename_i h
    obtain ⟨rfl, h⟩ := h
    rw [(foldl_divAt (addrS N i) (fac i) _ (nodup_mapS N i 1 _) _).1]
    · rw [(foldl_divAt (addrC N i) (fac i) _ (nodup_mapC N i _) t).2 _ hC]
    · rw [List.mem_range'_1]; omega
  · rename_i h
    rw [(foldl_divAt (addrS N n) (fac n) _ (nodup_mapS N n 1 _) _).2]
    · rw [(foldl_divAt (addrC N n) (fac n) _ (nodup_mapC N n _) t).2 _ hC]
    · simp only [List.mem_map, List.mem_range'_1, addrS_eq, Prod.mk.injEq, not_exists, not_and]
      intro a ha h1 h2
      apply h; omega

/-- A loop whose pass `n` affects slot `b` only for `n = k`. -/
theorem foldl_single (g : Table → Nat → Table) (b : Nat × Nat) (k : Nat) (c : Prop) [Decidable c]
    (f : ℝ) (L : List Nat) (hn : L.Nodup)
    (hg : ∀ t, ∀ n ∈ L, g t n b = if k = n ∧ c then t b / f else t b) :
    ∀ t, (L.foldl g t) b = if k ∈ L ∧ c then t b / f else t b := by
  induction L with
  | nil => intro t; simp
  | cons a l ih =>
    intro t
    rw [List.nodup_cons] at hn
    rw [List.foldl_cons, ih hn.2 (fun t n h => hg t n (List.mem_cons_of_mem _ h)),
      hg t a (List.mem_cons_self ..)]
    by_cases hc : c <;> by_cases hka : k = a
    · subst hka; simp [hc, hn.1]
    · simp [hc, hka]
    · simp [hc]
    · simp [hc]

theorem sumLoop_mul (start k : Nat) :
    sumLoop (start + 1) k * (Nat.factorial start : ℝ) = (Nat.factorial (start + k) : ℝ) := by
  induction k with
  | zero => simp [sumLoop]
  | succ k ih =>
    rw [sumLoop, mul_right_comm, ih, ← Nat.add_assoc, Nat.factorial_succ]
    push_cast; ring

theorem sumFac_eq (n m : Nat) (h : m ≤ n) :
    sumFac n m = (Nat.factorial (n + m) : ℝ) / (Nat.factorial (n - m) : ℝ) := by
  have hpos : (Nat.factorial (n - m) : ℝ) ≠ 0 := by exact_mod_cast Nat.factorial_ne_zero _
  rw [eq_div_iff hpos]
  unfold sumFac
  split
  · rename_i h0; subst h0; simp
  · rw [sumLoop_mul]; congr 2; omega

end Verif.Harmonic
