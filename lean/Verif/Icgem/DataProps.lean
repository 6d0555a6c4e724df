import Verif.Icgem.CountProps
import Verif.Harmonic.Props
import Batteries.Data.List.Perm

/-! C30: reading the coefficients. -/
namespace Verif.Icgem

open Verif.Rinex Verif.Text
open Verif.Harmonic (addrC addrS Name addr addr_inj)

/-! ### Specification -/

/-- The data section gives the coefficient pair `(n, k)` the values `c` and `s`. -/
def Given (is : List Item) (n k : Nat) (c s : ℚ) : Prop := Item.coeff n k (some (c, s)) ∈ is

/-- The coefficients asked for. -/
def Wanted (l m : Nat) : Name → Prop
  | .C n k => n ≤ l ∧ k ≤ n ∧ k ≤ m
  | .S n k => n ≤ l ∧ k ≤ n ∧ k ≤ m ∧ 1 ≤ k

/-- Degree and order of a line that is used for degree `l` and order `m`. -/
def key (l m : Nat) : Item → Option (Int × Int)
  | .coeff ll mm _ => if ll ≤ l ∧ mm ≤ m then some (ll, mm) else none
  | _ => none

/-- The data section is a proper one: among the lines used, orders do not exceed degrees and
nothing is negative, and no pair occurs twice. -/
structure Proper (l m : Nat) (is : List Item) : Prop where
  triangle : ∀ ll mm v, Item.coeff ll mm v ∈ is → ll ≤ l → mm ≤ m → 0 ≤ mm ∧ mm ≤ ll
  once : (is.filterMap (key l m)).Nodup

/-! ### The loop -/

structure Inv (N l m : Nat) (is : List Item) (t0 : Table) (done : List (Nat × Nat)) (t : Table) :
    Prop where
  nodup : done.Nodup
  mem : ∀ n k, (n, k) ∈ done → n ≤ l ∧ k ≤ n ∧ k ≤ m ∧
    ∃ c s, Given is n k c s ∧ t (addrC N n k) = c ∧ (1 ≤ k → t (addrS N n k) = s)
  rest : ∀ a, (∀ n k, (n, k) ∈ done → a ≠ addrC N n k ∧ (1 ≤ k → a ≠ addrS N n k)) → t a = t0 a

theorem addrC_ne (N n k n' k' : Nat) (h : n ≤ N) (hk : k ≤ n) (h' : n' ≤ N) (hk' : k' ≤ n')
    (hne : (n, k) ≠ (n', k')) : addrC N n k ≠ addrC N n' k' := fun he => by
  have := addr_inj N (.C n k) (.C n' k') ⟨hk, h⟩ ⟨hk', h'⟩ he
  simp only [Name.C.injEq] at this
  exact hne (by rw [this.1, this.2])

theorem addrS_ne (N n k n' k' : Nat) (h : n ≤ N) (hk : k ≤ n) (h1 : 1 ≤ k) (h' : n' ≤ N)
    (hk' : k' ≤ n') (h1' : 1 ≤ k') (hne : (n, k) ≠ (n', k')) :
    addrS N n k ≠ addrS N n' k' := fun he => by
  have := addr_inj N (.S n k) (.S n' k') ⟨h1, hk, h⟩ ⟨h1', hk', h'⟩ he
  simp only [Name.S.injEq] at this
  exact hne (by rw [this.1, this.2])

theorem addrCS_ne (N n k n' k' : Nat) (h : n ≤ N) (hk : k ≤ n) (h' : n' ≤ N)
    (hk' : k' ≤ n') (h1' : 1 ≤ k') : addrC N n k ≠ addrS N n' k' := fun he => by
  have := addr_inj N (.C n k) (.S n' k') ⟨hk, h⟩ ⟨h1', hk', h'⟩ he
  cases this

theorem assign_eq (N n k : Nat) (t : Table) (c s : ℚ) (hn : n ≤ N) (hk : k ≤ n) :
    assign N t n k c s =
      some (if k = 0 then t.set (addrC N n k) c else (t.set (addrC N n k) c).set (addrS N n k) s) := by
  unfold assign
  have hcond : (0 : Int) ≤ n ∧ (n : Int) ≤ N ∧ (0 : Int) ≤ k ∧ (k : Int) ≤ N := by omega
  rw [if_pos hcond]
  simp only [Int.toNat_natCast]
  by_cases h0 : k = 0
  · rw [if_pos h0, if_pos h0]
  · rw [if_neg h0, if_neg h0]
    have : (addrS N n k).1 ≤ N ∧ (addrS N n k).2 ≤ N := by
      simp only [addrS]; omega
    rw [if_pos this]

theorem inv_step (N l m : Nat) (is : List Item) (t0 t : Table) (done : List (Nat × Nat))
    (n k : Nat) (c s : ℚ) (hlN : l ≤ N) (hi : Inv N l m is t0 done t) (hnew : (n, k) ∉ done)
    (hn : n ≤ l) (hk : k ≤ n) (hm : k ≤ m) (hg : Given is n k c s) :
    Inv N l m is t0 ((n, k) :: done)
      (if k = 0 then t.set (addrC N n k) c else (t.set (addrC N n k) c).set (addrS N n k) s) := by
  refine ⟨List.nodup_cons.2 ⟨hnew, hi.nodup⟩, ?_, ?_⟩
  · intro n' k' hmem
    rcases List.mem_cons.1 hmem with heq | hold
    · simp only [Prod.mk.injEq] at heq
      obtain ⟨rfl, rfl⟩ := heq
      refine ⟨hn, hk, hm, c, s, hg, ?_, ?_⟩
      · by_cases h0 : k' = 0
        · simp [h0, Table.set]
        · have hne := addrCS_ne N n' k' n' k' (by omega) hk (by omega) hk (by omega)
          simp [h0, Table.set, hne]
      · intro h1
        have h0 : k' ≠ 0 := by omega
        simp [h0, Table.set]
    · have hne : (n', k') ≠ (n, k) := fun h => hnew (h ▸ hold)
      obtain ⟨a1, a2, a3, c', s', hg', hc, hs⟩ := hi.mem n' k' hold
      refine ⟨a1, a2, a3, c', s', hg', ?_, ?_⟩
      · have e1 := addrC_ne N n' k' n k (by omega) a2 (by omega) hk hne
        by_cases h0 : k = 0
        · rw [if_pos h0]; simp [Table.set, e1, hc]
        · have e2 := addrCS_ne N n' k' n k (by omega) a2 (by omega) hk (by omega)
          rw [if_neg h0]; simp [Table.set, e1, e2, hc]
      · intro h1
        have e1 : addrS N n' k' ≠ addrC N n k :=
          (addrCS_ne N n k n' k' (by omega) hk (by omega) a2 h1).symm
        by_cases h0 : k = 0
        · rw [if_pos h0]; simp [Table.set, e1, hs h1]
        · have e2 := addrS_ne N n' k' n k (by omega) a2 h1 (by omega) hk (by omega) hne
          rw [if_neg h0]; simp [Table.set, e1, e2, hs h1]
  · intro a ha
    have h1 := ha n k (List.mem_cons_self ..)
    have h2 := hi.rest a (fun n' k' h => ha n' k' (List.mem_cons_of_mem _ h))
    by_cases h0 : k = 0
    · rw [if_pos h0]; simp [Table.set, h1.1, h2]
    · rw [if_neg h0]; simp [Table.set, h1.1, h1.2 (by omega), h2]

/-- What a successful loop has done. -/
theorem run_ok (N l m : Nat) (hlN : l ≤ N) (all : List Item) (t0 : Table) :
    ∀ (is : List Item) (done : List (Nat × Nat)) (t t' : Table),
      (∀ i ∈ is, i ∈ all) → Proper l m is →
      (∀ n k, (n, k) ∈ done → ((n : Int), (k : Int)) ∉ is.filterMap (key l m)) →
      Inv N l m all t0 done t → run N l m is done.length t = .ret 0 t' →
      ∃ done', (Inv N l m all t0 done' t' ∧ coeffsNr l m ≤ done'.length) ∨
        (∃ t1, Inv N l m all t0 done' t1 ∧ done'.length + 2 = coeffsNr l m ∧
          t1 (addrC N 1 0) = -999 ∧ t1 (addrC N 1 1) = -999 ∧
          t' = (t1.set (addrC N 1 0) 0).set (addrC N 1 1) 0) := by
  intro is
  induction is with
  | nil =>
    intro done t t' _ _ _ hi h
    unfold run at h
    by_cases hc : done.length < coeffsNr l m
    · rw [if_pos hc] at h
      simp only at h
      split at h
      · rename_i hx
        cases h
        exact ⟨done, .inr ⟨t, hi, by omega, by rw [hx.2.1, hx.2.2], hx.2.2, rfl⟩⟩
      · simp at h
    · rw [if_neg hc] at h
      cases h
      exact ⟨done, .inl ⟨hi, by omega⟩⟩
  | cons i is ih =>
    intro done t t' hall hp hfresh hi h
    unfold run at h
    by_cases hc : done.length < coeffsNr l m
    swap
    · rw [if_neg hc] at h
      cases h
      exact ⟨done, .inl ⟨hi, by omega⟩⟩
    rw [if_pos hc] at h
    have hall' : ∀ i ∈ is, i ∈ all := fun j hj => hall j (List.mem_cons_of_mem _ hj)
    have hsub : (is.filterMap (key l m)).Sublist ((i :: is).filterMap (key l m)) :=
      (List.sublist_cons_self i is).filterMap _
    have hp' : Proper l m is :=
      ⟨fun ll mm v hv => hp.triangle ll mm v (List.mem_cons_of_mem _ hv), hp.once.sublist hsub⟩
    have hfresh' : ∀ n k, (n, k) ∈ done → ((n : Int), (k : Int)) ∉ is.filterMap (key l m) :=
      fun n k hd hm => hfresh n k hd (hsub.subset hm)
    cases i with
    | skip => exact ih done t t' hall' hp' hfresh' hi h
    | bad => simp at h
    | coeff ll mm v =>
      simp only at h
      by_cases hr : ll ≤ l ∧ mm ≤ m
      swap
      · rw [if_neg hr] at h
        exact ih done t t' hall' hp' hfresh' hi h
      rw [if_pos hr] at h
      cases v with
      | none => simp at h
      | some v =>
        obtain ⟨c, s⟩ := v
        simp only at h
        obtain ⟨hm0, hml⟩ := hp.triangle ll mm _ (List.mem_cons_self ..) hr.1 hr.2
        obtain ⟨n, rfl⟩ := Int.eq_ofNat_of_zero_le (show 0 ≤ ll by omega)
        obtain ⟨k, rfl⟩ := Int.eq_ofNat_of_zero_le hm0
        have hkn : k ≤ n := by omega
        rw [assign_eq N n k t c s (by omega) hkn] at h
        simp only at h
        by_cases ha : (k : Int) = 0 ∧ s ≠ 0
        · rw [if_pos ha] at h; cases h
        rw [if_neg ha] at h
        have hkey : (Item.coeff (n : Int) (k : Int) (some (c, s)) :: is).filterMap (key l m) =
            ((n : Int), (k : Int)) :: is.filterMap (key l m) := by
          rw [List.filterMap_cons]
          simp only [key, if_pos hr]
        have hnew : (n, k) ∉ done := fun hd => hfresh n k hd (by rw [hkey]; exact List.mem_cons_self ..)
        refine ih ((n, k) :: done) _ t' hall' hp' ?_
          (inv_step N l m all t0 t done n k c s hlN hi hnew (by omega) hkn (by omega)
            (hall _ (List.mem_cons_self ..))) h
        intro n' k' hd hm
        rcases List.mem_cons.1 hd with heq | hold
        · simp only [Prod.mk.injEq] at heq
          obtain ⟨rfl, rfl⟩ := heq
          have := hp.once
          rw [hkey] at this
          exact (List.nodup_cons.1 this).1 hm
        · exact hfresh' n' k' hold hm

/-- A duplicate-free list of wanted pairs, with at least as many members as there are wanted pairs,
has them all. -/
theorem all_of_length (l m : Nat) (ps : List (Nat × Nat)) (hnd : ps.Nodup)
    (hsub : ∀ n k, (n, k) ∈ ps → n ≤ l ∧ k ≤ n ∧ k ≤ m) (hlen : coeffsNr l m ≤ ps.length)
    (n k : Nat) (hn : n ≤ l) (hk : k ≤ n) (hm : k ≤ m) : (n, k) ∈ ps := by
  have hsp : ps.Subperm (pairs l m) := List.subperm_of_subset hnd (fun p hp => by
    obtain ⟨a, b⟩ := p
    exact (mem_pairs l m a b).2 (hsub a b hp))
  have hperm := hsp.perm_of_length_le (by rw [← coeffsNr_eq]; exact hlen)
  exact hperm.mem_iff.2 ((mem_pairs l m n k).2 ⟨hn, hk, hm⟩)

/-! ### C30 -/

/-- **C30** If `parse_data` succeeds for degree `l` and order `m`, both at least 1, on a proper data
section, then every coefficient asked for was given by the file and stored at its place, and every
other coefficient of the table keeps its value.  The one exception is made by the code itself: when
`C(1,0)` and `C(1,1)` are the only coefficients missing they become zero (and then `S(1,1)` is not
touched).

Partial: for repeated pairs, orders above degrees, and for order 0 the property fails; see below. -/
theorem read_success_partial (strtod : Strtod) (maxDegree : Int) (N l m : Nat)
    (lines : List Line) (t t' : Table) (hl : 1 ≤ l) (hm : 1 ≤ m)
    (hp : Proper l m (items strtod lines))
    (h999 : ∀ k c s, Given (items strtod lines) 1 k c s → c ≠ -999)
    (h : parseData strtod maxDegree N l m (some lines) t = .ret 0 t') :
    ((∀ n k, n ≤ l → k ≤ n → k ≤ m →
        ∃ c s, Given (items strtod lines) n k c s ∧ t' (addrC N n k) = c ∧
          (1 ≤ k → t' (addrS N n k) = s)) ∨
      ((∀ n k, n ≤ l → k ≤ n → k ≤ m → n ≠ 1 →
          ∃ c s, Given (items strtod lines) n k c s ∧ t' (addrC N n k) = c ∧
            (1 ≤ k → t' (addrS N n k) = s)) ∧
        t' (addrC N 1 0) = 0 ∧ t' (addrC N 1 1) = 0 ∧ t' (addrS N 1 1) = t (addrS N 1 1))) ∧
    ∀ a : Name, a.Valid N → ¬ Wanted l m a → t' (addr N a) = t (addr N a) := by
  unfold parseData at h
  split at h
  · simp at h
  rename_i hchk
  have hlN : l ≤ N := by omega
  simp only at h
  rw [if_neg (by omega)] at h
  set t0 : Table := (t.set (addrC N 1 0) (-999)).set (addrC N 1 1) (-999) with ht0
  have ht0' : ∀ a, a ≠ addrC N 1 0 → a ≠ addrC N 1 1 → t0 a = t a := by
    intro a h1 h2
    simp [ht0, Table.set, h1, h2]
  obtain ⟨done, hd⟩ := run_ok N l m hlN (items strtod lines) t0 (items strtod lines) [] t0 t'
    (fun _ h => h) hp (by simp) ⟨List.nodup_nil, by simp, fun _ _ => rfl⟩ h
  have hne01 : addrC N 1 0 ≠ addrC N 1 1 := by simp [addrC]
  -- slots of names that are not wanted
  have hun : ∀ (t1 : Table), Inv N l m (items strtod lines) t0 done t1 → ∀ a : Name, a.Valid N →
      ¬ Wanted l m a → t1 (addr N a) = t (addr N a) := by
    intro t1 hi a hv hw
    have hd0 : addr N a ≠ addrC N 1 0 := fun he => hw (by
      rw [addr_inj N a (.C 1 0) hv (by exact ⟨by omega, by omega⟩) he]
      exact ⟨by omega, by omega, by omega⟩)
    have hd1 : addr N a ≠ addrC N 1 1 := fun he => hw (by
      rw [addr_inj N a (.C 1 1) hv (by exact ⟨by omega, by omega⟩) he]
      exact ⟨by omega, by omega, by omega⟩)
    rw [← ht0' _ hd0 hd1]
    refine hi.rest _ (fun n k hnk => ?_)
    obtain ⟨q1, q2, q3, -⟩ := hi.mem n k hnk
    refine ⟨fun he => hw ?_, fun h1 he => hw ?_⟩
    · rw [addr_inj N a (.C n k) hv (by exact ⟨by omega, by omega⟩) he]
      exact ⟨by omega, by omega, by omega⟩
    · rw [addr_inj N a (.S n k) hv (by exact ⟨by omega, by omega, by omega⟩) he]
      exact ⟨by omega, by omega, by omega, h1⟩
  rcases hd with ⟨hi, hlen⟩ | ⟨t1, hi, hlen, hc0, hc1, rfl⟩
  · refine ⟨.inl ?_, hun t' hi⟩
    intro n k hn hk hkm
    exact (hi.mem n k (all_of_length l m done hi.nodup
      (fun a b hab => ⟨(hi.mem a b hab).1, (hi.mem a b hab).2.1, (hi.mem a b hab).2.2.1⟩)
      hlen n k hn hk hkm)).2.2.2
  · have hno : ∀ k, (1, k) ∉ done ∨ t1 (addrC N 1 k) ≠ -999 := by
      intro k
      by_cases hk : (1, k) ∈ done
      · obtain ⟨-, -, -, c, s, hg, hc, -⟩ := hi.mem 1 k hk
        exact .inr (by rw [hc]; exact h999 k c s hg)
      · exact .inl hk
    have hno0 : (1, 0) ∉ done := (hno 0).resolve_right (by simp [hc0])
    have hno1 : (1, 1) ∉ done := (hno 1).resolve_right (by simp [hc1])
    refine ⟨.inr ⟨?_, ?_, ?_, ?_⟩, ?_⟩
    · intro n k hn hk hkm hn1
      have hin : (n, k) ∈ (1, 0) :: (1, 1) :: done := by
        refine all_of_length l m _ ?_ ?_ ?_ n k hn hk hkm
        · refine List.nodup_cons.2 ⟨?_, List.nodup_cons.2 ⟨hno1, hi.nodup⟩⟩
          simp [hno0]
        · intro a b hab
          simp only [List.mem_cons, Prod.mk.injEq] at hab
          rcases hab with ⟨rfl, rfl⟩ | ⟨rfl, rfl⟩ | hab
          · omega
          · omega
          · exact ⟨(hi.mem a b hab).1, (hi.mem a b hab).2.1, (hi.mem a b hab).2.2.1⟩
        · simp only [List.length_cons]; omega
      have hin' : (n, k) ∈ done := by
        simp only [List.mem_cons, Prod.mk.injEq] at hin
        rcases hin with ⟨h1, -⟩ | ⟨h1, -⟩ | hin
        · exact absurd h1 hn1
        · exact absurd h1 hn1
        · exact hin
      obtain ⟨-, -, -, c, s, hg, hc, hs⟩ := hi.mem n k hin'
      have e0 := addrC_ne N n k 1 0 (by omega) hk (by omega) (by omega) (by simp [hn1])
      have e1 := addrC_ne N n k 1 1 (by omega) hk (by omega) (by omega) (by simp [hn1])
      refine ⟨c, s, hg, by simp [Table.set, e0, e1, hc], fun h1 => ?_⟩
      have f0 := (addrCS_ne N 1 0 n k (by omega) (by omega) (by omega) hk h1).symm
      have f1 := (addrCS_ne N 1 1 n k (by omega) (by omega) (by omega) hk h1).symm
      simp [Table.set, f0, f1, hs h1]
    · simp [Table.set, hne01]
    · simp [Table.set]
    · have f0 := (addrCS_ne N 1 0 1 1 (by omega) (by omega) (by omega) (by omega) (by omega)).symm
      have f1 := (addrCS_ne N 1 1 1 1 (by omega) (by omega) (by omega) (by omega) (by omega)).symm
      have : t1 (addrS N 1 1) = t0 (addrS N 1 1) := by
        refine hi.rest _ (fun n k hnk => ?_)
        obtain ⟨q1, q2, q3, -⟩ := hi.mem n k hnk
        refine ⟨(addrCS_ne N n k 1 1 (by omega) q2 (by omega) (by omega) (by omega)).symm,
          fun h1 => addrS_ne N 1 1 n k (by omega) (by omega) (by omega) (by omega) q2 h1 ?_⟩
        rintro heq
        rw [← heq] at hnk
        exact hno1 hnk
      simp [Table.set, f0, f1, this, ht0' _ f0 f1]
    · intro a hv hw
      have hd0 : addr N a ≠ addrC N 1 0 := fun he => hw (by
        rw [addr_inj N a (.C 1 0) hv (by exact ⟨by omega, by omega⟩) he]
        exact ⟨by omega, by omega, by omega⟩)
      have hd1 : addr N a ≠ addrC N 1 1 := fun he => hw (by
        rw [addr_inj N a (.C 1 1) hv (by exact ⟨by omega, by omega⟩) he]
        exact ⟨by omega, by omega, by omega⟩)
      rw [← hun t1 hi a hv hw]
      simp [Table.set, hd0, hd1]

/-! ### Concrete instances -/

/-- A `strtod` for integers. -/
def intStrtod : Strtod := fun s => (strtol s).map fun r => ((r.value : ℚ), r.rest)

/-- Slots of a table of degree 1 after success. -/
def slots : Out → Option (List ℚ)
  | .ret 0 t => some [t (0, 0), t (1, 0), t (1, 1), t (0, 1)]
  | _ => none

def status : Out → Option Int
  | .ret n _ => some n
  | _ => none

def isOutside : Out → Bool
  | .outside => true
  | _ => false

def ln (s : String) : Line := ⟨s.toList, true⟩

def sample : List Line := [ln "gfc 0 0 1 0", ln "gfct 1 0 9 9", ln "gfc 1 0 5 0", ln "gfc 1 1 6 7", ln "x"]

/-- The theorem's hypotheses are met by the sample, and the values arrive. -/
example : slots (parseData intStrtod 3 1 1 1 (some sample) fun _ => 42) = some [1, 5, 6, 7] := by
  decide +kernel

example : Proper 1 1 (items intStrtod sample) := by
  have hit : items intStrtod sample = [.coeff 0 0 (some (1, 0)), .skip, .coeff 1 0 (some (5, 0)),
      .coeff 1 1 (some (6, 7)), .skip] := by decide +kernel
  rw [hit]
  refine ⟨?_, by decide⟩
  intro ll mm v hv h1 h2
  simp only [List.mem_cons, Item.coeff.injEq, reduceCtorEq, false_or, List.not_mem_nil, or_false]
    at hv
  omega

/-- The exception: degree one missing. -/
example : slots (parseData intStrtod 3 1 1 1 (some [ln "gfc 0 0 1 0"]) fun _ => 42) =
    some [1, 0, 0, 42] := by
  decide +kernel

/-- **C30, where it fails (1).**  A repeated pair is counted twice: success is reported though
`C(1,0)` was never given and is left at -999. -/
theorem read_duplicate_counterexample :
    slots (parseData intStrtod 3 1 1 1
      (some [ln "gfc 0 0 1 0", ln "gfc 0 0 2 0", ln "gfc 1 1 6 7"]) fun _ => 42) =
      some [2, -999, 6, 7] := by
  decide +kernel

/-- **C30, where it fails (2).**  With order 0 the coefficient `C(1,1)`, not asked for, is changed
to -999. -/
theorem read_order_zero_counterexample :
    slots (parseData intStrtod 3 1 1 0 (some [ln "gfc 0 0 1 0", ln "gfc 1 0 5 0"]) fun _ => 42) =
      some [1, 5, -999, 42] := by
  decide +kernel

/-- **C30, where it fails (3).**  A line whose order exceeds its degree, or whose degree is
negative, is stored outside the table. -/
theorem read_outside_counterexample :
    isOutside (parseData intStrtod 3 1 1 1 (some [ln "gfc 0 1 1 1"]) fun _ => 42) = true ∧
    isOutside (parseData intStrtod 3 1 1 1 (some [ln "gfc -1 0 1 0"]) fun _ => 42) = true := by
  decide +kernel

/-- **C30, where it fails (4).**  For a table of degree 0 the marker values are stored outside. -/
theorem read_degree_zero_counterexample :
    isOutside (parseData intStrtod 3 0 0 0 (some [ln "gfc 0 0 1 0"]) fun _ => 42) = true := by
  decide +kernel

/-- The last line of a file without a final newline is not used (a complete file is refused). -/
theorem read_last_line_refused :
    status (parseData intStrtod 3 1 1 1
      (some [ln "gfc 0 0 1 0", ln "gfc 1 0 5 0", ⟨"gfc 1 1 6 7".toList, false⟩]) fun _ => 42) =
      some 2 := by
  decide +kernel

end Verif.Icgem
