import Verif.Icgem.LoadModel
import Verif.Icgem.HeaderProps
import Mathlib.Tactic.NormNum

/-! C109: a gravity model is loaded. -/
namespace Verif.Icgem

open Verif.Rinex Verif.Text
open Verif.Harmonic (addrC addrS Name addr addr_inj normFactor)

/-! ### Specification -/

/-- The lines used can be read, and coefficients of order 0 have no sine part. -/
structure Readable (l m : Nat) (is : List Item) : Prop where
  good : Item.bad ∉ is
  values : ∀ ll mm v, Item.coeff ll mm v ∈ is → ll ≤ l → mm ≤ m → ∃ c s, v = some (c, s) ∧ (mm = 0 → s = 0)

/-- Every coefficient asked for is in the file. -/
def Complete (l m : Nat) (is : List Item) : Prop := ∀ n k, n ≤ l → k ≤ n → k ≤ m → ∃ c s, Given is n k c s

/-- Every coefficient asked for is in the file, but for those of degree 1, none of which are. -/
def CompleteBut1 (l m : Nat) (is : List Item) : Prop :=
  (∀ n k, n ≤ l → k ≤ n → k ≤ m → n ≠ 1 → ∃ c s, Given is n k c s) ∧ ∀ k v, Item.coeff 1 k v ∉ is

/-! ### Complete data sections are accepted -/

/-- The loop on readable lines: it ends with all coefficients, or has used every line. -/
theorem run_readable (N l m : Nat) (hlN : l ≤ N) (all : List Item) (t0 : Table) :
    ∀ (is : List Item) (done : List (Nat × Nat)) (t : Table),
      (∀ i ∈ is, i ∈ all) → Proper l m is → Readable l m is →
      (∀ n k, (n, k) ∈ done → ((n : Int), (k : Int)) ∉ is.filterMap (key l m)) →
      Inv N l m all t0 done t →
      ∃ done' t1, Inv N l m all t0 done' t1 ∧ (∀ p ∈ done, p ∈ done') ∧
        ((coeffsNr l m ≤ done'.length ∧ run N l m is done.length t = .ret 0 t1) ∨
          (done'.length < coeffsNr l m ∧ run N l m is done.length t = run N l m [] done'.length t1 ∧
            ∀ n k : Nat, ((n : Int), (k : Int)) ∈ is.filterMap (key l m) → (n, k) ∈ done')) := by
  intro is
  induction is with
  | nil =>
    intro done t _ _ _ _ hi
    by_cases hc : done.length < coeffsNr l m
    · exact ⟨done, t, hi, fun _ h => h, .inr ⟨hc, rfl, by simp⟩⟩
    · refine ⟨done, t, hi, fun _ h => h, .inl ⟨by omega, ?_⟩⟩
      unfold run
      rw [if_neg hc]
  | cons i is ih =>
    intro done t hall hp hrd hfresh hi
    by_cases hc : done.length < coeffsNr l m
    swap
    · refine ⟨done, t, hi, fun _ h => h, .inl ⟨by omega, ?_⟩⟩
      unfold run
      rw [if_neg hc]
    have hall' : ∀ i ∈ is, i ∈ all := fun j hj => hall j (List.mem_cons_of_mem _ hj)
    have hsub : (is.filterMap (key l m)).Sublist ((i :: is).filterMap (key l m)) :=
      (List.sublist_cons_self i is).filterMap _
    have hp' : Proper l m is :=
      ⟨fun ll mm v hv => hp.triangle ll mm v (List.mem_cons_of_mem _ hv), hp.once.sublist hsub⟩
    have hrd' : Readable l m is :=
      ⟨fun h => hrd.good (List.mem_cons_of_mem _ h), fun ll mm v hv => hrd.values ll mm v (List.mem_cons_of_mem _ hv)⟩
    have hfresh' : ∀ n k, (n, k) ∈ done → ((n : Int), (k : Int)) ∉ is.filterMap (key l m) :=
      fun n k hd hm => hfresh n k hd (hsub.subset hm)
    cases i with
    | skip =>
      obtain ⟨d, t1, h1, h2, h3⟩ := ih done t hall' hp' hrd' hfresh' hi
      refine ⟨d, t1, h1, h2, ?_⟩
      have e1 : run N l m (Item.skip :: is) done.length t = run N l m is done.length t := by
        rw [run, if_pos hc]
      have e2 : (Item.skip :: is).filterMap (key l m) = is.filterMap (key l m) := rfl
      rw [e1, e2]
      exact h3
    | bad => exact absurd (List.mem_cons_self ..) hrd.good
    | coeff ll mm v =>
      by_cases hr : ll ≤ l ∧ mm ≤ m
      swap
      · obtain ⟨d, t1, h1, h2, h3⟩ := ih done t hall' hp' hrd' hfresh' hi
        refine ⟨d, t1, h1, h2, ?_⟩
        have e1 : run N l m (Item.coeff ll mm v :: is) done.length t = run N l m is done.length t := by
          conv_lhs => rw [run.eq_def]
          simp only
          rw [if_pos hc, if_neg hr]
        have e2 : (Item.coeff ll mm v :: is).filterMap (key l m) = is.filterMap (key l m) := by
          rw [List.filterMap_cons]
          simp only [key, if_neg hr]
        rw [e1, e2]
        exact h3
      obtain ⟨c, s, rfl, hs0⟩ := hrd.values ll mm v (List.mem_cons_self ..) hr.1 hr.2
      obtain ⟨hm0, hml⟩ := hp.triangle ll mm _ (List.mem_cons_self ..) hr.1 hr.2
      obtain ⟨n, rfl⟩ := Int.eq_ofNat_of_zero_le (show 0 ≤ ll by omega)
      obtain ⟨k, rfl⟩ := Int.eq_ofNat_of_zero_le hm0
      have hkn : k ≤ n := by omega
      have hkey : (Item.coeff (n : Int) (k : Int) (some (c, s)) :: is).filterMap (key l m) =
          ((n : Int), (k : Int)) :: is.filterMap (key l m) := by
        rw [List.filterMap_cons]
        simp only [key, if_pos hr]
      have hnew : (n, k) ∉ done := fun hd => hfresh n k hd (by rw [hkey]; exact List.mem_cons_self ..)
      have hinv := inv_step N l m all t0 t done n k c s hlN hi hnew (by omega) hkn (by omega)
        (hall _ (List.mem_cons_self ..))
      have e1 : run N l m (Item.coeff (n : Int) (k : Int) (some (c, s)) :: is) done.length t =
          run N l m is ((n, k) :: done).length
            (if k = 0 then t.set (addrC N n k) c else (t.set (addrC N n k) c).set (addrS N n k) s) := by
        conv_lhs => rw [run.eq_def]
        simp only
        rw [if_pos hc, if_pos hr, assign_eq N n k t c s (by omega) hkn]
        simp only
        rw [if_neg]
        · rfl
        · exact fun h => h.2 (hs0 h.1)
      obtain ⟨d, t1, h1, h2, h3⟩ := ih ((n, k) :: done) _ hall' hp' hrd' (by
        intro n' k' hd hm
        rcases List.mem_cons.1 hd with heq | hold
        · simp only [Prod.mk.injEq] at heq
          obtain ⟨rfl, rfl⟩ := heq
          have := hp.once
          rw [hkey] at this
          exact (List.nodup_cons.1 this).1 hm
        · exact hfresh' n' k' hold hm) hinv
      refine ⟨d, t1, h1, fun p hp => h2 p (List.mem_cons_of_mem _ hp), ?_⟩
      rw [e1, hkey]
      rcases h3 with h3 | ⟨a1, a2, a3⟩
      · exact .inl h3
      · refine .inr ⟨a1, a2, ?_⟩
        intro n' k' hm
        rcases List.mem_cons.1 hm with heq | hm
        · simp only [Prod.mk.injEq, Int.natCast_inj] at heq
          exact h2 _ (by rw [heq.1, heq.2]; exact List.mem_cons_self ..)
        · exact a3 n' k' hm

theorem given_key (l m : Nat) (is : List Item) (n k : Nat) (c s : ℚ) (hg : Given is n k c s) (hn : n ≤ l) (hm : k ≤ m) :
    ((n : Int), (k : Int)) ∈ is.filterMap (key l m) :=
  List.mem_filterMap.2 ⟨_, hg, by simp only [key]; rw [if_pos (by omega)]⟩

/-- **C30 (completeness).**  A proper, readable data section with every coefficient asked for is accepted, and every
coefficient is stored at its place; the others remain. -/
theorem read_complete (strtod : Strtod) (maxDegree : Int) (N l m : Nat) (lines : List Line) (t : Table) (hl : 1 ≤ l)
    (hm : 1 ≤ m) (hml : m ≤ l) (hlN : l ≤ N) (hD : (l : Int) ≤ maxDegree) (hp : Proper l m (items strtod lines))
    (hr : Readable l m (items strtod lines)) (hc : Complete l m (items strtod lines)) :
    ∃ t', parseData strtod maxDegree N l m (some lines) t = .ret 0 t' ∧
      (∀ n k, n ≤ l → k ≤ n → k ≤ m → ∃ c s, Given (items strtod lines) n k c s ∧ t' (addrC N n k) = c ∧
          (1 ≤ k → t' (addrS N n k) = s)) ∧
      ∀ a : Name, a.Valid N → ¬ Wanted l m a → t' (addr N a) = t (addr N a) := by
  obtain ⟨done, t1, hi, -, h⟩ := run_readable N l m hlN (items strtod lines)
    ((t.set (addrC N 1 0) (-999)).set (addrC N 1 1) (-999)) (items strtod lines) []
    ((t.set (addrC N 1 0) (-999)).set (addrC N 1 1) (-999)) (fun _ h => h) hp hr (by simp)
    ⟨List.nodup_nil, by simp, fun _ _ => rfl⟩
  have hsub : ∀ n k, (n, k) ∈ done → n ≤ l ∧ k ≤ n ∧ k ≤ m := fun n k hnk =>
    ⟨(hi.mem n k hnk).1, (hi.mem n k hnk).2.1, (hi.mem n k hnk).2.2.1⟩
  have hrun : coeffsNr l m ≤ done.length ∧ run N l m (items strtod lines) 0
      ((t.set (addrC N 1 0) (-999)).set (addrC N 1 1) (-999)) = .ret 0 t1 := by
    rcases h with h | ⟨h1, -, h3⟩
    · exact h
    · exfalso
      have : (pairs l m).Subperm done := List.subperm_of_subset (pairs_nodup l m) (fun p hp => by
        obtain ⟨n, k⟩ := p
        obtain ⟨q1, q2, q3⟩ := (mem_pairs l m n k).1 hp
        obtain ⟨c, s, hg⟩ := hc n k q1 q2 q3
        exact h3 n k (given_key l m _ n k c s hg q1 q3))
      have := this.length_le
      rw [← coeffsNr_eq] at this
      omega
  refine ⟨t1, ?_, ?_, ?_⟩
  · unfold parseData
    rw [if_neg (by omega)]
    simp only
    rw [if_neg (by omega)]
    exact hrun.2
  · intro n k hn hk hkm
    exact (hi.mem n k (all_of_length l m done hi.nodup hsub hrun.1 n k hn hk hkm)).2.2.2
  · intro a hv hw
    have hd0 : addr N a ≠ addrC N 1 0 := fun he => hw (by
      rw [addr_inj N a (.C 1 0) hv (by exact ⟨by omega, by omega⟩) he]
      exact ⟨by omega, by omega, by omega⟩)
    have hd1 : addr N a ≠ addrC N 1 1 := fun he => hw (by
      rw [addr_inj N a (.C 1 1) hv (by exact ⟨by omega, by omega⟩) he]
      exact ⟨by omega, by omega, by omega⟩)
    have := hi.rest (addr N a) (fun n k hnk => by
      obtain ⟨q1, q2, q3⟩ := hsub n k hnk
      refine ⟨fun he => hw ?_, fun h1 he => hw ?_⟩
      · rw [addr_inj N a (.C n k) hv (by exact ⟨by omega, by omega⟩) he]
        exact ⟨by omega, by omega, by omega⟩
      · rw [addr_inj N a (.S n k) hv (by exact ⟨by omega, by omega, by omega⟩) he]
        exact ⟨by omega, by omega, by omega, h1⟩)
    rw [this]
    simp [Table.set, hd0, hd1]

/-- **C30 (completeness, no degree 1).**  A proper, readable data section with every coefficient asked for but those of
degree 1 is accepted; `C(1,0)` and `C(1,1)` become zero, and `S(1,1)` keeps what the table held. -/
theorem read_complete_but_1 (strtod : Strtod) (maxDegree : Int) (N l m : Nat) (lines : List Line) (t : Table) (hl : 1 ≤ l)
    (hm : 1 ≤ m) (hml : m ≤ l) (hlN : l ≤ N) (hD : (l : Int) ≤ maxDegree) (hp : Proper l m (items strtod lines))
    (hr : Readable l m (items strtod lines)) (hc : CompleteBut1 l m (items strtod lines)) :
    ∃ t', parseData strtod maxDegree N l m (some lines) t = .ret 0 t' ∧
      (∀ n k, n ≤ l → k ≤ n → k ≤ m → n ≠ 1 → ∃ c s, Given (items strtod lines) n k c s ∧ t' (addrC N n k) = c ∧
          (1 ≤ k → t' (addrS N n k) = s)) ∧
      t' (addrC N 1 0) = 0 ∧ t' (addrC N 1 1) = 0 ∧ t' (addrS N 1 1) = t (addrS N 1 1) := by
  have hret : ∃ t', parseData strtod maxDegree N l m (some lines) t = .ret 0 t' := by
    obtain ⟨done, t1, hi, -, h⟩ := run_readable N l m hlN (items strtod lines)
      ((t.set (addrC N 1 0) (-999)).set (addrC N 1 1) (-999)) (items strtod lines) []
      ((t.set (addrC N 1 0) (-999)).set (addrC N 1 1) (-999)) (fun _ h => h) hp hr (by simp)
      ⟨List.nodup_nil, by simp, fun _ _ => rfl⟩
    have hno : ∀ k, (1, k) ∉ done := fun k hk => by
      obtain ⟨-, -, -, c, s, hg, -⟩ := hi.mem 1 k hk
      exact hc.2 k _ hg
    have hlen : done.length + 2 ≤ coeffsNr l m := by
      have hs : ((1, 0) :: (1, 1) :: done).Subperm (pairs l m) := by
        refine List.subperm_of_subset ?_ ?_
        · refine List.nodup_cons.2 ⟨?_, List.nodup_cons.2 ⟨hno 1, hi.nodup⟩⟩
          simp [hno 0]
        · rintro ⟨n, k⟩ hnk
          rw [mem_pairs]
          simp only [List.mem_cons, Prod.mk.injEq] at hnk
          rcases hnk with ⟨rfl, rfl⟩ | ⟨rfl, rfl⟩ | hnk
          · omega
          · omega
          · exact ⟨(hi.mem n k hnk).1, (hi.mem n k hnk).2.1, (hi.mem n k hnk).2.2.1⟩
      have := hs.length_le
      rw [← coeffsNr_eq] at this
      simp only [List.length_cons] at this
      omega
    rcases h with h | ⟨h1, h2, h3⟩
    · omega
    have hlen' : coeffsNr l m ≤ done.length + 2 := by
      have hs : (pairs l m).Subperm ((1, 0) :: (1, 1) :: done) := by
        refine List.subperm_of_subset (pairs_nodup l m) ?_
        rintro ⟨n, k⟩ hnk
        obtain ⟨q1, q2, q3⟩ := (mem_pairs l m n k).1 hnk
        by_cases hn1 : n = 1
        · subst hn1
          have : k = 0 ∨ k = 1 := by omega
          rcases this with rfl | rfl <;> simp
        · obtain ⟨c, s, hg⟩ := hc.1 n k q1 q2 q3 hn1
          exact List.mem_cons_of_mem _ (List.mem_cons_of_mem _ (h3 n k (given_key l m _ n k c s hg q1 q3)))
      have := hs.length_le
      rw [← coeffsNr_eq] at this
      simpa using this
    have hC : ∀ j, j ≤ 1 → t1 (addrC N 1 j) = -999 := by
      intro j hj
      rw [hi.rest]
      · have : j = 0 ∨ j = 1 := by omega
        rcases this with rfl | rfl <;> simp [Table.set, addrC]
      · intro n k hnk
        obtain ⟨q1, q2, q3, -⟩ := hi.mem n k hnk
        refine ⟨addrC_ne N 1 j n k (by omega) hj (by omega) q2 ?_,
          fun h1 => addrCS_ne N 1 j n k (by omega) hj (by omega) q2 h1⟩
        intro heq
        simp only [Prod.mk.injEq] at heq
        exact hno k (by rw [heq.1]; exact hnk)
    refine ⟨(t1.set (addrC N 1 0) 0).set (addrC N 1 1) 0, ?_⟩
    unfold parseData
    rw [if_neg (by omega)]
    simp only
    rw [if_neg (by omega)]
    rw [List.length_nil] at h2
    rw [h2, run.eq_def]
    simp only
    rw [if_pos h1]
    rw [if_pos ⟨by omega, by rw [hC 0 (by omega), hC 1 (by omega)], hC 1 le_rfl⟩]
  obtain ⟨t', h⟩ := hret
  refine ⟨t', h, ?_⟩
  have h999 : ∀ k c s, Given (items strtod lines) 1 k c s → c ≠ -999 := fun k c s hg => absurd hg (hc.2 k _)
  rcases (read_success_partial strtod maxDegree N l m lines t t' hl hm hp h999 h).1 with h' | h'
  · obtain ⟨c, s, hg, -⟩ := h' 1 0 hl (by omega) (by omega)
    exact absurd hg (hc.2 0 _)
  · exact h'

/-! ### C109 -/

/-- What the header says about normalisation. -/
def Norm (es : List Ent) : Prop := lastArg .norm es = none ∨ lastArg .norm es = some "fully_normalized".toList

/-- A file: header entries, final line of the header, data section; and how its header is to be read. -/
structure GoodHeader (strtod : Strtod) (es : List Ent) (fin : List Char) : Prop where
  len : es.length ≤ 1000
  ok : ∀ e ∈ es, e.Ok strtod
  finEnd : "end_of_head".toList <+: fin
  finLen : fin.length ≤ 255
  finNul : '\x00' ∉ fin

/-- The text of the file. -/
def fileOf (es : List Ent) (fin : List Char) (data : List Line) : List Line := es.map Ent.line ++ ⟨fin, true⟩ :: data

/-- The factor a coefficient of the file is multiplied by. -/
noncomputable def factor (norm : Bool) (n k : Nat) : ℝ := if norm then normFactor n k else 1

/-- Members of a good header. -/
structure HeaderSays (strtod : Strtod) (es : List Ent) (gm re : ℚ) (D : Nat) : Prop where
  gm : (lastArg .gm es).bind (fun a => (strtod a).map (·.1)) = some gm
  re : (lastArg .radius es).bind (fun a => (strtod a).map (·.1)) = some re
  degree : (lastArg .maxDegree es).bind (fun a => (strtol a).map (toInt32 ·.value)) = some (D : Int)

/-- The factor by which a coefficient is multiplied. -/
noncomputable def nameFactor (norm : Bool) : Name → ℝ
  | .C n k => factor norm n k
  | .S n k => factor norm n k

/-- What is done with the coefficients read. -/
theorem load_of_read (strtod : Strtod) (es : List Ent) (fin : List Char) (data : List Line) (b : Buf) (l m D : Nat)
    (denorm : Bool) (t : Table) (gm re : ℚ) (hh : GoodHeader strtod es fin) (hs : HeaderSays strtod es gm re D)
    (hl : 1 ≤ l) (hlD : l ≤ D) (hml : m ≤ l) (t' : Table)
    (hret : parseData strtod D l l m (some data) t = .ret 0 t') :
    ∃ (c : Harmonic.Coeffs) (norm : Bool), (norm = true ↔ Norm es) ∧
      loadModel strtod (some (fileOf es fin data)) b l m denorm t = .ok gm re c ∧ c.degree = l ∧
      c.normalized = (norm && !denorm) ∧
      ∀ a : Name, a.Valid l → c.data (addr l a) = t' (addr l a) * nameFactor (norm && denorm) a := by
  obtain ⟨h, h1, h2⟩ := header_members_partial strtod es fin data b hh.len hh.ok hh.finEnd hh.finLen hh.finNul
  obtain ⟨h', h1', h3⟩ := header_normalized_partial strtod es fin data b hh.len hh.ok hh.finEnd hh.finLen hh.finNul
  obtain rfl : h = h' := by
    rw [h1] at h1'
    injection h1'
  have egm : h.gm = gm := by
    have := hs.gm
    rw [h2.gm]
    cases hx : lastArg .gm es with
    | none => simp [hx] at this
    | some a =>
      rw [hx, Option.bind_some] at this
      simp [this]
  have ere : h.radius = re := by
    have := hs.re
    rw [h2.radius]
    cases hx : lastArg .radius es with
    | none => simp [hx] at this
    | some a =>
      rw [hx, Option.bind_some] at this
      simp [this]
  have eD : h.maxDegree = D := by
    have := hs.degree
    rw [h2.maxDegree]
    cases hx : lastArg .maxDegree es with
    | none => simp [hx] at this
    | some a =>
      rw [hx, Option.bind_some] at this
      simp [this]
  have hload : loadModel strtod (some (fileOf es fin data)) b l m denorm t =
      if denorm then
        match Harmonic.denormalize ⟨l, h.isNormalized, fun a => (t' a : ℝ)⟩ (-1) with
        | .abort => .abort
        | .ret _ c' => .ok gm re c'
      else .ok gm re ⟨l, h.isNormalized, fun a => (t' a : ℝ)⟩ := by
    unfold loadModel fileOf
    rw [h1]
    simp only [ne_eq, not_true_eq_false, if_false]
    rw [if_neg (by rw [eD]; omega)]
    simp only [Option.map_some, dataLines, Stream.open, Stream.good, Bool.not_false, Bool.and_self, if_true, eD, hret, egm,
      ere, not_true_eq_false, if_false]
    rfl
  cases hden : denorm with
  | false =>
    refine ⟨_, h.isNormalized, h3, by rw [hden] at hload; simpa using hload, rfl, by simp, ?_⟩
    intro a ha
    cases a <;> simp [nameFactor, factor]
  | true =>
    cases hnorm : h.isNormalized with
    | false =>
      refine ⟨⟨l, false, fun a => (t' a : ℝ)⟩, h.isNormalized, h3, ?_, rfl, by simp [hnorm], ?_⟩
      · rw [hden, hnorm] at hload
        rw [hload]
        simp [Harmonic.denormalize]
      · intro a ha
        cases a <;> simp [nameFactor, factor, hnorm]
    | true =>
      obtain ⟨c', hc1, hc2, hc3, hc4⟩ := Harmonic.denormalize_spec ⟨l, true, fun a => (t' a : ℝ)⟩ (-1) rfl hl (by simp)
      have heff : (Harmonic.effOrder ⟨l, true, fun a => (t' a : ℝ)⟩ (-1)).toNat = l := by simp [Harmonic.effOrder]
      refine ⟨c', h.isNormalized, h3, ?_, hc2, by simp [hc3], ?_⟩
      · rw [hden, hnorm] at hload
        rw [hload]
        simp [hc1]
      · intro a ha
        have h4 := hc4 a ha
        cases a with
        | C n k =>
          have hkl : k ≤ l := le_trans ha.1 ha.2
          simp only [heff, Harmonic.expected, if_pos hkl] at h4
          rw [h4]
          simp [nameFactor, factor, hnorm]
        | S n k =>
          have hkl : k ≤ l := le_trans ha.2.1 ha.2.2
          simp only [heff, Harmonic.expected, if_pos hkl] at h4
          rw [h4]
          simp [nameFactor, factor, hnorm]

/-- **C109.**  A file with a good header, an order not above the degree, a degree not above that of the header, and a proper,
readable and complete data section is loaded: the constants are those of the header; each coefficient asked for has the
value in the file, multiplied by the normalisation factor if the coefficients are normalised and shall not be; the table is
then marked accordingly.  Missing: order or degree 0 and improper data sections, for which `parse_data` is wrong (C30). -/
theorem load_complete_partial (strtod : Strtod) (es : List Ent) (fin : List Char) (data : List Line) (b : Buf) (l m D : Nat)
    (denorm : Bool) (t : Table) (gm re : ℚ) (hh : GoodHeader strtod es fin) (hs : HeaderSays strtod es gm re D)
    (hl : 1 ≤ l) (hlD : l ≤ D) (hm : 1 ≤ m) (hml : m ≤ l) (hp : Proper l m (items strtod data))
    (hr : Readable l m (items strtod data)) (hc : Complete l m (items strtod data)) :
    ∃ (c : Harmonic.Coeffs) (norm : Bool), (norm = true ↔ Norm es) ∧
      loadModel strtod (some (fileOf es fin data)) b l m denorm t = .ok gm re c ∧ c.degree = l ∧
      c.normalized = (norm && !denorm) ∧
      ∀ n k, n ≤ l → k ≤ n → k ≤ m → ∃ x s, Given (items strtod data) n k x s ∧
        c.data (addrC l n k) = x * factor (norm && denorm) n k ∧
        (1 ≤ k → c.data (addrS l n k) = s * factor (norm && denorm) n k) := by
  obtain ⟨t', hret, hvals, -⟩ := read_complete strtod D l l m data t hl hm hml le_rfl (by omega) hp hr hc
  obtain ⟨c, norm, h1, h2, h3, h4, h5⟩ := load_of_read strtod es fin data b l m D denorm t gm re hh hs hl hlD hml t' hret
  refine ⟨c, norm, h1, h2, h3, h4, ?_⟩
  intro n k hn hk hkm
  obtain ⟨x, s, hg, hx, hs'⟩ := hvals n k hn hk hkm
  refine ⟨x, s, hg, ?_, fun hk1 => ?_⟩
  · have := h5 (.C n k) ⟨hk, hn⟩
    simpa only [addr, hx, nameFactor] using this
  · have := h5 (.S n k) ⟨hk1, hk, hn⟩
    simpa only [addr, hs' hk1, nameFactor] using this

/-- **C109 is false: files without degree 1.**  Such a file (EGM2008 is one) is accepted and `C(1,0)` and `C(1,1)` are set
to zero, but `S(1,1)` is what the memory held before (de-normalised): it is nowhere initialised. -/
theorem load_degree_1_counterexample (strtod : Strtod) (es : List Ent) (fin : List Char) (data : List Line) (b : Buf)
    (l m D : Nat) (denorm : Bool) (t : Table) (gm re : ℚ) (hh : GoodHeader strtod es fin)
    (hs : HeaderSays strtod es gm re D) (hl : 1 ≤ l) (hlD : l ≤ D) (hm : 1 ≤ m) (hml : m ≤ l)
    (hp : Proper l m (items strtod data)) (hr : Readable l m (items strtod data))
    (hc : CompleteBut1 l m (items strtod data)) :
    ∃ (c : Harmonic.Coeffs) (norm : Bool), (norm = true ↔ Norm es) ∧
      loadModel strtod (some (fileOf es fin data)) b l m denorm t = .ok gm re c ∧
      c.data (addrC l 1 0) = 0 ∧ c.data (addrC l 1 1) = 0 ∧
      c.data (addrS l 1 1) = t (addrS l 1 1) * factor (norm && denorm) 1 1 := by
  obtain ⟨t', hret, -, e0, e1, e2⟩ := read_complete_but_1 strtod D l l m data t hl hm hml le_rfl (by omega) hp hr hc
  obtain ⟨c, norm, h1, h2, h3, h4, h5⟩ := load_of_read strtod es fin data b l m D denorm t gm re hh hs hl hlD hml t' hret
  refine ⟨c, norm, h1, h2, ?_, ?_, ?_⟩
  · have := h5 (.C 1 0) ⟨by omega, hl⟩
    simpa only [addr, e0, Rat.cast_zero, zero_mul] using this
  · have := h5 (.C 1 1) ⟨by omega, hl⟩
    simpa only [addr, e1, Rat.cast_zero, zero_mul] using this
  · have := h5 (.S 1 1) ⟨by omega, by omega, hl⟩
    simpa only [addr, e2, nameFactor] using this

/-- A degree above that of the header, or an order above the degree, is refused. -/
theorem load_bad_degree (strtod : Strtod) (es : List Ent) (fin : List Char) (data : List Line) (b : Buf) (l m D : Nat)
    (denorm : Bool) (t : Table) (hh : GoodHeader strtod es fin)
    (hD : (lastArg .maxDegree es).bind (fun a => (strtol a).map (toInt32 ·.value)) = some (D : Int))
    (hbad : D < l ∨ l < m) : loadModel strtod (some (fileOf es fin data)) b l m denorm t = .failed := by
  obtain ⟨h, h1, h2⟩ := header_members_partial strtod es fin data b hh.len hh.ok hh.finEnd hh.finLen hh.finNul
  have eD : h.maxDegree = D := by
    rw [h2.maxDegree]
    cases hx : lastArg .maxDegree es with
    | none => simp [hx] at hD
    | some a =>
      rw [hx, Option.bind_some] at hD
      simp [hD]
  unfold loadModel fileOf
  rw [h1]
  simp only [ne_eq, not_true_eq_false, if_false]
  rw [if_pos (by rw [eD]; omega)]

/-- A file that cannot be opened is refused. -/
theorem load_no_file (strtod : Strtod) (b : Buf) (l m : Nat) (denorm : Bool) (t : Table) :
    loadModel strtod none b l m denorm t = .failed := rfl

/-! ### Concrete instances -/

/-- A header: constants 398 and 637, degree 2. -/
def es2 : List Ent :=
  [.key 0 .gm 3 "398".toList, .other "a comment".toList, .key 1 .radius 0 "637".toList, .key 0 .maxDegree 0 "2".toList]

theorem es2_good : GoodHeader intStrtod es2 "end_of_head ====".toList := by
  refine ⟨by decide, ?_, by decide, by decide, by decide⟩
  intro e he
  simp only [es2, List.mem_cons, List.not_mem_nil, or_false] at he
  rcases he with rfl | rfl | rfl | rfl
  · exact ⟨by decide, by decide, by decide, 398, [], by decide +kernel, by decide⟩
  · refine ⟨by decide, by decide, by decide, fun k => ?_⟩
    cases k <;> decide
  · exact ⟨by decide, by decide, by decide, 637, [], by decide +kernel, by decide⟩
  · exact ⟨by decide, by decide, by decide, ⟨2, [], false⟩, by decide +kernel, by decide⟩

theorem es2_says : HeaderSays intStrtod es2 398 637 2 :=
  ⟨by decide +kernel, by decide +kernel, by decide +kernel⟩

theorem es2_norm : Norm es2 := .inl (by decide +kernel)

/-- A complete data section for degree 1. -/
def data1 : List Line := [ln "gfc 0 0 1 0", ln "gfc 1 0 5 0", ln "gfc 1 1 6 7"]

theorem data1_items : items intStrtod data1 =
    [.coeff 0 0 (some (1, 0)), .coeff 1 0 (some (5, 0)), .coeff 1 1 (some (6, 7))] := by decide +kernel

theorem data1_proper : Proper 1 1 (items intStrtod data1) := by
  rw [data1_items]
  refine ⟨?_, by decide⟩
  intro ll mm v hv h1 h2
  simp only [List.mem_cons, Item.coeff.injEq, List.not_mem_nil, or_false] at hv
  omega

theorem data1_readable : Readable 1 1 (items intStrtod data1) := by
  rw [data1_items]
  refine ⟨by simp, ?_⟩
  intro ll mm v hv h1 h2
  simp only [List.mem_cons, Item.coeff.injEq, List.not_mem_nil, or_false] at hv
  rcases hv with ⟨-, -, rfl⟩ | ⟨-, -, rfl⟩ | ⟨-, rfl, rfl⟩
  · exact ⟨_, _, rfl, fun _ => rfl⟩
  · exact ⟨_, _, rfl, fun _ => rfl⟩
  · exact ⟨_, _, rfl, fun h => by omega⟩

theorem data1_complete : Complete 1 1 (items intStrtod data1) := by
  rw [data1_items]
  intro n k hn hk hm
  have : (n = 0 ∧ k = 0) ∨ (n = 1 ∧ k = 0) ∨ (n = 1 ∧ k = 1) := by omega
  rcases this with ⟨rfl, rfl⟩ | ⟨rfl, rfl⟩ | ⟨rfl, rfl⟩
  · exact ⟨1, 0, by simp [Given]⟩
  · exact ⟨5, 0, by simp [Given]⟩
  · exact ⟨6, 7, by simp [Given]⟩

/-- The file with header `es2` and data `data1` meets the hypotheses of `load_complete_partial`; its `S(1,1)` becomes
`7 √3`. -/
example (b : Buf) (t : Table) : ∃ c : Harmonic.Coeffs,
    loadModel intStrtod (some (fileOf es2 "end_of_head ====".toList data1)) b 1 1 true t = .ok 398 637 c ∧
      c.normalized = false ∧ c.data (addrS 1 1 1) = 7 * Real.sqrt 3 := by
  obtain ⟨c, norm, h1, h2, -, h4, h5⟩ := load_complete_partial intStrtod es2 _ data1 b 1 1 2 true t 398 637 es2_good es2_says
    le_rfl (by omega) le_rfl le_rfl
    data1_proper data1_readable data1_complete
  have hn : norm = true := h1.2 es2_norm
  subst hn
  obtain ⟨x, s, hg, -, hs⟩ := h5 1 1 le_rfl le_rfl le_rfl
  rw [data1_items] at hg
  simp only [Given, List.mem_cons, Item.coeff.injEq, List.not_mem_nil, or_false, Option.some.injEq, Prod.mk.injEq] at hg
  have hs7 : s = 7 := by
    rcases hg with h | h | h
    · omega
    · omega
    · exact h.2.2.2
  refine ⟨c, h2, by simpa using h4, ?_⟩
  rw [hs le_rfl, hs7]
  simp [factor, normFactor, Nat.factorial]
  norm_num

/-- A data section without degree 1. -/
def data2 : List Line := [ln "gfc 0 0 1 0", ln "gfc 2 0 5 0", ln "gfc 2 1 6 7", ln "gfc 2 2 8 9"]

theorem data2_items : items intStrtod data2 =
    [.coeff 0 0 (some (1, 0)), .coeff 2 0 (some (5, 0)), .coeff 2 1 (some (6, 7)), .coeff 2 2 (some (8, 9))] := by
  decide +kernel

theorem data2_proper : Proper 2 2 (items intStrtod data2) := by
  rw [data2_items]
  refine ⟨?_, by decide⟩
  intro ll mm v hv h1 h2
  simp only [List.mem_cons, Item.coeff.injEq, List.not_mem_nil, or_false] at hv
  omega

theorem data2_readable : Readable 2 2 (items intStrtod data2) := by
  rw [data2_items]
  refine ⟨by simp, ?_⟩
  intro ll mm v hv h1 h2
  simp only [List.mem_cons, Item.coeff.injEq, List.not_mem_nil, or_false] at hv
  rcases hv with ⟨-, -, rfl⟩ | ⟨-, -, rfl⟩ | ⟨-, rfl, rfl⟩ | ⟨-, rfl, rfl⟩
  · exact ⟨_, _, rfl, fun _ => rfl⟩
  · exact ⟨_, _, rfl, fun _ => rfl⟩
  · exact ⟨_, _, rfl, fun h => by omega⟩
  · exact ⟨_, _, rfl, fun h => by omega⟩

theorem data2_complete : CompleteBut1 2 2 (items intStrtod data2) := by
  rw [data2_items]
  refine ⟨?_, ?_⟩
  · intro n k hn hk hm h1
    have : (n = 0 ∧ k = 0) ∨ (n = 2 ∧ k = 0) ∨ (n = 2 ∧ k = 1) ∨ (n = 2 ∧ k = 2) := by omega
    rcases this with ⟨rfl, rfl⟩ | ⟨rfl, rfl⟩ | ⟨rfl, rfl⟩ | ⟨rfl, rfl⟩
    · exact ⟨1, 0, by simp [Given]⟩
    · exact ⟨5, 0, by simp [Given]⟩
    · exact ⟨6, 7, by simp [Given]⟩
    · exact ⟨8, 9, by simp [Given]⟩
  · intro k v hv
    simp only [List.mem_cons, Item.coeff.injEq, List.not_mem_nil, or_false] at hv
    omega

/-- Any value can come out as `S(1,1)` for this file. -/
example (b : Buf) (v : ℚ) : ∃ (t : Table) (c : Harmonic.Coeffs),
    loadModel intStrtod (some (fileOf es2 "end_of_head ====".toList data2)) b 2 2 false t = .ok 398 637 c ∧
      c.data (addrS 2 1 1) = v := by
  obtain ⟨c, norm, -, h2, -, -, h5⟩ := load_degree_1_counterexample intStrtod es2 _ data2 b 2 2 2 false (fun _ => v) 398 637
    es2_good es2_says (by omega) le_rfl (by omega) le_rfl
    data2_proper data2_readable data2_complete
  exact ⟨_, c, h2, by rw [h5]; simp [factor]⟩

end Verif.Icgem
