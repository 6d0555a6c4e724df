import Verif.Doppler.Model
import Mathlib.Data.List.Nodup
import Mathlib.Tactic.ByContra

/-! C63: Doppler counts pair consecutive observations of the same beacon. -/
namespace Verif.Doppler

/-! ### Specification -/

/-- An observation as the file format promises it: no NUL in the identifier, at least two values;
and the byte after the identifier is NUL. -/
structure Ok (o : Obs) : Prop where
  nonul : '\x00' ∉ o.id
  pad : o.pad.head? = some '\x00'
  two : 2 ≤ o.values.length

/-- All observations of a beacon, in file order, with their epochs. -/
def history (id : List Char) (blocks : List Block) : List (Int × Obs) :=
  blocks.flatMap fun b => (b.obs.filter fun o => decide (o.id = id)).map fun o => (b.t, o)

/-- The count of two observations. -/
def pair (p q : Int × Obs) : Count :=
  ⟨q.2.id, q.1, q.2.values.getD 0 0 - p.2.values.getD 0 0,
    q.2.values.getD 1 0 - p.2.values.getD 1 0, q.1 - p.1⟩

/-- Consecutive elements of a list, paired. -/
def consecutive (h : List (Int × Obs)) : List Count := List.zipWith pair h h.tail

/-! ### Lemmas -/

theorem takeWhile_nul (a p : List Char) (ha : '\x00' ∉ a) (hp : p.head? = some '\x00') :
    (a ++ p).takeWhile (· != '\x00') = a := by
  induction a with
  | nil =>
    cases p with
    | nil => simp at hp
    | cons c p => simp only [List.head?_cons, Option.some.injEq] at hp; subst hp; simp
  | cons c a ih =>
    have hc : c ≠ '\x00' := by intro h0; exact ha (by simp [h0])
    simp [List.takeWhile, hc, ih (fun h0 => ha (by simp [h0]))]

theorem strcmpEq_iff (a b p q : List Char) (ha : '\x00' ∉ a) (hb : '\x00' ∉ b)
    (hp : p.head? = some '\x00') (hq : q.head? = some '\x00') :
    strcmpEq (a ++ p) (b ++ q) = true ↔ a = b := by
  rw [strcmpEq, takeWhile_nul a p ha hp, takeWhile_nul b q hb hq]
  simp

/-- Stored record of a beacon. -/
def lookup (id : List Char) (data : List Rec) : Option Rec :=
  data.find? fun r => decide (r.obs.id = id)

theorem findSlot_spec (g : Nat → List Char) (hg : ∀ i, (g i).head? = some '\x00') (o : Obs)
    (ho : Ok o) (data : List Rec) (hd : ∀ r ∈ data, Ok r.obs) (k : Nat) :
    (findSlot g o k data = none ∧ lookup o.id data = none ∧ ∀ r ∈ data, r.obs.id ≠ o.id) ∨
    (∃ l r l', data = l ++ r :: l' ∧ r.obs.id = o.id ∧ (∀ x ∈ l, x.obs.id ≠ o.id) ∧
      findSlot g o k data = some (k + l.length) ∧ lookup o.id data = some r) := by
  induction data generalizing k with
  | nil => left; simp [findSlot, lookup]
  | cons r rs ih =>
    have hr := hd r (by simp)
    by_cases h : r.obs.id = o.id
    · right
      refine ⟨[], r, rs, rfl, h, by simp, ?_, by simp [lookup, h]⟩
      rw [findSlot, if_pos ((strcmpEq_iff _ _ _ _ hr.nonul ho.nonul (hg k) ho.pad).mpr h)]
      simp
    · have hf : findSlot g o k (r :: rs) = findSlot g o (k + 1) rs := by
        rw [findSlot, if_neg]
        intro hc
        exact h ((strcmpEq_iff _ _ _ _ hr.nonul ho.nonul (hg k) ho.pad).mp hc)
      have hlk : lookup o.id (r :: rs) = lookup o.id rs := by simp [lookup, h]
      rcases ih (fun x hx => hd x (by simp [hx])) (k + 1) with ⟨h1, h2, h3⟩ |
        ⟨l, x, l', h1, h2, h3, h4, h5⟩
      · left
        refine ⟨by rw [hf, h1], by rw [hlk, h2], ?_⟩
        intro y hy
        rcases List.mem_cons.mp hy with rfl | hy
        · exact h
        · exact h3 y hy
      · right
        refine ⟨r :: l, x, l', by simp [h1], h2, ?_, ?_, by rw [hlk, h5]⟩
        · intro y hy
          rcases List.mem_cons.mp hy with rfl | hy
          · exact h
          · exact h3 y hy
        · rw [hf, h4]; simp; omega

/-- Stored records are well-formed and each beacon occurs once. -/
structure DataOk (data : List Rec) : Prop where
  ok : ∀ r ∈ data, Ok r.obs
  nodup : (data.map fun r => r.obs.id).Nodup

theorem updateOne_spec (g : Nat → List Char) (hg : ∀ i, (g i).head? = some '\x00') (t : Int)
    (o : Obs) (ho : Ok o) (data : List Rec) (hd : DataOk data) :
    DataOk (updateOne g t data o) ∧
    ∀ id, lookup id (updateOne g t data o) = if id = o.id then some ⟨o, t⟩ else lookup id data := by
  rcases findSlot_spec g hg o ho data hd.ok 0 with ⟨h1, h2, h3⟩ | ⟨l, r, l', h1, h2, h3, h4, h5⟩
  · rw [updateOne, h1]
    refine ⟨⟨?_, ?_⟩, ?_⟩
    · intro r hr
      rcases List.mem_append.mp hr with hr | hr
      · exact hd.ok r hr
      · simp only [List.mem_singleton] at hr; subst hr; exact ho
    · rw [List.map_append, List.nodup_append]
      refine ⟨hd.nodup, by simp, ?_⟩
      intro a ha b hb hab
      simp only [List.map_cons, List.map_nil, List.mem_singleton] at hb
      obtain ⟨r, hr, rfl⟩ := List.mem_map.mp ha
      exact h3 r hr (by rw [hab, hb])
    · intro id
      by_cases hi : id = o.id
      · subst hi
        have : ¬ ∃ x ∈ data, x.obs.id = o.id := by
          rintro ⟨x, hx, he⟩; exact h3 x hx he
        simp only [lookup, if_true, List.find?_append]
        rw [show data.find? (fun r => decide (r.obs.id = o.id)) = none from h2]
        simp
      · rw [if_neg hi]
        simp only [lookup, List.find?_append]
        have : ([⟨o, t⟩] : List Rec).find? (fun r => decide (r.obs.id = id)) = none := by
          simp [Ne.symm hi]
        rw [this]
        simp
  · have hset : updateOne g t data o = l ++ ⟨o, t⟩ :: l' := by
      rw [updateOne, h4, h1]
      simp
    rw [hset]
    have hok := hd.ok
    have hnd := hd.nodup
    rw [h1] at hok hnd
    refine ⟨⟨?_, ?_⟩, ?_⟩
    · intro x hx
      simp only [List.mem_append, List.mem_cons] at hx
      rcases hx with hx | rfl | hx
      · exact hok x (by simp [hx])
      · exact ho
      · exact hok x (by simp [hx])
    · simp only [List.map_append, List.map_cons, h2] at hnd ⊢
      exact hnd
    · intro id
      simp only [lookup, h1, List.find?_append, List.find?_cons]
      by_cases hi : id = o.id
      · subst hi
        have : l.find? (fun r => decide (r.obs.id = o.id)) = none := by
          rw [List.find?_eq_none]
          intro x hx
          simpa using h3 x hx
        simp [this]
      · simp [Ne.symm hi, h2, hi]

/-- Identifiers of a block's observations. -/
def ids (os : List Obs) : List (List Char) := os.map Obs.id

theorem update_spec (g : Nat → List Char) (hg : ∀ i, (g i).head? = some '\x00') (t : Int)
    (os : List Obs) (hos : ∀ o ∈ os, Ok o) (hnd : (ids os).Nodup) (data : List Rec)
    (hd : DataOk data) :
    DataOk (update g t data os) ∧
    ∀ id, lookup id (update g t data os) =
      match os.find? (fun o => decide (o.id = id)) with
      | some o => some ⟨o, t⟩
      | none => lookup id data := by
  induction os generalizing data with
  | nil => exact ⟨hd, fun id => rfl⟩
  | cons o os ih =>
    obtain ⟨h1, h2⟩ := updateOne_spec g hg t o (hos o (by simp)) data hd
    simp only [ids, List.map_cons, List.nodup_cons] at hnd
    obtain ⟨h3, h4⟩ := ih (fun x hx => hos x (by simp [hx])) hnd.2 _ h1
    refine ⟨h3, ?_⟩
    intro id
    rw [update, List.foldl_cons]
    rw [update] at h4
    rw [h4 id, h2 id, List.find?_cons]
    by_cases hi : o.id = id
    · subst hi
      have : os.find? (fun x => decide (x.id = o.id)) = none := by
        rw [List.find?_eq_none]
        intro x hx
        simp only [decide_eq_true_eq]
        intro he
        exact hnd.1 (List.mem_map.mpr ⟨x, hx, he⟩)
      simp [this]
    · simp only [hi, decide_false]
      cases os.find? (fun o => decide (o.id = id)) with
      | none => simp [Ne.symm hi]
      | some x => rfl

theorem countOne_spec (g : Nat → List Char) (hg : ∀ i, (g i).head? = some '\x00') (t : Int)
    (o : Obs) (ho : Ok o) (data : List Rec) (hd : DataOk data) :
    countOne g t data o = some (match lookup o.id data with
      | none => []
      | some r => [pair (r.t, r.obs) (t, o)]) := by
  rcases findSlot_spec g hg o ho data hd.ok 0 with ⟨h1, h2, h3⟩ | ⟨l, r, l', h1, h2, h3, h4, h5⟩
  · rw [countOne, h1, h2]
  · have hr : Ok r.obs := hd.ok r (by rw [h1]; simp)
    have hk : data[0 + l.length]? = some r := by rw [h1]; simp
    rw [countOne, h4, h5]
    have two : ∀ x : List Rat, 2 ≤ x.length → x[0]? = some (x.getD 0 0) ∧ x[1]? = some (x.getD 1 0) := by
      intro x hx
      match x, hx with
      | a :: b :: x, _ => exact ⟨rfl, rfl⟩
    simp only [hk, Option.bind_eq_bind, Option.bind_some, (two _ ho.two).1, (two _ ho.two).2,
      (two _ hr.two).1, (two _ hr.two).2, pair]

/-- Counts of one beacon in one block. -/
theorem computeNdop_spec (g : Nat → List Char) (hg : ∀ i, (g i).head? = some '\x00') (t : Int)
    (os : List Obs) (hos : ∀ o ∈ os, Ok o) (hnd : (ids os).Nodup) (data : List Rec)
    (hd : DataOk data) :
    ∃ cs, computeNdop g t data os = some cs ∧
      (∀ c ∈ cs, c.id ∈ ids os) ∧
      ∀ id, cs.filter (fun c => decide (c.id = id)) =
        match os.find? (fun o => decide (o.id = id)) with
        | none => []
        | some o => match lookup id data with
          | none => []
          | some r => [pair (r.t, r.obs) (t, o)] := by
  induction os with
  | nil => exact ⟨[], rfl, by simp, fun id => rfl⟩
  | cons o os ih =>
    simp only [ids, List.map_cons, List.nodup_cons] at hnd
    obtain ⟨cs, h1, h2, h3⟩ := ih (fun x hx => hos x (by simp [hx])) hnd.2
    have hc := countOne_spec g hg t o (hos o (by simp)) data hd
    refine ⟨(match lookup o.id data with
      | none => []
      | some r => [pair (r.t, r.obs) (t, o)]) ++ cs, by rw [computeNdop, hc, h1]; rfl, ?_, ?_⟩
    · intro c hcm
      rcases List.mem_append.mp hcm with hcm | hcm
      · cases hl : lookup o.id data with
        | none => simp [hl] at hcm
        | some r =>
          simp only [hl, List.mem_singleton] at hcm
          subst hcm
          simp [ids, pair]
      · have := h2 c hcm
        simp only [ids, List.map_cons, List.mem_cons] at this ⊢
        exact Or.inr this
    · intro id
      rw [List.filter_append, h3 id, List.find?_cons]
      by_cases hi : o.id = id
      · subst hi
        have : os.find? (fun x => decide (x.id = o.id)) = none := by
          rw [List.find?_eq_none]
          intro x hx
          simp only [decide_eq_true_eq]
          intro he
          exact hnd.1 (List.mem_map.mpr ⟨x, hx, he⟩)
        rw [this]
        cases lookup o.id data with
        | none => simp
        | some r => simp [pair]
      · simp only [hi, decide_false]
        have : List.filter (fun c => decide (c.id = id)) (match lookup o.id data with
            | none => []
            | some r => [pair (r.t, r.obs) (t, o)]) = [] := by
          cases lookup o.id data with
          | none => rfl
          | some r => simp [pair, hi]
        rw [this, List.nil_append]

/-- Consecutive pairs of a history preceded by `p`. -/
def pairsFrom : Option (Int × Obs) → List (Int × Obs) → List Count
  | _, [] => []
  | none, x :: xs => pairsFrom (some x) xs
  | some p, x :: xs => pair p x :: pairsFrom (some x) xs

theorem pairsFrom_some (p : Int × Obs) (h : List (Int × Obs)) :
    pairsFrom (some p) h = consecutive (p :: h) := by
  induction h generalizing p with
  | nil => rfl
  | cons x xs ih =>
    rw [pairsFrom, ih]
    simp [consecutive]

theorem pairsFrom_none (h : List (Int × Obs)) : pairsFrom none h = consecutive h := by
  cases h with
  | nil => rfl
  | cons x xs => rw [pairsFrom, pairsFrom_some]

/-- A well-formed block: well-formed observations, each beacon at most once. -/
structure BlockOk (b : Block) : Prop where
  ok : ∀ o ∈ b.obs, Ok o
  nodup : (ids b.obs).Nodup

theorem filter_find (os : List Obs) (hnd : (ids os).Nodup) (id : List Char) :
    os.filter (fun o => decide (o.id = id)) = (os.find? (fun o => decide (o.id = id))).toList := by
  induction os with
  | nil => rfl
  | cons o os ih =>
    simp only [ids, List.map_cons, List.nodup_cons] at hnd
    by_cases hi : o.id = id
    · subst hi
      have : os.filter (fun x => decide (x.id = o.id)) = [] := by
        rw [List.filter_eq_nil_iff]
        intro x hx
        simp only [decide_eq_true_eq]
        intro he
        exact hnd.1 (List.mem_map.mpr ⟨x, hx, he⟩)
      simp [this]
    · simp [hi, ih hnd.2]

theorem loop_spec (g : Nat → List Char) (hg : ∀ i, (g i).head? = some '\x00') (eof : Bool)
    (blocks : List Block) (hb : ∀ b ∈ blocks, BlockOk b) (data : List Rec) (hd : DataOk data) :
    ∃ cs d, loop g eof (blocks.map Except.ok) data = some (if eof then 0 else 1, cs, d) ∧
      DataOk d ∧
      ∀ id, cs.filter (fun c => decide (c.id = id)) =
        pairsFrom ((lookup id data).map fun r => (r.t, r.obs)) (history id blocks) := by
  induction blocks generalizing data with
  | nil => exact ⟨[], data, rfl, hd, fun id => by simp [history, pairsFrom]⟩
  | cons b bs ih =>
    have hbk := hb b (by simp)
    obtain ⟨cs, h1, -, h3⟩ := computeNdop_spec g hg b.t b.obs hbk.ok hbk.nodup data hd
    obtain ⟨h4, h5⟩ := update_spec g hg b.t b.obs hbk.ok hbk.nodup data hd
    obtain ⟨cs', d, h6, h7, h8⟩ := ih (fun x hx => hb x (by simp [hx])) _ h4
    refine ⟨cs ++ cs', d, ?_, h7, ?_⟩
    · simp only [List.map_cons, loop, h1, h6, Option.bind_eq_bind, Option.bind_some]
    · intro id
      rw [List.filter_append, h3 id, h8 id, h5 id]
      have hh : history id (b :: bs) =
          (b.obs.find? (fun o => decide (o.id = id))).toList.map (fun o => (b.t, o)) ++
          history id bs := by
        simp only [history, List.flatMap_cons]
        rw [filter_find b.obs hbk.nodup id]
      rw [hh]
      cases b.obs.find? (fun o => decide (o.id = id)) with
      | none => simp
      | some o =>
        cases lookup id data with
        | none => simp [pairsFrom]
        | some r => simp [pairsFrom]

/-! ### C63 -/

/-- **C63 (pairing), provided the byte after each identifier is NUL.**  For every file whose blocks
contain each beacon at most once, the counts printed for a beacon are exactly those of the
consecutive pairs of its observations, in order, and every beacon has at most one stored record. -/
theorem counts_partial (g : Nat → List Char) (hg : ∀ i, (g i).head? = some '\x00') (eof : Bool)
    (b : Block) (bs : List Block) (hb : ∀ x ∈ b :: bs, BlockOk x) :
    ∃ cs d, getDopplerCounts g eof ((b :: bs).map Except.ok) = some (if eof then 0 else 1, cs, d) ∧
      (d.map fun r => r.obs.id).Nodup ∧
      ∀ id, cs.filter (fun c => decide (c.id = id)) = consecutive (history id (b :: bs)) := by
  have hbk := hb b (by simp)
  have h0 : DataOk [] := ⟨by simp, by simp⟩
  obtain ⟨h4, h5⟩ := update_spec g hg b.t b.obs hbk.ok hbk.nodup [] h0
  obtain ⟨cs, d, h6, h7, h8⟩ := loop_spec g hg eof bs (fun x hx => hb x (by simp [hx])) _ h4
  refine ⟨cs, d, h6, h7.nodup, ?_⟩
  intro id
  have hh : history id (b :: bs) =
      (b.obs.find? (fun o => decide (o.id = id))).toList.map (fun o => (b.t, o)) ++
      history id bs := by
    simp only [history, List.flatMap_cons]
    rw [filter_find b.obs hbk.nodup id]
  rw [h8 id, h5 id, hh, ← pairsFrom_none]
  cases b.obs.find? (fun o => decide (o.id = id)) with
  | none => simp [lookup]
  | some o => simp [pairsFrom]

/-- **C63 (stored records), any file whose blocks may also repeat beacons.**  At most one record is
kept per beacon. -/
theorem one_record_partial (g : Nat → List Char) (hg : ∀ i, (g i).head? = some '\x00') (t : Int)
    (os : List Obs) (hos : ∀ o ∈ os, Ok o) (data : List Rec) (hd : DataOk data) :
    ((update g t data os).map fun r => r.obs.id).Nodup := by
  have : DataOk (update g t data os) := by
    induction os generalizing data with
    | nil => exact hd
    | cons o os ih =>
      exact ih (fun x hx => hos x (by simp [hx])) _
        (updateOne_spec g hg t o (hos o (by simp)) data hd).1
  exact this.nodup

/-- Two epochs of one beacon. -/
def demoBlock (t : Int) (l1 l2 : Rat) : Block := ⟨t, [⟨"D01".toList, ['\x00'], [l1, l2]⟩]⟩

example : BlockOk (demoBlock 0 1 2) := by
  refine ⟨?_, by simp [demoBlock, ids]⟩
  intro o ho
  simp only [demoBlock, List.mem_singleton] at ho
  subst ho
  exact ⟨by decide, rfl, by decide⟩

example : getDopplerCounts (fun _ => ['\x00']) true
    [.ok (demoBlock 0 1 2), .ok (demoBlock 10 4 9), .ok (demoBlock 20 5 10)] =
    some (0, [⟨"D01".toList, 10, 3, 7, 10⟩, ⟨"D01".toList, 20, 1, 1, 10⟩],
      [⟨⟨"D01".toList, ['\x00'], [5, 10]⟩, 20⟩]) := by decide +kernel

/-- **C63 fails because identifiers are not terminated**: if the byte after the stored identifier
is not NUL, no count is formed and a second record is stored for the same beacon. -/
theorem unterminated_counterexample :
    getDopplerCounts (fun _ => ['x', '\x00']) true
      [.ok (demoBlock 0 1 2), .ok (demoBlock 10 4 9)] =
      some (0, [], [⟨⟨"D01".toList, ['\x00'], [1, 2]⟩, 0⟩, ⟨⟨"D01".toList, ['\x00'], [4, 9]⟩, 10⟩]) := by
  decide +kernel

/-- **C63 fails for a beacon repeated inside a block**: both observations are paired with the one of
the block before. -/
theorem repeated_counterexample :
    (getDopplerCounts (fun _ => ['\x00']) true
      [.ok (demoBlock 0 1 2), .ok ⟨10, [⟨"D01".toList, ['\x00'], [4, 9]⟩,
        ⟨"D01".toList, ['\x00'], [6, 9]⟩]⟩]).map (fun r => r.2.1) =
      some [⟨"D01".toList, 10, 3, 7, 10⟩, ⟨"D01".toList, 10, 5, 7, 10⟩] := by
  decide +kernel

/-- **Files with fewer than two observation codes** make the code read outside the values. -/
theorem one_value_counterexample :
    getDopplerCounts (fun _ => ['\x00']) true
      [.ok ⟨0, [⟨"D01".toList, ['\x00'], [4]⟩]⟩, .ok ⟨1, [⟨"D01".toList, ['\x00'], [4]⟩]⟩] = none := by
  decide +kernel

end Verif.Doppler
