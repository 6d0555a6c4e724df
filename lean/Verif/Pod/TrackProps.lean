import Verif.Pod.TrackModel
import Verif.Filters.LayoutProps
import Mathlib.Data.List.Basic
import Mathlib.Data.List.Nodup
import Mathlib.Data.Finset.Card
import Mathlib.Data.Finset.Basic

/-
C96: which observations of a file are paired into Doppler counts; C97: numbers of beacons and arcs.
-/
namespace Verif.Pod

variable {α : Type}

/-- Specification: one of the six flags is set. -/
def Flagged (o : Meas α) : Prop := '1' ∈ [o.l1f1, o.l1f2, o.l2f1, o.l2f2, o.w1f1, o.w2f1]

instance (o : Meas α) : Decidable (Flagged o) := by unfold Flagged; infer_instance

theorem bad_iff (o : Meas α) : o.bad = true ↔ Flagged o := by
  simp only [Meas.bad, Flagged, Bool.or_eq_true, beq_iff_eq, List.mem_cons, List.not_mem_nil, or_false, or_assoc,
    eq_comm (a := '1')]

theorem not_flagged {o : Meas α} (h : o.bad = false) : ¬ Flagged o := by
  rw [← bad_iff, h]; decide

/-- Specification: an observation the program can use. -/
def Usable (o : Meas α) : Prop := ¬ Flagged o ∧ o.high = true ∧ o.tropo = true

instance (o : Meas α) : Decidable (Usable o) := by unfold Usable; infer_instance

/-- Specification: `p` is the latest usable observation of beacon `id` in the history `h`; `clean`
tells whether no flagged observation of that beacon came after it. -/
def Latest (id : Id) (h : List (Meas α)) (p : Meas α) (clean : Bool) : Prop :=
  ∃ h1 h2, h = h1 ++ p :: h2 ∧ p.id = id ∧ Usable p ∧
    (∀ q ∈ h2, q.id = id → ¬ Usable q) ∧
    (clean = true ↔ ∀ q ∈ h2, q.id = id → ¬ Flagged q)

/-- Specification: the usable observations of a beacon, in order. -/
def usable (id : Id) (h : List (Meas α)) : List (Meas α) := h.filter fun o => o.id == id && decide (Usable o)

/-- Specification: five minutes in nanoseconds. -/
def fiveMinutes : Int := 5 * 60 * 10 ^ 9

theorem maxGap_eq : maxGap = fiveMinutes := by decide

/-- Specification: the number of gaps of more than five minutes between consecutive times. -/
def gaps : List Int → Nat
  | a :: b :: l => (if b - a > fiveMinutes then 1 else 0) + gaps (b :: l)
  | _ => 0

theorem gaps_append (l : List Int) (a b : Int) :
    gaps (l ++ [a, b]) = gaps (l ++ [a]) + if b - a > fiveMinutes then 1 else 0 := by
  induction l with
  | nil => simp [gaps]
  | cons x l ih =>
    cases l with
    | nil => simp [gaps]
    | cons y l =>
      simp only [List.cons_append, gaps] at ih ⊢
      rw [ih]
      omega

/-! ### Lookup -/

theorem lookup_modify (id id' : Id) (f : Slot α → Slot α) (hf : ∀ s, (f s).id = s.id) (l : List (Slot α)) :
    lookup id' (modifyFirst id f l) = if id' = id then (lookup id' l).map f else lookup id' l := by
  induction l with
  | nil => simp [lookup, modifyFirst]
  | cons s l ih =>
    unfold modifyFirst
    unfold lookup at ih ⊢
    by_cases hs : s.id = id
    · subst hs
      by_cases h : id' = s.id
      · subst h
        simp [hf]
      · have h' : ¬ s.id = id' := fun e => h e.symm
        simp [h, h', hf]
    · simp only [beq_iff_eq, hs, if_false, List.find?_cons]
      by_cases h' : s.id = id'
      · subst h'
        simp [hs]
      · have : (s.id == id') = false := by simpa using h'
        simp only [this]
        exact ih

theorem lookup_append (id : Id) (l : List (Slot α)) (s : Slot α) (hn : lookup s.id l = none) :
    lookup id (l ++ [s]) = if id = s.id then some s else lookup id l := by
  unfold lookup at hn ⊢
  rw [List.find?_append]
  by_cases h : id = s.id
  · subst h
    simp [hn]
  · have : (s.id == id) = false := by
      simpa using fun e : s.id = id => h e.symm
    simp [h, this]

theorem modify_ids (id : Id) (f : Slot α → Slot α) (hf : ∀ s, (f s).id = s.id ∧ (f s).count = s.count)
    (l : List (Slot α)) :
    (modifyFirst id f l).map (fun s => (s.id, s.count)) = l.map fun s => (s.id, s.count) := by
  induction l with
  | nil => rfl
  | cons s l ih =>
    unfold modifyFirst
    split
    · simp [(hf s).1, (hf s).2]
    · simp [ih]

/-! ### The invariant -/

/-- What is stored for a beacon, in terms of the history. -/
def Stored (id : Id) (h : List (Meas α)) (r : Option (Slot α)) : Prop :=
  match r with
  | none => ∀ q ∈ h, q.id = id → ¬ Usable q
  | some s => s.id = id ∧ s.arcnr = gaps ((usable id h).map Meas.tau) ∧
      ∃ p, Latest id h p (!s.reinit) ∧ s.tau = p.tau ∧ s.data = p.data ∧ (usable id h).getLast? = some p

theorem usable_append_of (id : Id) (h : List (Meas α)) (o : Meas α) (h0 : ¬ (o.id = id ∧ Usable o)) :
    usable id (h ++ [o]) = usable id h := by
  unfold usable
  rw [List.filter_append]
  have : List.filter (fun o => o.id == id && decide (Usable o)) [o] = [] := by
    simp only [List.filter_cons, List.filter_nil, Bool.and_eq_true, beq_iff_eq, decide_eq_true_eq]
    rw [if_neg h0]
  rw [this, List.append_nil]

theorem usable_append (id : Id) (h : List (Meas α)) (o : Meas α) (h1 : o.id = id) (h2 : Usable o) :
    usable id (h ++ [o]) = usable id h ++ [o] := by
  unfold usable
  rw [List.filter_append]
  simp [h1, h2]

/-- An observation of another beacon, or one that is neither usable nor flagged, changes nothing. -/
theorem stored_skip (id : Id) (h : List (Meas α)) (o : Meas α) (r : Option (Slot α)) (hr : Stored id h r)
    (h0 : o.id = id → ¬ Usable o ∧ ¬ Flagged o) : Stored id (h ++ [o]) r := by
  have hu : ¬ (o.id = id ∧ Usable o) := fun ⟨a, b⟩ => (h0 a).1 b
  cases r with
  | none =>
    intro q hq hid
    rcases List.mem_append.1 hq with h1 | h1
    · exact hr q h1 hid
    · rw [List.mem_singleton.1 h1] at hid ⊢
      exact (h0 hid).1
  | some s =>
    obtain ⟨h1, h2, p, ⟨a, b, hab, hp, hpu, hb, hc⟩, h4⟩ := hr
    refine ⟨h1, by rw [usable_append_of id h o hu]; exact h2, p, ⟨a, b ++ [o], ?_, hp, hpu, ?_, ?_⟩, ?_⟩
    · simp [hab]
    · intro q hq hid
      rcases List.mem_append.1 hq with h5 | h5
      · exact hb q h5 hid
      · rw [List.mem_singleton.1 h5] at hid ⊢
        exact (h0 hid).1
    · rw [hc]
      constructor
      · intro h6 q hq hid
        rcases List.mem_append.1 hq with h5 | h5
        · exact h6 q h5 hid
        · rw [List.mem_singleton.1 h5] at hid ⊢
          exact (h0 hid).2
      · intro h6 q hq hid
        exact h6 q (List.mem_append_left _ hq) hid
    · rw [usable_append_of id h o hu]
      exact h4

/-- A flagged observation marks the stored one. -/
theorem stored_flag (id : Id) (h : List (Meas α)) (o : Meas α) (r : Option (Slot α)) (hr : Stored id h r)
    (hid : o.id = id) (hbad : Flagged o) :
    Stored id (h ++ [o]) (r.map fun p => { p with reinit := true }) := by
  have hno : ¬ Usable o := fun hu => hu.1 hbad
  have hu : ¬ (o.id = id ∧ Usable o) := fun ⟨_, b⟩ => hno b
  cases r with
  | none =>
    intro q hq hid'
    rcases List.mem_append.1 hq with h1 | h1
    · exact hr q h1 hid'
    · rw [List.mem_singleton.1 h1]
      exact hno
  | some s =>
    obtain ⟨h1, h2, p, ⟨a, b, hab, hp, hpu, hb, hc⟩, h4⟩ := hr
    refine ⟨h1, by rw [usable_append_of id h o hu]; exact h2, p, ⟨a, b ++ [o], ?_, hp, hpu, ?_, ?_⟩, ?_⟩
    · simp [hab]
    · intro q hq hid'
      rcases List.mem_append.1 hq with h5 | h5
      · exact hb q h5 hid'
      · rw [List.mem_singleton.1 h5]
        exact hno
    · simp only [Bool.not_true, Bool.false_eq_true, false_iff]
      intro h6
      have := h6 o (List.mem_append_right _ (List.mem_singleton.2 rfl)) hid
      exact this hbad
    · rw [usable_append_of id h o hu]
      exact h4

/-- A usable observation becomes the stored one. -/
theorem stored_new (id : Id) (h : List (Meas α)) (o : Meas α) (hid : o.id = id) (hu : Usable o) (s : Slot α)
    (h1 : s.id = id) (h2 : s.arcnr = gaps ((usable id h ++ [o]).map Meas.tau)) (h3 : s.tau = o.tau)
    (h4 : s.data = o.data) (h5 : s.reinit = false) : Stored id (h ++ [o]) (some s) := by
  refine ⟨h1, by rw [usable_append id h o hid hu]; exact h2, o, ⟨h, [], rfl, hid, hu, by simp, ?_⟩, h3, h4, ?_⟩
  · simp [h5]
  · rw [usable_append id h o hid hu]
    simp

theorem usable_nil (id : Id) (h : List (Meas α)) (hn : ∀ q ∈ h, q.id = id → ¬ Usable q) : usable id h = [] := by
  unfold usable
  rw [List.filter_eq_nil_iff]
  intro q hq
  simp only [Bool.and_eq_true, beq_iff_eq, decide_eq_true_eq, not_and]
  exact hn q hq

theorem arcnr_next (id : Id) (h : List (Meas α)) (o p : Meas α)
    (hl : (usable id h).getLast? = some p) :
    gaps ((usable id h ++ [o]).map Meas.tau)
      = gaps ((usable id h).map Meas.tau) + if o.tau - p.tau > fiveMinutes then 1 else 0 := by
  obtain ⟨l, hl'⟩ : ∃ l, usable id h = l ++ [p] := by
    rw [List.getLast?_eq_some_iff] at hl
    exact hl
  rw [hl']
  simp only [List.map_append, List.map_cons, List.map_nil, List.append_assoc, List.cons_append,
    List.nil_append]
  exact gaps_append _ _ _

/-- The whole state in terms of the history. -/
structure Inv (stations : List Id) (h : List (Meas α)) (s : Track α) : Prop where
  stored : ∀ id, Stored id h (lookup id s.prev)
  counts : s.prev.map Slot.count = List.range s.prev.length
  next : s.next = s.prev.length
  nodup : (s.prev.map Slot.id).Nodup
  known : ∀ id ∈ s.prev.map Slot.id, id ∈ stations

theorem lookup_none (id : Id) (l : List (Slot α)) (h : lookup id l = none) : id ∉ l.map Slot.id := by
  unfold lookup at h
  rw [List.find?_eq_none] at h
  intro hm
  obtain ⟨s, hs, rfl⟩ := List.mem_map.1 hm
  exact h s hs (by simp)

theorem inv_modify {stations : List Id} {h : List (Meas α)} {s : Track α} (hi : Inv stations h s) (o : Meas α)
    (f : Slot α → Slot α) (hf : ∀ s, (f s).id = s.id ∧ (f s).count = s.count)
    (hst : Stored o.id (h ++ [o]) ((lookup o.id s.prev).map f)) :
    Inv stations (h ++ [o]) { s with prev := modifyFirst o.id f s.prev } := by
  have hm := modify_ids o.id f hf s.prev
  have hmi : (modifyFirst o.id f s.prev).map Slot.id = s.prev.map Slot.id := by
    have := congrArg (List.map Prod.fst) hm
    simpa [List.map_map, Function.comp_def] using this
  have hmc : (modifyFirst o.id f s.prev).map Slot.count = s.prev.map Slot.count := by
    have := congrArg (List.map Prod.snd) hm
    simpa [List.map_map, Function.comp_def] using this
  have hml : (modifyFirst o.id f s.prev).length = s.prev.length := by
    have := congrArg List.length hm
    simpa using this
  refine ⟨fun id => ?_, ?_, ?_, ?_, ?_⟩
  · show Stored id _ (lookup id (modifyFirst o.id f s.prev))
    rw [lookup_modify _ _ _ (fun s => (hf s).1)]
    split
    · rename_i hid
      rw [hid]
      exact hst
    · rename_i hid
      exact stored_skip id h o _ (hi.stored id) fun e => absurd e.symm hid
  · show (modifyFirst o.id f s.prev).map Slot.count = List.range (modifyFirst o.id f s.prev).length
    rw [hmc, hml]
    exact hi.counts
  · show s.next = (modifyFirst o.id f s.prev).length
    rw [hml]
    exact hi.next
  · show ((modifyFirst o.id f s.prev).map Slot.id).Nodup
    rw [hmi]
    exact hi.nodup
  · show ∀ id ∈ (modifyFirst o.id f s.prev).map Slot.id, id ∈ stations
    rw [hmi]
    exact hi.known

theorem inv_skip {stations : List Id} {h : List (Meas α)} {s : Track α} (hi : Inv stations h s) (o : Meas α)
    (h1 : ¬ Usable o) (h2 : ¬ Flagged o) : Inv stations (h ++ [o]) s :=
  ⟨fun id => stored_skip id h o _ (hi.stored id) fun _ => ⟨h1, h2⟩, hi.counts, hi.next, hi.nodup, hi.known⟩

/-- One observation keeps the invariant. -/
theorem inv_step {stations : List Id} {h : List (Meas α)} {s s' : Track α} {o : Meas α} {e : Event α}
    (hi : Inv stations h s) (hs : step stations s o = some (s', e)) : Inv stations (h ++ [o]) s' := by
  unfold step at hs
  simp only [maxGap_eq] at hs
  split at hs
  · cases hs
  rename_i hk
  have hk' : o.id ∈ stations := by simpa using hk
  split at hs
  · rename_i hb
    cases hs
    exact inv_modify hi o _ (fun _ => ⟨rfl, rfl⟩) (stored_flag o.id h o _ (hi.stored o.id) rfl ((bad_iff o).1 hb))
  rename_i hb
  have hb' : ¬ Flagged o := not_flagged (by simpa using hb)
  split at hs
  · rename_i hh
    cases hs
    exact inv_skip hi o (fun hu => by simp [hu.2.1] at hh) hb'
  rename_i hh
  have hh' : o.high = true := by simpa using hh
  have hst := hi.stored o.id
  split at hs
  · rename_i hl
    split at hs
    · rename_i ht
      cases hs
      exact inv_skip hi o (fun hu => by simp [hu.2.2] at ht) hb'
    · rename_i ht
      have ht' : o.tropo = true := by simpa using ht
      have hu : Usable o := ⟨hb', hh', ht'⟩
      cases hs
      rw [hl] at hst
      refine ⟨fun id => ?_, ?_, ?_, ?_, ?_⟩
      · show Stored id _ (lookup id (s.prev ++ [_]))
        rw [lookup_append _ _ _ hl]
        show Stored id _ (if id = o.id then _ else _)
        split
        · rename_i hid
          refine stored_new id h o hid.symm hu _ hid.symm ?_ rfl rfl rfl
          rw [hid, usable_nil o.id h hst]
          rfl
        · rename_i hid
          exact stored_skip id h o _ (hi.stored id) fun e => absurd e.symm hid
      · show (s.prev ++ [_]).map Slot.count = List.range (s.prev ++ [_]).length
        rw [List.map_append, hi.counts, List.length_append, List.length_singleton, List.range_succ,
          List.map_singleton, hi.next]
      · show s.next + 1 = (s.prev ++ [_]).length
        rw [hi.next]
        simp
      · show ((s.prev ++ [_]).map Slot.id).Nodup
        rw [List.map_append, List.map_singleton, List.nodup_append]
        refine ⟨hi.nodup, by simp, ?_⟩
        intro a ha b hb2 hab
        rw [List.mem_singleton.1 hb2] at hab
        simp only at hab
        rw [hab] at ha
        exact lookup_none o.id _ hl ha
      · intro id hid
        simp only at hid
        rw [List.map_append, List.map_singleton, List.mem_append] at hid
        rcases hid with hid | hid
        · exact hi.known id hid
        · rw [List.mem_singleton.1 hid]
          exact hk'
  · rename_i p hl
    split at hs
    · rename_i ht
      cases hs
      exact inv_skip hi o (fun hu => by simp [hu.2.2] at ht) hb'
    rename_i ht
    have ht' : o.tropo = true := by simpa using ht
    have hu : Usable o := ⟨hb', hh', ht'⟩
    rw [hl] at hst
    obtain ⟨h1, h2, m, hlat, h3, h4, h5⟩ := hst
    have harc := arcnr_next o.id h o m h5
    split at hs
    · cases hs
      refine inv_modify hi o _ (fun q => ?_) ?_
      · simp only [Slot.update]
        split <;> split <;> exact ⟨rfl, rfl⟩
      · rw [hl]
        refine stored_new o.id h o rfl hu _ ?_ ?_ ?_ ?_ ?_
        · simp only [Slot.update]
          split <;> split <;> exact h1
        · rw [harc, ← h2, ← h3]
          simp only [Slot.update, decide_eq_true_eq]
          split <;> split <;> simp
        · simp only [Slot.update]
          split <;> split <;> rfl
        · simp only [Slot.update]
          split <;> split <;> rfl
        · simp only [Slot.update]
          split <;> split <;> simp_all
    · rename_i hr
      cases hs
      simp only [Bool.or_eq_true, decide_eq_true_eq, not_or] at hr
      refine inv_modify hi o _ (fun q => ⟨rfl, rfl⟩) ?_
      rw [hl]
      refine stored_new o.id h o rfl hu _ h1 ?_ rfl rfl ?_
      · rw [harc, ← h2, ← h3, if_neg hr.2]
        rfl
      · simpa [Slot.update] using hr.1

theorem inv_track {stations : List Id} (l : List (Meas α)) {h : List (Meas α)} {s s' : Track α}
    {es : List (Event α)} (hi : Inv stations h s) (hs : track stations s l = some (s', es)) :
    Inv stations (h ++ l) s' := by
  induction l generalizing h s es with
  | nil =>
    cases hs
    simpa using hi
  | cons o l ih =>
    unfold track at hs
    split at hs
    · cases hs
    rename_i s1 e h1
    split at hs
    · cases hs
    rename_i s2 es2 h2
    cases hs
    have := ih (inv_step hi h1) h2
    simpa using this

theorem inv_new (stations : List Id) : Inv (α := α) stations [] Track.new :=
  ⟨fun id => by simp [Track.new, lookup, Stored], rfl, rfl, by simp [Track.new], by simp [Track.new]⟩

/-! ### C96 -/

theorem latest_unique {id : Id} {h : List (Meas α)} {p q : Meas α} {b c : Bool} (h1 : Latest id h p b)
    (h2 : Latest id h q c) : p = q ∧ b = c := by
  obtain ⟨a1, b1, e1, i1, u1, n1, c1⟩ := h1
  obtain ⟨a2, b2, e2, i2, u2, n2, c2⟩ := h2
  rw [e1] at e2
  rw [List.append_eq_append_iff] at e2
  rcases e2 with ⟨d, e3, e4⟩ | ⟨d, e3, e4⟩
  · cases d with
    | nil =>
      simp only [List.nil_append, List.cons.injEq] at e4
      obtain ⟨rfl, rfl⟩ := e4
      exact ⟨rfl, by rw [Bool.eq_iff_iff, c1, c2]⟩
    | cons x d =>
      simp only [List.cons_append, List.cons.injEq] at e4
      exact absurd u2 (n1 q (by rw [e4.2]; simp) i2)
  · cases d with
    | nil =>
      simp only [List.nil_append, List.cons.injEq] at e4
      obtain ⟨rfl, rfl⟩ := e4
      exact ⟨rfl, by rw [Bool.eq_iff_iff, c1, c2]⟩
    | cons x d =>
      simp only [List.cons_append, List.cons.injEq] at e4
      exact absurd u1 (n2 p (by rw [e4.2]; simp) i1)

/-- **C96** A Doppler count is formed from an observation exactly if it is usable (no flag set, above
the cut-off, troposphere known), the beacon has an earlier usable observation, at most five minutes
ago, and no observation of the beacon in between was flagged; and it is formed with the latest
earlier usable observation. -/
theorem pair_iff (stations : List Id) (h : List (Meas α)) (s s' : Track α) (es : List (Event α)) (o : Meas α)
    (e : Event α) (hs : track stations Track.new h = some (s, es)) (ho : step stations s o = some (s', e))
    (tau0 : Int) (data0 : α) :
    (∃ n arc, e = .pair n arc tau0 data0) ↔
      Usable o ∧ ∃ p, Latest o.id h p true ∧ o.tau - p.tau ≤ fiveMinutes ∧ p.tau = tau0 ∧ p.data = data0 := by
  have hi := inv_track h (inv_new stations) hs
  rw [List.nil_append] at hi
  have hst := hi.stored o.id
  unfold step at ho
  simp only [maxGap_eq] at ho
  split at ho
  · cases ho
  split at ho
  · rename_i hb
    cases ho
    refine ⟨fun ⟨_, _, hc⟩ => (by cases hc), fun ⟨hu, _⟩ => ?_⟩
    exact absurd ((bad_iff o).1 hb) hu.1
  rename_i hb
  split at ho
  · rename_i hh
    cases ho
    refine ⟨fun ⟨_, _, hc⟩ => (by cases hc), fun ⟨hu, _⟩ => ?_⟩
    simp [hu.2.1] at hh
  rename_i hh
  split at ho
  · rename_i hl
    rw [hl] at hst
    have hno : ¬ ∃ p, Latest o.id h p true ∧ o.tau - p.tau ≤ fiveMinutes ∧ p.tau = tau0 ∧ p.data = data0 := by
      rintro ⟨p, ⟨a, b, hab, hp, hpu, _⟩, _⟩
      exact hst p (by rw [hab]; simp) hp hpu
    split at ho <;> cases ho <;>
      exact ⟨fun ⟨_, _, hc⟩ => (by cases hc), fun ⟨_, h⟩ => absurd h hno⟩
  · rename_i p hl
    rw [hl] at hst
    obtain ⟨h1, h2, m, hlat, h3, h4, h5⟩ := hst
    split at ho
    · rename_i ht
      cases ho
      refine ⟨fun ⟨_, _, hc⟩ => (by cases hc), fun ⟨hu, _⟩ => ?_⟩
      simp [hu.2.2] at ht
    rename_i ht
    split at ho
    · rename_i hr
      cases ho
      refine ⟨fun ⟨_, _, hc⟩ => (by cases hc), fun ⟨_, q, hq, hg, _⟩ => ?_⟩
      obtain ⟨rfl, hc⟩ := latest_unique hlat hq
      simp only [Bool.or_eq_true, decide_eq_true_eq] at hr
      rcases hr with hr | hr
      · simp [hr] at hc
      · rw [h3] at hr
        omega
    · rename_i hr
      cases ho
      simp only [Bool.or_eq_true, decide_eq_true_eq, not_or, Bool.not_eq_true] at hr
      constructor
      · rintro ⟨n, arc, he⟩
        cases he
        refine ⟨⟨not_flagged (by simpa using hb), by simpa using hh, by simpa using ht⟩, m, ?_, ?_, h3.symm, h4.symm⟩
        · simpa [hr.1] using hlat
        · rw [← h3]
          omega
      · rintro ⟨_, q, hq, _, hq1, hq2⟩
        obtain ⟨rfl, _⟩ := latest_unique hlat hq
        exact ⟨p.count, p.arcnr, by rw [← hq1, ← hq2, h3, h4]⟩

/-- **C96** (partial: only if the times of the observations of the beacon increase) the interval of every
count is positive and at most five minutes.  Missing: repeated epochs (see the counterexample). -/
theorem pair_interval_partial (stations : List Id) (h : List (Meas α)) (s s' : Track α) (es : List (Event α))
    (o : Meas α) (n arc : Nat) (tau0 : Int) (data0 : α) (hs : track stations Track.new h = some (s, es))
    (ho : step stations s o = some (s', .pair n arc tau0 data0))
    (hinc : ∀ q ∈ h, q.id = o.id → q.tau < o.tau) : 0 < o.tau - tau0 ∧ o.tau - tau0 ≤ fiveMinutes := by
  obtain ⟨_, p, ⟨a, b, hab, hp, _⟩, hg, ht, _⟩ :=
    (pair_iff stations h s s' es o _ hs ho tau0 data0).1 ⟨n, arc, rfl⟩
  have := hinc p (by rw [hab]; simp) hp
  omega

/-- **C96** Two observations of a beacon in one block give a count over no time at all: the program
divides by zero. -/
theorem pair_same_epoch_counterexample :
    ∃ (h : List (Meas Nat)) (s s' : Track Nat) (es : List (Event Nat)) (o : Meas Nat) (n arc : Nat)
      (data0 : Nat), track [('D', '0', '1')] Track.new h = some (s, es) ∧
      step [('D', '0', '1')] s o = some (s', .pair n arc o.tau data0) := by
  let o : Meas Nat := ⟨('D', '0', '1'), '0', '0', '0', '0', '0', '0', 5, true, true, 7⟩
  exact ⟨[o], ⟨[⟨('D', '0', '1'), 0, 5, 7, 0, false⟩], 1⟩, ⟨[⟨('D', '0', '1'), 0, 5, 7, 0, false⟩], 1⟩,
    [.first 0], o, 0, 0, 7, by decide +kernel, by decide +kernel⟩

/-- **C96** The values of the observations are not looked at: with `none` for a value missing in the
file, counts are formed from missing values (in the code the sentinel `OBSERVATION_VALUE_MISSING` is
subtracted as if it were a phase). -/
theorem pair_missing_counterexample :
    ∃ (h : List (Meas (Option Nat))) (s s' : Track (Option Nat)) (es : List (Event (Option Nat)))
      (o : Meas (Option Nat)) (n arc : Nat) (tau0 : Int), o.data = none ∧
      track [('D', '0', '1')] Track.new h = some (s, es) ∧
      step [('D', '0', '1')] s o = some (s', .pair n arc tau0 (some 7)) := by
  let p : Meas (Option Nat) := ⟨('D', '0', '1'), '0', '0', '0', '0', '0', '0', 5, true, true, some 7⟩
  exact ⟨[p], ⟨[⟨('D', '0', '1'), 0, 5, some 7, 0, false⟩], 1⟩, ⟨[⟨('D', '0', '1'), 0, 8, none, 0, false⟩], 1⟩,
    [.first 0], { p with tau := 8, data := none }, 0, 0, 5, rfl, by decide +kernel, by decide +kernel⟩

/-! ### C97 -/

/-- The number and the arc an event speaks of. -/
def Event.number : Event α → Option (Nat × Nat)
  | .first n => some (n, 0)
  | .again n arc _ => some (n, arc)
  | .pair n arc _ _ => some (n, arc)
  | _ => none

theorem lookup_mem {id : Id} {l : List (Slot α)} {p : Slot α} (h : lookup id l = some p) : p ∈ l ∧ p.id = id := by
  unfold lookup at h
  exact ⟨List.mem_of_find?_eq_some h, by simpa using List.find?_some h⟩

/-- In a list with counts `0, 1, …` and distinct identifiers the two determine each other. -/
theorem count_lt {stations : List Id} {h : List (Meas α)} {s : Track α} (hi : Inv stations h s) {p : Slot α}
    (hp : p ∈ s.prev) : p.count < s.prev.length := by
  have : p.count ∈ s.prev.map Slot.count := List.mem_map_of_mem hp
  rw [hi.counts] at this
  exact List.mem_range.1 this

theorem length_le {stations : List Id} {h : List (Meas α)} {s : Track α} (hi : Inv stations h s) :
    s.prev.length ≤ stations.length := by
  have h1 : (s.prev.map Slot.id).toFinset ⊆ stations.toFinset := by
    intro x hx
    rw [List.mem_toFinset] at hx ⊢
    exact hi.known x hx
  have h2 := Finset.card_le_card h1
  rw [List.toFinset_card_of_nodup hi.nodup, List.length_map] at h2
  exact h2.trans (List.toFinset_card_le _)

theorem same_count {stations : List Id} {h : List (Meas α)} {s : Track α} (hi : Inv stations h s) {p q : Slot α}
    (hp : p ∈ s.prev) (hq : q ∈ s.prev) (hc : p.count = q.count) : p = q := by
  have hnd : (s.prev.map Slot.count).Nodup := by
    rw [hi.counts]
    exact List.nodup_range
  exact List.inj_on_of_nodup_map hnd hp hq hc

/-- The number of an event is that under which the beacon is then stored. -/
theorem event_stored {stations : List Id} {h : List (Meas α)} {s s' : Track α} {o : Meas α} {e : Event α}
    {n arc : Nat} (hs : step stations s o = some (s', e)) (hn : e.number = some (n, arc)) :
    ∃ p, lookup o.id s'.prev = some p ∧ p.count = n ∧ p.arcnr = arc := by
  unfold step at hs
  simp only [maxGap_eq] at hs
  split at hs
  · cases hs
  split at hs
  · cases hs
    cases hn
  split at hs
  · cases hs
    cases hn
  split at hs
  · rename_i hl
    split at hs
    · cases hs
      cases hn
    · cases hs
      simp only [Event.number, Option.some.injEq, Prod.mk.injEq] at hn
      refine ⟨⟨o.id, s.next, o.tau, o.data, 0, false⟩, ?_, hn.1, hn.2⟩
      show lookup o.id (s.prev ++ [_]) = _
      rw [lookup_append _ _ _ hl]
      simp
  · rename_i p hl
    split at hs
    · cases hs
      cases hn
    split at hs
    · cases hs
      simp only [Event.number, Option.some.injEq, Prod.mk.injEq] at hn
      refine ⟨_, by
        show lookup o.id (modifyFirst _ _ _) = _
        rw [lookup_modify _ _ _ (fun q => by simp only [Slot.update]; split <;> split <;> rfl), if_pos rfl, hl]
        rfl, ?_, ?_⟩
      · rw [← hn.1]
        simp only [Slot.update]
        split <;> split <;> rfl
      · rw [← hn.2]
        simp only [Slot.update]
        split <;> split <;> simp_all
    · cases hs
      simp only [Event.number, Option.some.injEq, Prod.mk.injEq] at hn
      refine ⟨p.update o, by
        show lookup o.id (modifyFirst _ _ _) = _
        rw [lookup_modify o.id o.id (fun q => q.update o) (fun q => rfl), if_pos rfl, hl]
        rfl, hn.1, hn.2⟩

/-- A beacon keeps its number. -/
theorem count_kept {stations : List Id} {s s' : Track α} {o : Meas α} {e : Event α} {id : Id} {p : Slot α}
    (hs : step stations s o = some (s', e)) (hp : lookup id s.prev = some p) :
    ∃ p', lookup id s'.prev = some p' ∧ p'.count = p.count := by
  have hmod : ∀ f : Slot α → Slot α, (∀ q, (f q).id = q.id ∧ (f q).count = q.count) →
      ∃ p', lookup id (modifyFirst o.id f s.prev) = some p' ∧ p'.count = p.count := by
    intro f hf
    rw [lookup_modify _ _ _ (fun q => (hf q).1), hp]
    split
    · exact ⟨f p, rfl, (hf p).2⟩
    · exact ⟨p, rfl, rfl⟩
  unfold step at hs
  simp only [maxGap_eq] at hs
  split at hs
  · cases hs
  split at hs
  · cases hs
    exact hmod _ fun q => ⟨rfl, rfl⟩
  split at hs
  · cases hs
    exact ⟨p, hp, rfl⟩
  split at hs
  · rename_i hl
    split at hs
    · cases hs
      exact ⟨p, hp, rfl⟩
    · cases hs
      refine ⟨p, ?_, rfl⟩
      show lookup id (s.prev ++ [_]) = _
      rw [lookup_append _ _ _ hl]
      split
      · rename_i hid
        rw [hid] at hp
        simp only at hp
        rw [hl] at hp
        cases hp
      · exact hp
  · split at hs
    · cases hs
      exact ⟨p, hp, rfl⟩
    split at hs
    · cases hs
      exact hmod _ fun q => by simp only [Slot.update]; split <;> split <;> exact ⟨rfl, rfl⟩
    · cases hs
      exact hmod _ fun q => ⟨rfl, rfl⟩

theorem count_kept_track {stations : List Id} (l : List (Meas α)) {s s' : Track α} {es : List (Event α)}
    {id : Id} {p : Slot α} (hs : track stations s l = some (s', es)) (hp : lookup id s.prev = some p) :
    ∃ p', lookup id s'.prev = some p' ∧ p'.count = p.count := by
  induction l generalizing s es p with
  | nil =>
    cases hs
    exact ⟨p, hp, rfl⟩
  | cons o l ih =>
    unfold track at hs
    split at hs
    · cases hs
    rename_i s1 e h1
    split at hs
    · cases hs
    rename_i s2 es2 h2
    cases hs
    obtain ⟨p1, hp1, hc1⟩ := count_kept h1 hp
    obtain ⟨p2, hp2, hc2⟩ := ih h2 hp1
    exact ⟨p2, hp2, hc2.trans hc1⟩

/-- **C97** The number of a beacon is below the number of stations in the header, so its troposphere
and frequency parameters exist in the filter (`C33`). -/
theorem number_bound (stations : List Id) (h : List (Meas α)) (s s' : Track α) (es : List (Event α)) (o : Meas α)
    (e : Event α) (n arc : Nat) (hs : track stations Track.new h = some (s, es))
    (ho : step stations s o = some (s', e)) (hn : e.number = some (n, arc)) (c : Verif.Filters.Clock) (Np : Nat) :
    n < stations.length ∧
    Verif.Filters.tropoIndex c Np n < Verif.Filters.numParams c Np stations.length ∧
    Verif.Filters.rfoffIndex c Np n < Verif.Filters.numParams c Np stations.length := by
  have hi := inv_step (inv_track h (inv_new stations) hs) ho
  obtain ⟨p, hp, hc, _⟩ := event_stored (h := h) ho hn
  have h1 := count_lt hi (lookup_mem hp).1
  have h2 := length_le hi
  have h3 : n < stations.length := by omega
  refine ⟨h3, ?_, ?_⟩ <;> cases c <;>
    simp only [Verif.Filters.tropoIndex, Verif.Filters.rfoffIndex, Verif.Filters.numParams] <;> omega

/-- **C97** Two events of a run carry the same number exactly if they are of the same beacon. -/
theorem number_iff (stations : List Id) (h l : List (Meas α)) (s s1 s2 s3 : Track α) (es es2 : List (Event α))
    (o o2 : Meas α) (e e2 : Event α) (n arc n2 arc2 : Nat)
    (hs : track stations Track.new h = some (s, es)) (ho : step stations s o = some (s1, e))
    (hl : track stations s1 l = some (s2, es2)) (ho2 : step stations s2 o2 = some (s3, e2))
    (hn : e.number = some (n, arc)) (hn2 : e2.number = some (n2, arc2)) : n = n2 ↔ o.id = o2.id := by
  have hi1 := inv_step (inv_track h (inv_new stations) hs) ho
  have hi3 := inv_step (inv_track l hi1 hl) ho2
  obtain ⟨p, hp, hc, _⟩ := event_stored (h := h) ho hn
  obtain ⟨p2, hp2, hc2⟩ := count_kept_track l hl hp
  obtain ⟨p3, hp3, hc3⟩ := count_kept ho2 hp2
  obtain ⟨q, hq, hqc, _⟩ := event_stored (h := h) ho2 hn2
  constructor
  · intro hnn
    have := same_count hi3 (lookup_mem hp3).1 (lookup_mem hq).1 (by omega)
    rw [← (lookup_mem hp3).2, ← (lookup_mem hq).2, this]
  · intro hid
    rw [hid, hq] at hp3
    cases hp3
    omega

/-- **C97** Numbers are given without holes: the first usable observation of a beacon gets the number
of beacons that had a usable observation before. -/
theorem number_first (stations : List Id) (h : List (Meas α)) (s s' : Track α) (es : List (Event α)) (o : Meas α)
    (n : Nat)
    (hs : track stations Track.new h = some (s, es)) (ho : step stations s o = some (s', .first n)) :
    Usable o ∧ (∀ q ∈ h, q.id = o.id → ¬ Usable q) ∧
    n = (((h.filter fun q => decide (Usable q)).map Meas.id).toFinset).card := by
  have hi := inv_track h (inv_new stations) hs
  rw [List.nil_append] at hi
  unfold step at ho
  simp only [maxGap_eq] at ho
  split at ho
  · cases ho
  split at ho
  · cases ho
  rename_i hb
  split at ho
  · cases ho
  rename_i hh
  split at ho
  · rename_i hl
    split at ho
    · cases ho
    rename_i ht
    cases ho
    refine ⟨⟨not_flagged (by simpa using hb), by simpa using hh, by simpa using ht⟩, ?_, ?_⟩
    · have := hi.stored o.id
      rw [hl] at this
      exact this
    · have heq : (s.prev.map Slot.id).toFinset = (((h.filter fun q => decide (Usable q)).map Meas.id).toFinset) := by
        ext id
        rw [List.mem_toFinset, List.mem_toFinset]
        have hst := hi.stored id
        constructor
        · intro hm
          cases hlk : lookup id s.prev with
          | none => exact absurd hm (lookup_none id _ hlk)
          | some p =>
            rw [hlk] at hst
            obtain ⟨_, _, m, ⟨a, b, hab, hmid, hmu, _⟩, _⟩ := hst
            rw [List.mem_map]
            exact ⟨m, by rw [List.mem_filter]; exact ⟨by rw [hab]; simp, by simpa using hmu⟩, hmid⟩
        · intro hm
          obtain ⟨m, hm1, hm2⟩ := List.mem_map.1 hm
          rw [List.mem_filter] at hm1
          cases hlk : lookup id s.prev with
          | none =>
            rw [hlk] at hst
            exact absurd (by simpa using hm1.2) (hst m hm1.1 hm2)
          | some p =>
            have := lookup_mem hlk
            rw [List.mem_map]
            exact ⟨p, this.1, this.2⟩
      rw [← heq, List.toFinset_card_of_nodup hi.nodup, List.length_map, hi.next]
  · split at ho
    · cases ho
    split at ho <;> cases ho

/-- **C97** The arc number of every event is the number of gaps of more than five minutes between
consecutive usable observations of the beacon, the present one included. -/
theorem arc_number (stations : List Id) (h : List (Meas α)) (s s' : Track α) (es : List (Event α)) (o : Meas α)
    (e : Event α) (n arc : Nat) (hs : track stations Track.new h = some (s, es))
    (ho : step stations s o = some (s', e)) (hn : e.number = some (n, arc)) :
    arc = gaps ((usable o.id (h ++ [o])).map Meas.tau) := by
  have hi := inv_step (inv_track h (inv_new stations) hs) ho
  rw [List.nil_append] at hi
  obtain ⟨p, hp, _, harc⟩ := event_stored (h := h) ho hn
  have := hi.stored o.id
  rw [hp] at this
  rw [← harc]
  exact this.2.1

/-- **C97** Only observations of beacons missing from the header stop the program. -/
theorem track_some_iff (stations : List Id) (l : List (Meas α)) (s : Track α) :
    (track stations s l).isSome ↔ ∀ o ∈ l, o.id ∈ stations := by
  have hstep : ∀ (s : Track α) o, (step stations s o).isSome ↔ o.id ∈ stations := by
    intro s o
    by_cases hm : o.id ∈ stations
    · simp only [hm, iff_true]
      unfold step
      rw [if_neg (by simpa using hm)]
      split
      · rfl
      split
      · rfl
      split
      · split <;> rfl
      · simp only
        split
        · rfl
        · split <;> rfl
    · simp [step, hm]
  induction l generalizing s with
  | nil => simp [track]
  | cons o l ih =>
    unfold track
    have ho := hstep s o
    split
    · rename_i h1
      rw [h1] at ho
      simp only [Option.isSome_none, Bool.false_eq_true, false_iff] at ho
      simp [ho]
    · rename_i s1 e h1
      rw [h1] at ho
      have ho' : o.id ∈ stations := ho.1 rfl
      have := ih s1
      split
      · rename_i h2
        rw [h2] at this
        simp only [Option.isSome_none, Bool.false_eq_true, false_iff] at this
        simp only [Option.isSome_none, Bool.false_eq_true, List.mem_cons, forall_eq_or_imp, ho', true_and,
          false_iff]
        exact this
      · rename_i s2 es h2
        rw [h2] at this
        simp only [Option.isSome_some, true_iff] at this ⊢
        simp only [List.mem_cons, forall_eq_or_imp]
        exact ⟨ho', this⟩

/-! ### Example -/

/-- A pass: three observations, a flagged one, two more, a gap, one more; another beacon in between. -/
def pass : List (Meas Nat) :=
  let mk (id : Id) (f : Char) (t : Int) (d : Nat) : Meas Nat := ⟨id, f, '0', '0', '0', '0', '0', t * 1000000000, true, true, d⟩
  let a : Id := ('D', '0', '1')
  let b : Id := ('D', '0', '2')
  [mk a '0' 0 1, mk a '0' 10 2, mk b '0' 10 3, mk a '1' 20 4, mk a '0' 30 5, mk a '0' 40 6, mk a '0' 400 7]

example : (track [('D', '0', '2'), ('D', '0', '1')] Track.new pass).map (·.2)
    = some [.first 0, .pair 0 0 0 1, .first 1, .flagged, .again 0 0 false, .pair 0 0 30000000000 5,
        .again 0 1 true] := by decide +kernel

end Verif.Pod
