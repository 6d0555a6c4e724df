import Verif.Stations.Model
import Mathlib.Tactic.Ring
import Mathlib.Tactic.NormNum

/-! C40: extrapolated station coordinates. -/
namespace Verif.Stations

open Verif.Rinex

/-! ### Specification -/

/-- The linear motion of a point: position `p` at `t0`, velocity `v` per Julian year of 365.25 days. -/
def Moves (p v t0 t x : ℚ) : Prop := (x - p) * (36525 / 100) = v * (t - t0)

/-- `e` is the first estimate of the list for the site (first four characters) and parameter. -/
def IsFirst (ests : List Estimate) (site param : List Char) (e : Estimate) : Prop :=
  ∃ a b : List Estimate, ests = a ++ e :: b ∧
    (strncmpEq 4 e.site site = true ∧ strncmpEq 4 e.param param = true) ∧
    ∀ e' ∈ a, ¬ (strncmpEq 4 e'.site site = true ∧ strncmpEq 4 e'.param param = true)

/-- The coordinate `x` of a site along an axis at `t`. -/
def AxisOk (ests : List Estimate) (site : List Char) (a : Char) (t x : ℚ) : Prop :=
  ∃ p v : Estimate, IsFirst ests site ['S', 'T', 'A', a] p ∧ IsFirst ests site ['V', 'E', 'L', a] v ∧
    Moves p.value v.value p.epoch t x

/-! ### Lemmas -/

theorem find_isFirst (ests : List Estimate) (site param : List Char) (e : Estimate)
    (h : find ests site param = some e) : IsFirst ests site param e := by
  obtain ⟨hp, a, b, hab, hno⟩ := List.find?_eq_some_iff_append.1 h
  refine ⟨a, b, hab, by simpa using hp, ?_⟩
  intro e' he' hh
  have := hno e' he'
  simp [hh.1, hh.2] at this

theorem axis_ok (ests : List Estimate) (site : List Char) (t x : ℚ) (a : Char)
    (h : axis ests site t a = some x) : AxisOk ests site a t x := by
  unfold axis at h
  split at h
  · rename_i p v hp hv
    split at h
    · refine ⟨p, v, find_isFirst _ _ _ _ hp, find_isFirst _ _ _ _ hv, ?_⟩
      rw [← Option.some.inj h]
      unfold Moves
      ring
    · simp at h
  · simp at h

theorem extrapolate_ok (ests : List Estimate) (site : List Char) (t x y z : ℚ)
    (h : extrapolate ests site t = some (x, y, z)) :
    AxisOk ests site 'X' t x ∧ AxisOk ests site 'Y' t y ∧ AxisOk ests site 'Z' t z := by
  unfold extrapolate at h
  split at h
  · simp at h
  · rename_i x' hx
    split at h
    · simp at h
    · rename_i y' hy
      split at h
      · simp at h
      · rename_i z' hz
        simp only [Option.some.injEq, Prod.mk.injEq] at h
        obtain ⟨rfl, rfl, rfl⟩ := h
        exact ⟨axis_ok _ _ _ _ _ hx, axis_ok _ _ _ _ _ hy, axis_ok _ _ _ _ _ hz⟩

/-- What a station contributes. -/
def one (ests : List Estimate) (t : ℚ) (miss : List Nat) (p : List Char × Nat) : Option Coords :=
  if miss.contains p.2 then none
  else (extrapolate ests p.1 t).map fun (x, y, z) => ⟨p.1.take 4, x, y, z⟩

theorem loop_eq (ests : List Estimate) (t : ℚ) (miss : List Nat) :
    ∀ (ids : List (List Char)) (i : Nat) (res : List Coords),
    loop ests t miss i ids res = res ++ (ids.zipIdx i).filterMap (one ests t miss)
  | [], i, res => by simp [loop]
  | sid :: rest, i, res => by
    simp only [loop, List.zipIdx_cons]
    by_cases hm : miss.contains i = true
    · rw [if_pos hm, loop_eq ests t miss rest, List.filterMap_cons_none]
      simp only [one, hm, if_true]
    · rw [if_neg hm]
      cases he : extrapolate ests sid t with
      | none =>
        simp only
        rw [loop_eq ests t miss rest, List.filterMap_cons_none]
        simp only [one, he, Option.map_none, ite_self]
      | some q =>
        obtain ⟨x, y, z⟩ := q
        simp only
        rw [loop_eq ests t miss rest, List.filterMap_cons_some (b := (⟨sid.take 4, x, y, z⟩ : Coords))]
        · simp
        · simp only [one, he, Option.map_some]
          rw [if_neg hm]

theorem one_id (ests : List Estimate) (t : ℚ) (miss : List Nat) (p : List Char × Nat) (c : Coords)
    (h : one ests t miss p = some c) :
    c.id = p.1.take 4 ∧ extrapolate ests p.1 t = some (c.x, c.y, c.z) := by
  unfold one at h
  split at h
  · simp at h
  · cases he : extrapolate ests p.1 t with
    | none => rw [he] at h; simp at h
    | some q =>
      obtain ⟨x, y, z⟩ := q
      rw [he] at h
      simp only [Option.map_some, Option.some.injEq] at h
      subst h
      exact ⟨rfl, rfl⟩

theorem map_id_sublist (ests : List Estimate) (t : ℚ) (miss : List Nat) :
    ∀ l : List (List Char × Nat),
    ((l.filterMap (one ests t miss)).map Coords.id).Sublist (l.map fun p => p.1.take 4)
  | [] => by simp
  | p :: l => by
    have ih := map_id_sublist ests t miss l
    cases h : one ests t miss p with
    | none =>
      rw [List.filterMap_cons_none h]
      exact ih.cons _
    | some c =>
      rw [List.filterMap_cons_some h, List.map_cons, List.map_cons, (one_id ests t miss p c h).1]
      exact ih.cons₂ _

/-! ### C40 -/

/-- **C40** The results come in the order of the requested ids: leaving out some of the requested
stations gives the stations of the result. -/
theorem results_in_order (snx : Sinex) (ids : List (List Char)) (t : ℚ) (b : Bool) :
    ((core snx ids t b).2.map Coords.id).Sublist (ids.map fun i => i.take 4) := by
  unfold core
  split
  · simp
  · rename_i sites _
    simp only
    split
    · simp
    · split
      · simp
      · rename_i ests _
        split
        · simp
        · rw [loop_eq, List.nil_append]
          have := map_id_sublist ests t (if sites.length = ids.length then [] else missing ids sites)
            (ids.zipIdx 0)
          have e : (ids.zipIdx 0).map (fun p => p.1.take 4) = ids.map fun i => i.take 4 := by
            have h := List.map_map (f := (Prod.fst : List Char × Nat → List Char))
              (g := fun i : List Char => i.take 4) (l := ids.zipIdx 0)
            rw [List.zipIdx_map_fst] at h
            exact h.symm
          rw [e] at this
          exact this

/-- **C40** Every result is that of a requested station, and each of its coordinates is the
position plus velocity times elapsed years of that station's (first) estimates. -/
theorem results_extrapolated (snx : Sinex) (ids : List (List Char)) (t : ℚ) (b : Bool) (c : Coords)
    (hc : c ∈ (core snx ids t b).2) :
    ∃ sites ests, snx.siteId ids = some sites ∧ snx.solution sites = some ests ∧
      ∃ sid ∈ ids, c.id = sid.take 4 ∧
        AxisOk ests sid 'X' t c.x ∧ AxisOk ests sid 'Y' t c.y ∧ AxisOk ests sid 'Z' t c.z := by
  unfold core at hc
  split at hc
  · simp at hc
  · rename_i sites hs
    simp only at hc
    split at hc
    · simp at hc
    · split at hc
      · simp at hc
      · rename_i ests he
        split at hc
        · simp at hc
        · refine ⟨sites, ests, hs, he, ?_⟩
          simp only at hc
          rw [loop_eq, List.nil_append, List.mem_filterMap] at hc
          obtain ⟨p, hp, h1⟩ := hc
          have h2 := one_id ests t _ p c h1
          have h3 := extrapolate_ok ests p.1 t _ _ _ h2.2
          have hm : p.1 ∈ ids := (List.mem_zipIdx' (x := p.1) (i := p.2) hp).2 ▸ List.getElem_mem _
          exact ⟨p.1, hm, h2.1, h3⟩

/-- **C40** A refused request leaves no results. -/
theorem refused_empty (snx : Sinex) (ids : List (List Char)) (t : ℚ) (b : Bool)
    (h : (core snx ids t b).1 ≠ 0) : (core snx ids t b).2 = [] := by
  revert h
  unfold core
  split
  · intro; rfl
  · simp only
    split
    · intro; rfl
    · split
      · intro; rfl
      · split
        · intro; rfl
        · intro h; exact absurd rfl h

/-- **C40** The status tells why a request is refused: 2 only for sites that the file does not know when this counts as an error,
1 when a block of the file cannot be read or holds too few estimates, and 0 else. -/
theorem refused_status (snx : Sinex) (ids : List (List Char)) (t : ℚ) (b : Bool) :
    ((core snx ids t b).1 = 2 ↔ b = true ∧ ∃ sites, snx.siteId ids = some sites ∧ sites.length ≠ ids.length) ∧
    ((core snx ids t b).1 = 0 ↔ ∃ sites ests, snx.siteId ids = some sites ∧ (b = true → sites.length = ids.length) ∧
      snx.solution sites = some ests ∧ ids.length * 6 ≤ ests.length) ∧
    (core snx ids t b).1 ≤ 2 := by
  unfold core
  cases h1 : snx.siteId ids with
  | none => simp
  | some sites =>
    dsimp only
    by_cases h2 : sites.length ≠ ids.length ∧ b = true
    · rw [if_pos h2]
      refine ⟨⟨fun _ => ⟨h2.2, sites, rfl, h2.1⟩, fun _ => rfl⟩, ⟨fun h => by simp at h, ?_⟩, le_rfl⟩
      rintro ⟨s, e, hs, hb, -⟩
      cases hs
      exact absurd (hb h2.2) h2.1
    · rw [if_neg h2]
      have h2' : ¬ (b = true ∧ ∃ s, some sites = some s ∧ s.length ≠ ids.length) := by
        rintro ⟨hb, s, hs, hl⟩
        cases hs
        exact h2 ⟨hl, hb⟩
      have hb : b = true → sites.length = ids.length := fun hb => by
        by_contra hl
        exact h2 ⟨hl, hb⟩
      cases h3 : snx.solution sites with
      | none =>
        refine ⟨⟨fun h => by simp at h, fun h => absurd h h2'⟩, ⟨fun h => by simp at h, ?_⟩, by simp⟩
        rintro ⟨s, e, hs, -, he, -⟩
        cases hs
        rw [h3] at he
        cases he
      | some ests =>
        dsimp only
        by_cases h4 : ests.length < ids.length * 6
        · rw [if_pos h4]
          refine ⟨⟨fun h => by simp at h, fun h => absurd h h2'⟩, ⟨fun h => by simp at h, ?_⟩, by simp⟩
          rintro ⟨s, e, hs, -, he, hl⟩
          cases hs
          rw [h3] at he
          cases he
          omega
        · rw [if_neg h4]
          exact ⟨⟨fun h => by simp at h, fun h => absurd h h2'⟩,
            ⟨fun _ => ⟨sites, ests, rfl, hb, h3, not_lt.1 h4⟩, fun _ => rfl⟩, by simp⟩

/-- **C40** Every requested station that the file describes is in the result: if the site
block has as many entries as were requested and the estimates of a station are complete
and in metres and metres per year, its coordinates are returned. -/
theorem station_found (snx : Sinex) (ids sites : List (List Char)) (ests : List Estimate) (t : ℚ) (b : Bool)
    (hs : snx.siteId ids = some sites) (hlen : sites.length = ids.length)
    (he : snx.solution sites = some ests) (hn : ids.length * 6 ≤ ests.length)
    (sid : List Char) (hm : sid ∈ ids) (x y z : ℚ)
    (hx : extrapolate ests sid t = some (x, y, z)) :
    (core snx ids t b).1 = 0 ∧ (⟨sid.take 4, x, y, z⟩ : Coords) ∈ (core snx ids t b).2 := by
  unfold core
  rw [hs]
  simp only [hlen, ne_eq, not_true_eq_false, false_and, if_false, if_true, he]
  rw [if_neg (by omega)]
  refine ⟨rfl, ?_⟩
  simp only
  rw [loop_eq, List.nil_append, List.mem_filterMap]
  obtain ⟨i, hi, hi'⟩ := List.getElem_of_mem hm
  refine ⟨(sid, i), ?_, ?_⟩
  · rw [List.mk_mem_zipIdx_iff_getElem?, List.getElem?_eq_getElem hi, hi']
  · simp [one, hx]

/-- **C40** With missing sites tolerated and fewer sites in the file than requested: a requested
station is in the result exactly if the file has a site of that code and its estimates are complete
and in metres and metres per year. -/
theorem station_tolerated_iff (snx : Sinex) (ids sites : List (List Char)) (ests : List Estimate) (t : ℚ)
    (hs : snx.siteId ids = some sites) (hlen : sites.length ≠ ids.length)
    (he : snx.solution sites = some ests) (hn : ids.length * 6 ≤ ests.length) (c : Coords) :
    (core snx ids t false).1 = 0 ∧ (c ∈ (core snx ids t false).2 ↔
      ∃ sid ∈ ids, (∃ s ∈ sites, strncmpEq 4 sid s = true) ∧ c.id = sid.take 4 ∧
        extrapolate ests sid t = some (c.x, c.y, c.z)) := by
  unfold core
  rw [hs]
  simp only [hlen, ne_eq, not_false_eq_true, true_and, Bool.false_eq_true, if_false, he]
  rw [if_neg (by omega)]
  refine ⟨rfl, ?_⟩
  simp only
  rw [loop_eq, List.nil_append, List.mem_filterMap]
  have hmiss : ∀ (sid : List Char) (i : Nat), (sid, i) ∈ ids.zipIdx 0 →
      ((missing ids sites).contains i = false ↔ ∃ s ∈ sites, strncmpEq 4 sid s = true) := by
    intro sid i hi
    rw [List.mk_mem_zipIdx_iff_getElem?] at hi
    have hl : i < ids.length := by
      by_contra h
      rw [List.getElem?_eq_none (by omega)] at hi
      simp at hi
    have hd : ids.getD i [] = sid := by simp [hi]
    simp only [missing, ← Bool.not_eq_true, List.contains_iff_mem, List.mem_filter, List.mem_range, hl, hd,
      true_and, Bool.not_eq_true', not_not]
    exact List.any_eq_true
  constructor
  · rintro ⟨⟨sid, i⟩, hp, h1⟩
    have h2 := one_id ests t _ _ c h1
    have hm : sid ∈ ids := (List.mem_zipIdx' (x := sid) (i := i) hp).2 ▸ List.getElem_mem _
    refine ⟨sid, hm, (hmiss sid i hp).1 ?_, h2⟩
    cases hc : (missing ids sites).contains i
    · rfl
    · rw [one, hc] at h1
      simp at h1
  · rintro ⟨sid, hm, hsite, hid, hx⟩
    obtain ⟨i, hi, hi'⟩ := List.getElem_of_mem hm
    have hp : (sid, i) ∈ ids.zipIdx 0 := by
      rw [List.mk_mem_zipIdx_iff_getElem?, List.getElem?_eq_getElem hi, hi']
    refine ⟨(sid, i), hp, ?_⟩
    rw [one, (hmiss sid i hp).2 hsite, hx]
    simp [← hid]

/-- **C40** The coordinate of an axis exists exactly if both estimates are there and have the units
expected. -/
theorem axis_defined_iff (ests : List Estimate) (site : List Char) (t : ℚ) (a : Char) :
    (∃ x, axis ests site t a = some x) ↔ ∃ p v, find ests site ['S', 'T', 'A', a] = some p ∧
      find ests site ['V', 'E', 'L', a] = some v ∧ strncmpEq 2 p.units ['m', ' '] = true ∧
      strncmpEq 3 v.units ['m', '/', 'y'] = true := by
  unfold axis
  cases find ests site ['S', 'T', 'A', a] with
  | none => simp
  | some p =>
    cases find ests site ['V', 'E', 'L', a] with
    | none => simp
    | some v => simp

/-- A requested station matches a site exactly when the first four characters agree (codes without
NUL). -/
theorem strncmpEq_four (s u : List Char) (hs : 4 ≤ s.length) (hu : 4 ≤ u.length)
    (h0 : '\x00' ∉ s.take 4) : strncmpEq 4 s u = true ↔ s.take 4 = u.take 4 := by
  match s, u, hs, hu with
  | a :: b :: c :: d :: s', a' :: b' :: c' :: d' :: u', _, _ =>
    simp only [List.take_succ_cons, List.take_zero, List.mem_cons, List.not_mem_nil, or_false, not_or] at h0
    obtain ⟨ha, hb, hc, hd⟩ := h0
    simp only [List.take_succ_cons, List.take_zero, List.cons.injEq, and_true]
    have e0 : ∀ x : Char, ¬ '\x00' = x → (x == '\x00') = false := fun x hx => by
      simp only [beq_eq_false_iff_ne, ne_eq]
      exact fun h => hx h.symm
    simp only [strncmpEq, List.headD_cons, List.tail_cons, e0 _ ha, e0 _ hb, e0 _ hc, e0 _ hd, bne_iff_ne,
      Bool.false_eq_true, if_false, ne_eq, ite_not]
    by_cases h1 : a = a'
    · by_cases h2 : b = b'
      · by_cases h3 : c = c'
        · by_cases h4 : d = d'
          · simp [h1, h2, h3, h4]
          · simp [h1, h2, h3, h4]
        · simp [h1, h2, h3]
      · simp [h1, h2]
    · simp [h1]

theorem takeWhile_all {α : Type} (p : α → Bool) : ∀ l : List α, (∀ a ∈ l, p a = true) → l.takeWhile p = l
  | [], _ => rfl
  | a :: l, h => by
    rw [List.takeWhile_cons, if_pos (h a (by simp)), takeWhile_all p l fun b hb => h b (by simp [hb])]

/-- **C40** The overload for beacons is the core for the identifiers (the first four characters) of
the beacons, in their order. -/
theorem beacons_core (snx : Sinex) (beacons : List (List Char)) (t : ℚ) (b : Bool)
    (h0 : ∀ x ∈ beacons, '\x00' ∉ x) :
    ofBeacons snx beacons t b = core snx (beacons.map fun x => x.take 4) t b := by
  have : beacons.map copy4 = beacons.map fun x => x.take 4 := by
    refine List.map_congr_left fun x hx => ?_
    unfold copy4
    rw [takeWhile_all]
    intro c hc
    have : c ≠ '\x00' := fun h => h0 x hx (h ▸ hc)
    simpa using this
  unfold ofBeacons
  rw [this]

/-- The overload for beacons: same, for the beacons' ids. -/
theorem beacons_in_order (snx : Sinex) (beacons : List (List Char)) (t : ℚ) (b : Bool) :
    ((ofBeacons snx beacons t b).2.map Coords.id).Sublist (beacons.map copy4) := by
  have := results_in_order snx (beacons.map copy4) t b
  have e : (beacons.map copy4).map (fun i => i.take 4) = beacons.map copy4 := by
    rw [List.map_map]
    apply List.map_congr_left
    intro x _
    simp [copy4, List.take_take]
  rw [e] at this
  exact this

/-! ### Concrete instances -/

def est (site param units : String) (epoch value : ℚ) : Estimate :=
  ⟨site.toList, param.toList, units.toList, epoch, value⟩

def station (s : String) (x : ℚ) : List Estimate :=
  [est s "STAX  " "m   " 1000 x, est s "STAY  " "m   " 1000 (x + 1), est s "STAZ  " "m   " 1000 (x + 2),
   est s "VELX  " "m/y " 1000 1, est s "VELY  " "m/y " 1000 2, est s "VELZ  " "m/y " 1000 3]

def ids (l : List String) : List (List Char) := l.map String.toList

def snx : Sinex :=
  ⟨fun _ => some (ids ["ADEA", "TLSB"]), fun _ => some (station "TLSB" 20 ++ station "ADEA" 10)⟩

/-- Four years after the reference epoch, in the order of the request. -/
example : core snx (ids ["ADEA", "TLSB"]) 2461 true =
    (0, [⟨"ADEA".toList, 14, 19, 24⟩, ⟨"TLSB".toList, 24, 29, 34⟩]) := by
  decide +kernel

/-- Two of the requested stations are in the file, the third is not; estimates enough. -/
example : core ⟨fun _ => some (ids ["ADEA", "TLSB"]), fun _ => some (station "TLSB" 20 ++ station "ADEA" 10 ++ station "ADEB" 0)⟩
    (ids ["ADEA", "ADEB", "TLSB"]) 2461 false =
    (0, [⟨"ADEA".toList, 14, 19, 24⟩, ⟨"TLSB".toList, 24, 29, 34⟩]) := by
  decide +kernel

/-- **C40, a disagreement.**  Stations missing from the file are to be tolerated with
`missing_site_is_error = false`, yet the number of estimates is compared with six times the number
of *requested* stations: the request is refused although the estimates of the two stations in the
file are complete. -/
theorem missing_tolerated_counterexample :
    core snx (ids ["ADEA", "XXXX", "TLSB"]) 2461 false = (1, []) := by
  decide +kernel

/-- **C40, a disagreement.**  A station without velocities is dropped silently, with status 0. -/
theorem dropped_silently_counterexample :
    core ⟨fun _ => some (ids ["ADEA"]), fun _ => some ((station "ADEA" 10).take 4 ++ (station "ADEA" 10).take 4)⟩
      (ids ["ADEA"]) 2461 true = (0, []) := by
  decide +kernel

end Verif.Stations
