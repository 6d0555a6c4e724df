import Verif.Script.TableModel
import Verif.Script.ToolsProps
import Verif.BeaconTable.Props
import Verif.Rinex.WriteProps

/-! C152: the heights of the site logs reach the library: the script's table, read back by the table reader. -/
namespace Verif.Script.Table
open Verif.Rinex Verif.Rinex.Write Verif.Script.Log Verif.Script.Tools Verif.BeaconTable

/-! ### Specification -/

/-- A date that is written with the digits of the format. -/
structure Stamp.Ok (s : Stamp) : Prop where
  year : s.year < 10000
  month : s.month < 100
  day : s.day < 100
  hour : s.hour < 100
  minute : s.minute < 100
  second : s.second < 100

/-- An antenna that fits the columns. -/
structure Fits {V D : Type} (pr : Print V D) (x : Antenna V D) : Prop where
  name : x.name.length ≤ 4
  nonul : '\x00' ∉ x.name
  installed : (pr.stamp x.installed).Ok
  removed : (pr.stamp x.removed).Ok
  height : (pr.micro x.height).natAbs < 10 ^ 15

/-- Dates and numbers are read as they are written.  A date may follow a blank. -/
structure Honest' (e : BeaconTable.Ext) (time : Stamp → Int) (rd : Rat → Rat) : Prop where
  date : ∀ s : Stamp, s.Ok → ∀ rest, e.strptime (s.text ++ ' ' :: rest) = some (time s)
  blank : ∀ s : Stamp, s.Ok → ∀ rest, e.strptime (' ' :: (s.text ++ ' ' :: rest)) = some (time s)
  number : ∀ s v, Decimal s v → e.strtod s = some (rd v, false)

/-- What the table should have for an antenna: its name, its height to the micrometre, its dates. -/
def entry {V D : Type} (pr : Print V D) (time : Stamp → Int) (rd : Rat → Rat) (x : Antenna V D) : Entry :=
  ⟨padR 4 x.name, rd (pr.micro x.height / 10 ^ 6), time (pr.stamp x.installed), time (pr.stamp x.removed)⟩

/-- A log whose second block has these antennas. -/
def LogOf {V D : Type} (py : Py V D) (file : List (List Char)) (xs : List (Antenna V D)) : Prop :=
  ∃ pre h is ps e rest, file = pre ++ h :: (is ++ (ps.flatMap Part.lines ++ e :: rest)) ∧ Start 2 pre h is ∧ ps ≠ [] ∧
    (∀ p ∈ ps, p.Ok 2) ∧ IsEnd 2 e ∧ List.Forall₂ (fun p x => Says py p.dict x) ps xs

/-! ### The line -/

theorem text_length (s : Stamp) (h : s.Ok) : s.text.length = 19 := by
  unfold Stamp.text
  simp only [List.length_append, List.length_cons, (fracText_spec 4 _ h.year).2.2, (fracText_spec 2 _ h.month).2.2,
    (fracText_spec 2 _ h.day).2.2, (fracText_spec 2 _ h.hour).2.2, (fracText_spec 2 _ h.minute).2.2,
    (fracText_spec 2 _ h.second).2.2]

theorem text_nul (s : Stamp) (h : s.Ok) : '\x00' ∉ s.text := by
  unfold Stamp.text
  simp [digits_nul _ (fracText_spec 4 _ h.year).2.1, digits_nul _ (fracText_spec 2 _ h.month).2.1,
    digits_nul _ (fracText_spec 2 _ h.day).2.1, digits_nul _ (fracText_spec 2 _ h.hour).2.1,
    digits_nul _ (fracText_spec 2 _ h.minute).2.1, digits_nul _ (fracText_spec 2 _ h.second).2.1]

theorem height_length (z : Int) (h : z.natAbs < 10 ^ 15) : (padL 9 (fixText 6 z)).length ≤ 100 := by
  have h1 := natText_length (z.natAbs / 10 ^ 6) 8 (by omega)
  have h2 := (fracText_spec 6 (z.natAbs % 10 ^ 6) (Nat.mod_lt _ (by norm_num))).2.2
  have h3 : (signText z).length ≤ 1 := by unfold signText; split <;> simp
  simp only [padL, fixText, List.length_append, List.length_replicate, List.length_cons, h2]
  omega

theorem line_record {V D : Type} (pr : Print V D) (x : Antenna V D) (h : Fits pr x) : IsRecord (antennaLine pr x) := by
  have h1 := padR_length 4 x.name h.name
  have h2 := text_length _ h.installed
  have h3 := text_length _ h.removed
  have h4 := height_length _ h.height
  refine ⟨?_, ?_, ?_⟩
  · simp only [antennaLine, List.length_append, List.length_cons, h1, h2, h3]
    omega
  · simp only [antennaLine, List.length_append, List.length_cons, h1, h2, h3]
    omega
  · unfold antennaLine
    simp [padR_nul 4 _ h.nonul, text_nul _ h.installed, text_nul _ h.removed, padL_nul 9 _ (fixText_nul 6 _)]

/-- The columns of the line. -/
theorem line_columns {V D : Type} (pr : Print V D) (x : Antenna V D) (h : Fits pr x) :
    (antennaLine pr x).take 4 = padR 4 x.name ∧
      (antennaLine pr x).drop 5 = (pr.stamp x.installed).text ++ ' ' :: ((pr.stamp x.removed).text ++ ' ' ::
        padL 9 (fixText 6 (pr.micro x.height))) ∧
      (antennaLine pr x).drop 24 = ' ' :: ((pr.stamp x.removed).text ++ ' ' :: padL 9 (fixText 6 (pr.micro x.height))) ∧
      (antennaLine pr x).drop 45 = padL 9 (fixText 6 (pr.micro x.height)) := by
  have h1 := padR_length 4 x.name h.name
  have h2 := text_length _ h.installed
  have h3 := text_length _ h.removed
  have d5 : (antennaLine pr x).drop 5 = (pr.stamp x.installed).text ++ ' ' :: ((pr.stamp x.removed).text ++ ' ' ::
      padL 9 (fixText 6 (pr.micro x.height))) := by
    unfold antennaLine
    rw [show (5 : Nat) = (padR 4 x.name).length + 1 by omega, List.drop_length_add_append]
    rfl
  have d24 : (antennaLine pr x).drop 24 = ' ' :: ((pr.stamp x.removed).text ++ ' ' ::
      padL 9 (fixText 6 (pr.micro x.height))) := by
    rw [show (24 : Nat) = 5 + 19 by norm_num, ← List.drop_drop, d5, List.drop_left' h2]
  refine ⟨?_, d5, d24, ?_⟩
  · unfold antennaLine
    exact List.take_left' h1
  · rw [show (45 : Nat) = 24 + 21 by norm_num, ← List.drop_drop, d24, show (21 : Nat) = 20 + 1 by norm_num, List.drop_succ_cons,
      show (20 : Nat) = 19 + 1 by norm_num, ← List.drop_drop, List.drop_left' h3]
    rfl

/-- A written line is read as the antenna. -/
theorem record_line {V D : Type} {e : BeaconTable.Ext} {time : Stamp → Int} {rd : Rat → Rat} (hh : Honest' e time rd)
    (pr : Print V D) (x : Antenna V D) (h : Fits pr x) : record e (antennaLine pr x) = some (entry pr time rd x) := by
  obtain ⟨c1, c2, c3, c4⟩ := line_columns pr x h
  have hd : e.strtod (padL 9 (fixText 6 (pr.micro x.height))) = some (rd (pr.micro x.height / 10 ^ 6), false) := by
    refine hh.number _ _ ?_
    have := fixText_decimal (9 - (fixText 6 (pr.micro x.height)).length) 6 (pr.micro x.height) [] (.inl rfl)
    rw [List.append_nil] at this
    exact this
  unfold record
  rw [c1, c2, c3, c4, hh.date _ h.installed, hh.blank _ h.removed, hd]
  rfl

theorem records_lines {V D : Type} {e : BeaconTable.Ext} {time : Stamp → Int} {rd : Rat → Rat} (hh : Honest' e time rd)
    (pr : Print V D) (xs : List (Antenna V D)) (h : ∀ x ∈ xs, Fits pr x) :
    (xs.map fun x => (⟨antennaLine pr x, true⟩ : Line)).mapM (fun l => record e l.text) = some (xs.map (entry pr time rd)) := by
  induction xs with
  | nil => rfl
  | cons x xs ih =>
    rw [List.map_cons, List.mapM_cons, record_line hh pr x (h x (by simp)), ih fun y hy => h y (by simp [hy])]
    rfl

/-! ### C152 -/

/-- The table of given antennas: the reader returns those whose interval contains the epoch. -/
theorem lines_loaded {V D : Type} {e : BeaconTable.Ext} {time : Stamp → Int} {rd : Rat → Rat} (hh : Honest' e time rd)
    (pr : Print V D) (xs : List (Antenna V D)) (h : ∀ x ∈ xs, Fits pr x) (t : Int) :
    load e false t (some (⟨heading, true⟩ :: xs.map fun x => ⟨antennaLine pr x, true⟩)) =
      .ok ((xs.map (entry pr time rd)).filter (validAt t)) := by
  rw [load_exact e t ⟨heading, true⟩ _ (by rw [heading_columns.1]; norm_num)
    (by
      intro l hl
      obtain ⟨x, hx, rfl⟩ := List.mem_map.mp hl
      exact line_record pr x (h x hx))
    (by
      intro l hl
      rcases List.mem_cons.mp (List.mem_of_mem_dropLast hl) with rfl | hl
      · rfl
      · obtain ⟨x, -, rfl⟩ := List.mem_map.mp hl
        rfl),
    records_lines hh pr xs h]

/-- **C152** From the site logs to the heights in the program: for any directory whose logs describe antennas, with names of at
most four characters, the table the script writes is read as exactly the antennas of all logs that stand at the epoch, each with
its height to the micrometre. -/
theorem heights_from_logs {V D : Type} {e : BeaconTable.Ext} {time : Stamp → Int} {rd : Rat → Rat} (hh : Honest' e time rd)
    (py : Py V D) (pr : Print V D) (read : List Char → List (List Char)) (part : List Char → List (Antenna V D))
    (dir : List Char) (fns : List (List Char)) (xs : List Char → List (Antenna V D))
    (hl : ∀ fn ∈ fns, isLog fn = true → LogOf py (read (join dir fn)) (xs fn))
    (hf : ∀ fn ∈ fns, isLog fn = true → ∀ x ∈ xs fn, Fits pr x) (t : Int) :
    load e false t (some (table py pr read part dir fns)) =
      .ok ((((fns.filter isLog).flatMap xs).map (entry pr time rd)).filter (validAt t)) := by
  unfold table
  rw [stations_listed py read part dir fns xs (by
    intro fn hfn hlog
    obtain ⟨pre, h, is, ps, e', rest, hfile, hs, hne, hp, he, hx⟩ := hl fn hfn hlog
    rw [hfile]
    exact antennas_listed py pre h is hs ps hne hp e' he rest (xs fn) hx)]
  refine lines_loaded hh pr _ ?_ t
  intro x hx
  obtain ⟨fn, hfn, hx⟩ := List.mem_flatMap.mp hx
  exact hf fn (List.mem_filter.mp hfn).1 (List.mem_filter.mp hfn).2 x hx

/-- **C152** No antenna is lost, none is invented: an entry is in the table at an epoch exactly if some log has an antenna
with its values, installed at or before the epoch and removed after it. -/
theorem height_iff {V D : Type} {e : BeaconTable.Ext} {time : Stamp → Int} {rd : Rat → Rat} (hh : Honest' e time rd)
    (py : Py V D) (pr : Print V D) (read : List Char → List (List Char)) (part : List Char → List (Antenna V D))
    (dir : List Char) (fns : List (List Char)) (xs : List Char → List (Antenna V D))
    (hl : ∀ fn ∈ fns, isLog fn = true → LogOf py (read (join dir fn)) (xs fn))
    (hf : ∀ fn ∈ fns, isLog fn = true → ∀ x ∈ xs fn, Fits pr x) (t : Int) :
    ∃ es, load e false t (some (table py pr read part dir fns)) = .ok es ∧
      ∀ r, r ∈ es ↔ ∃ fn ∈ fns, isLog fn = true ∧ ∃ x ∈ xs fn, time (pr.stamp x.installed) ≤ t ∧
        t < time (pr.stamp x.removed) ∧ r.name = padR 4 x.name ∧ r.height = rd (pr.micro x.height / 10 ^ 6) ∧
        r.from' = time (pr.stamp x.installed) ∧ r.to' = time (pr.stamp x.removed) := by
  refine ⟨_, heights_from_logs hh py pr read part dir fns xs hl hf t, fun r => ?_⟩
  simp only [List.mem_filter, List.mem_map, List.mem_flatMap, validAt, decide_eq_true_eq]
  constructor
  · rintro ⟨⟨x, ⟨fn, ⟨h1, h2⟩, h3⟩, rfl⟩, h4, h5⟩
    exact ⟨fn, h1, h2, x, h3, h4, h5, rfl, rfl, rfl, rfl⟩
  · rintro ⟨fn, h1, h2, x, h3, h4, h5, e1, e2, e3, e4⟩
    have : entry pr time rd x = r := by
      obtain ⟨a, b, c, d⟩ := r
      simp only at e1 e2 e3 e4
      rw [e1, e2, e3, e4]
      rfl
    exact ⟨⟨x, ⟨fn, ⟨h1, h2⟩, h3⟩, this⟩, by rw [e3]; exact h4, by rw [e4]; exact h5⟩

/-! ### Where the claim fails -/

/-- The reader looks for the end of an interval one column early, at the blank before it.  If the date reader does not skip
blanks, every table with an antenna is refused. -/
theorem blank_column_counterexample {V D : Type} {e : BeaconTable.Ext} (hb : ∀ rest, e.strptime (' ' :: rest) = none)
    (pr : Print V D) (x : Antenna V D) (xs : List (Antenna V D)) (h : ∀ y ∈ x :: xs, Fits pr y) (t : Int) :
    load e false t (some (⟨heading, true⟩ :: (x :: xs).map fun y => ⟨antennaLine pr y, true⟩)) = .throws := by
  rw [load_exact e t ⟨heading, true⟩ _ (by rw [heading_columns.1]; norm_num)
    (by
      intro l hl
      obtain ⟨y, hy, rfl⟩ := List.mem_map.mp hl
      exact line_record pr y (h y hy))
    (by
      intro l hl
      rcases List.mem_cons.mp (List.mem_of_mem_dropLast hl) with rfl | hl
      · rfl
      · obtain ⟨y, -, rfl⟩ := List.mem_map.mp hl
        rfl)]
  have hr : record e (antennaLine pr x) = none := by
    unfold record
    rw [(line_columns pr x (h x (by simp))).2.2.1, hb]
    cases e.strptime ((antennaLine pr x).drop 5) <;> rfl
  rw [List.map_cons, List.mapM_cons, hr]
  rfl

/-- The script does not cut names, and the reader counts columns.  A name of five characters shifts the line: the end of the
interval is looked for at the last digit of its beginning.  If such a text is no date, the whole table is refused: one long name
and no height is known of any antenna. -/
theorem long_name_counterexample {V D : Type} {e : BeaconTable.Ext} {time : Stamp → Int} {rd : Rat → Rat}
    (hh : Honest' e time rd) (pr : Print V D) (x : Antenna V D) (h : x.name.length = 5) (hnul : '\x00' ∉ x.name)
    (hi : (pr.stamp x.installed).Ok) (hr : (pr.stamp x.removed).Ok) (hm : (pr.stamp x.installed).second = 0)
    (hv : (pr.micro x.height).natAbs < 10 ^ 15) (hd : ∀ rest, e.strptime ('0' :: ' ' :: rest) = none)
    (before : List (Antenna V D)) (hb : ∀ y ∈ before, Fits pr y) (after : List (Antenna V D)) (ha : ∀ y ∈ after, Fits pr y)
    (t : Int) :
    load e false t (some (⟨heading, true⟩ :: (before ++ x :: after).map fun y => ⟨antennaLine pr y, true⟩)) = .throws := by
  have h1 : padR 4 x.name = x.name := by simp [padR, h]
  have h2 := text_length _ hi
  have h3 := text_length _ hr
  have h4 := height_length _ hv
  obtain ⟨u, hu⟩ : ∃ u, (pr.stamp x.installed).text = u ++ ['0'] := by
    refine ⟨fracText 4 (pr.stamp x.installed).year ++ '-' :: (fracText 2 (pr.stamp x.installed).month ++ '-' ::
      (fracText 2 (pr.stamp x.installed).day ++ ' ' :: (fracText 2 (pr.stamp x.installed).hour ++ ':' ::
      (fracText 2 (pr.stamp x.installed).minute ++ [':', '0'])))), ?_⟩
    unfold Stamp.text
    rw [hm, show fracText 2 0 = ['0', '0'] by decide]
    simp
  have hul : u.length = 18 := by
    rw [hu] at h2
    simpa using h2
  have hc : (antennaLine pr x).drop 24 = '0' :: ' ' :: ((pr.stamp x.removed).text ++ ' ' ::
      padL 9 (fixText 6 (pr.micro x.height))) := by
    unfold antennaLine
    rw [h1, hu, show x.name ++ ' ' :: (u ++ ['0'] ++ ' ' :: ((pr.stamp x.removed).text ++ ' ' ::
        padL 9 (fixText 6 (pr.micro x.height)))) = (x.name ++ ' ' :: u) ++
        ('0' :: ' ' :: ((pr.stamp x.removed).text ++ ' ' :: padL 9 (fixText 6 (pr.micro x.height)))) by simp]
    refine List.drop_left' ?_
    simp only [List.length_append, List.length_cons, h, hul]
  have hx : IsRecord (antennaLine pr x) := by
    refine ⟨?_, ?_, ?_⟩
    · simp only [antennaLine, List.length_append, List.length_cons, h1, h2, h3, h]
      omega
    · simp only [antennaLine, List.length_append, List.length_cons, h1, h2, h3, h]
      omega
    · unfold antennaLine
      rw [h1]
      simp [hnul, text_nul _ hi, text_nul _ hr, padL_nul 9 _ (fixText_nul 6 _)]
  have hrec : record e (antennaLine pr x) = none := by
    unfold record
    rw [hc, hd]
    cases e.strptime ((antennaLine pr x).drop 5) <;> rfl
  rw [load_exact e t ⟨heading, true⟩ _ (by rw [heading_columns.1]; norm_num)
    (by
      intro l hl
      obtain ⟨y, hy, rfl⟩ := List.mem_map.mp hl
      rcases List.mem_append.mp hy with hy | hy
      · exact line_record pr y (hb y hy)
      · rcases List.mem_cons.mp hy with rfl | hy
        · exact hx
        · exact line_record pr y (ha y hy))
    (by
      intro l hl
      rcases List.mem_cons.mp (List.mem_of_mem_dropLast hl) with rfl | hl
      · rfl
      · obtain ⟨y, -, rfl⟩ := List.mem_map.mp hl
        rfl)]
  have hmap : ((before ++ x :: after).map fun y => (⟨antennaLine pr y, true⟩ : Line)).mapM (fun l => record e l.text) = none := by
    rw [List.map_append, List.mapM_append, records_lines hh pr before hb, List.map_cons, List.mapM_cons, hrec]
    rfl
  rw [hmap]

theorem antenna_height {V D : Type} (py : Py V D) (d : Dict) (x : Antenna V D) (s : List Char)
    (hd : get d "Height above ground mark".toList = some s) (hx : antenna py d = some x) : heightOf py s = some x.height := by
  unfold antenna at hx
  rw [hd] at hx
  generalize get d "Four character ID".toList = n at hx
  generalize get d "Date installed (dd/mm/yy)".toList = i at hx
  generalize get d "Date removed (dd/mm/yy)".toList = r at hx
  rcases n with _ | n
  · exact absurd hx (by simp)
  rcases hh : heightOf py s with _ | v
  · simp [hh] at hx
  rcases i with _ | i
  · simp [hh] at hx
  rcases hi : py.date i with _ | vi
  · simp [hh, hi] at hx
  rcases r with _ | r
  · simp [hh, hi] at hx
  rcases hr : removedOf py r with _ | vr
  · simp [hh, hi, hr] at hx
  · simp [hh, hi, hr] at hx
    rw [← hx]

/-- A height of one or two digits without decimals, such as `3 m`, reaches the program as the height zero. -/
theorem whole_metre_counterexample {V D : Type} {e : BeaconTable.Ext} {time : Stamp → Int} {rd : Rat → Rat}
    (hh : Honest' e time rd) (py : Py V D) (pr : Print V D) (hz : pr.micro py.zero = 0) (d : Dict) (x : Antenna V D)
    (a u : List Char) (ha : Digits a) (h2 : a.length ≤ 2) (hu : Unit' u)
    (hd : get d "Height above ground mark".toList = some (a ++ u)) (hx : antenna py d = some x) (hf : Fits pr x) :
    ∃ r, record e (antennaLine pr x) = some r ∧ r.height = rd 0 := by
  refine ⟨_, record_line hh pr x hf, ?_⟩
  have : x.height = py.zero := by
    have := antenna_height py d x _ hd hx
    rw [short_height_counterexample py a ha h2 u hu] at this
    exact (Option.some.inj this).symm
  simp only [entry, this, hz]
  norm_num

/-! ### Examples -/

/-- A date reader that skips blanks: seconds in a calendar of months of 31 days. -/
def secondsOf (s : Stamp) : Int :=
  ((((s.year * 12 + s.month) * 31 + s.day) * 24 + s.hour) * 60 + s.minute) * 60 + s.second

/-- The date at the beginning of a text. -/
def dateOf (s : List Char) : Stamp :=
  ⟨Text.decimal (s.take 4), Text.decimal ((s.drop 5).take 2), Text.decimal ((s.drop 8).take 2), Text.decimal ((s.drop 11).take 2),
    Text.decimal ((s.drop 14).take 2), Text.decimal ((s.drop 17).take 2)⟩

/-- A reader of tables: dates after blanks, decimal numbers. -/
def exTable : BeaconTable.Ext where
  strptime s := if s.take 2 = ['0', ' '] then none else some (secondsOf (dateOf (s.dropWhile (· == ' '))))
  strtod s := (exactNumber s).map (·, false)
  junk := []

theorem dateOf_text (s : Stamp) (h : s.Ok) (rest : List Char) : dateOf (s.text ++ rest) = s := by
  obtain ⟨a1, -, a3⟩ := fracText_spec 4 _ h.year
  obtain ⟨b1, -, b3⟩ := fracText_spec 2 _ h.month
  obtain ⟨c1, -, c3⟩ := fracText_spec 2 _ h.day
  obtain ⟨d1, -, d3⟩ := fracText_spec 2 _ h.hour
  obtain ⟨e1, -, e3⟩ := fracText_spec 2 _ h.minute
  obtain ⟨f1, -, f3⟩ := fracText_spec 2 _ h.second
  obtain ⟨y, mo, da, ho, mi, se⟩ := s
  unfold Stamp.text
  simp only at *
  generalize fracText 4 y = A at *
  generalize fracText 2 mo = B at *
  generalize fracText 2 da = C at *
  generalize fracText 2 ho = E at *
  generalize fracText 2 mi = F at *
  generalize fracText 2 se = G at *
  obtain ⟨p1, p2, p3, p4, rfl⟩ : ∃ p1 p2 p3 p4, A = [p1, p2, p3, p4] := by
    match A, a3 with
    | [p1, p2, p3, p4], _ => exact ⟨_, _, _, _, rfl⟩
  have two : ∀ l : List Char, l.length = 2 → ∃ p q, l = [p, q] := by
    intro l hl
    match l, hl with
    | [p, q], _ => exact ⟨_, _, rfl⟩
  obtain ⟨b, b', rfl⟩ := two B b3
  obtain ⟨c, c', rfl⟩ := two C c3
  obtain ⟨k, k', rfl⟩ := two E d3
  obtain ⟨l, l', rfl⟩ := two F e3
  obtain ⟨m, m', rfl⟩ := two G f3
  unfold dateOf
  simp [a1, b1, c1, d1, e1, f1]

theorem text_head (s : Stamp) (h : s.Ok) (rest : List Char) :
    (s.text ++ rest).dropWhile (· == ' ') = s.text ++ rest ∧ (s.text ++ rest).take 2 ≠ ['0', ' '] := by
  obtain ⟨-, a2, a3⟩ := fracText_spec 4 _ h.year
  unfold Stamp.text
  generalize fracText 4 s.year = A at *
  match A, a3 with
  | p :: q :: A', _ =>
    have blank : ∀ c : Char, Text.DigitCode c.toNat → c ≠ ' ' := by
      rintro c hc rfl
      revert hc
      unfold Text.DigitCode
      decide
    have hp := blank p (a2 p (by simp))
    have hq := blank q (a2 q (by simp))
    simp [hp, hq]

/-- The hypothesis on the libraries can be met. -/
theorem exTable_honest : Honest' exTable secondsOf id where
  date s h rest := by
    obtain ⟨h1, h2⟩ := text_head s h (' ' :: rest)
    simp only [exTable]
    rw [if_neg h2, h1, dateOf_text s h]
  blank s h rest := by
    obtain ⟨h1, -⟩ := text_head s h (' ' :: rest)
    simp only [exTable]
    rw [if_neg (by simp), List.dropWhile_cons_of_pos (by rfl), h1, dateOf_text s h]
  number s v h := by
    simp only [exTable, exactNumber_decimal s v h]
    rfl

/-- Stamps and micrometres for dates and heights. -/
def asIs : Print Int Stamp := ⟨id, id⟩

def yela : Antenna Int Stamp := ⟨"YELA".toList, ⟨1988, 8, 10, 0, 0, 0⟩, ⟨2002, 6, 5, 0, 0, 0⟩, 500000⟩
def yemb : Antenna Int Stamp := ⟨"YEMB".toList, ⟨2002, 6, 7, 0, 0, 0⟩, ⟨9999, 12, 31, 23, 59, 59⟩, 3123457⟩

example : Fits asIs yela ∧ Fits asIs yemb :=
  ⟨⟨by decide, by decide, ⟨by decide, by decide, by decide, by decide, by decide, by decide⟩,
    ⟨by decide, by decide, by decide, by decide, by decide, by decide⟩, by decide⟩,
   ⟨by decide, by decide, ⟨by decide, by decide, by decide, by decide, by decide, by decide⟩,
    ⟨by decide, by decide, by decide, by decide, by decide, by decide⟩, by decide⟩⟩

example : antennaLine asIs yemb = "YEMB 2002-06-07 00:00:00 9999-12-31 23:59:59  3.123457".toList := by decide +kernel

example : load exTable false (secondsOf ⟨2010, 1, 1, 0, 0, 0⟩)
    (some (⟨heading, true⟩ :: [yela, yemb].map fun x => ⟨antennaLine asIs x, true⟩)) =
    .ok [⟨"YEMB".toList, 3123457 / 1000000, secondsOf ⟨2002, 6, 7, 0, 0, 0⟩, secondsOf ⟨9999, 12, 31, 23, 59, 59⟩⟩] := by
  decide +kernel

/-- A name of five characters. -/
def long : Antenna Int Stamp := { yemb with name := "YEMBX".toList }

example : (∀ rest, exTable.strptime ('0' :: ' ' :: rest) = none) ∧ long.name.length = 5 ∧
    (asIs.stamp long.installed).second = 0 := ⟨fun _ => rfl, by decide, by decide⟩

example : load exTable false (secondsOf ⟨2010, 1, 1, 0, 0, 0⟩)
    (some (⟨heading, true⟩ :: [yemb, long].map fun x => ⟨antennaLine asIs x, true⟩)) = .throws := by decide +kernel

/-- A date reader that does not skip blanks. -/
def strict : BeaconTable.Ext := { exTable with strptime := fun s => if s.head? = some ' ' then none else exTable.strptime s }

example : (∀ rest, strict.strptime (' ' :: rest) = none) ∧ load strict false 0
    (some (⟨heading, true⟩ :: [yemb].map fun x => ⟨antennaLine asIs x, true⟩)) = .throws := ⟨fun _ => rfl, by decide +kernel⟩

/-- Numbers and dates for the script. -/
def somePy : Py Int Stamp where
  float s := (exactNumber s).map fun r => (r * 1000000).floor
  zero := 0
  date s := some ⟨Text.decimal ((s.drop 6).take 4), Text.decimal ((s.drop 3).take 2), Text.decimal (s.take 2), 0, 0, 0⟩
  latest := ⟨9999, 12, 31, 23, 59, 59⟩

/-- From a directory with the log of `Verif.Script.Log.log`: the first antenna has its 0.5 metres. -/
example : load exTable false (secondsOf ⟨1999, 1, 1, 0, 0, 0⟩) (some (table somePy asIs
    (fun fn => if fn = "logs/YEL.LOG".toList then log else []) (fun _ => []) "logs".toList ["a.txt".toList, "YEL.LOG".toList])) =
    .ok [⟨"YELA".toList, 1 / 2, secondsOf ⟨1988, 8, 10, 0, 0, 0⟩, secondsOf ⟨2002, 6, 5, 0, 0, 0⟩⟩] := by decide +kernel

/-- The second one, `12 m` in the log, has none. -/
example : load exTable false (secondsOf ⟨2010, 1, 1, 0, 0, 0⟩) (some (table somePy asIs
    (fun fn => if fn = "logs/YEL.LOG".toList then log else []) (fun _ => []) "logs".toList ["a.txt".toList, "YEL.LOG".toList])) =
    .ok [⟨"YEMB".toList, 0, secondsOf ⟨2002, 6, 7, 0, 0, 0⟩, secondsOf ⟨9999, 12, 31, 23, 59, 59⟩⟩] := by decide +kernel

end Verif.Script.Table
