import Verif.SpaceWeather.WriteLemmas
import Verif.SpaceWeather.Props

/-!
C148: space weather files that are written and read again.
-/
namespace Verif.SpaceWeather.Write

open Verif.Rinex Verif.Rinex.Write Verif.Text Verif.SpaceWeather

/-- **C148** The names of the columns are those of the header line the reader wants. -/
theorem header_names : csv (names.map String.toList) = header := by decide +kernel

/-- **C148** Every written line is read back: all values arrive in their members. -/
theorem line_roundtrip (e : Ext) (d : Day) (h : d.Ok e) (b : Buf) : resolve e (fill b d.line.text) = .ok (d.flux e) := by
  have hlen : 10 ≤ d.line.text.length := by
    rw [line_text, List.length_append, date_length e d h]; omega
  unfold resolve
  rw [dateOf_fill e b _ hlen, dateOf_line e d h, cstr_fill b _ (line_nul e d h), line_text]
  simp only
  have hdate : ∃ c w, d.date = c :: w ∧ ',' ∉ w := by
    have hl := date_length e d h
    have hf := (date_free e d h).1
    cases hd : d.date with
    | nil => rw [hd] at hl; cases hl
    | cons c w => exact ⟨c, w, rfl, fun hm => hf (by rw [hd]; simp [hm])⟩
  obtain ⟨c, w, hd, hw⟩ := hdate
  have s1 := skip_columns (d.ap.flatMap (fun a => intText a ++ [',']) ++ d.late) d.early c w hw
    (fun t ht => (h.early.2 t ht).1)
  rw [h.early.1] at s1
  have s2 := aps_written d.ap d.late h.ap.2
  rw [h.ap.1] at s2
  have hne : ∃ x l, d.ap.flatMap (fun a => intText a ++ [',']) ++ d.late = x :: l := by
    cases hx : d.ap.flatMap (fun a => intText a ++ [',']) ++ d.late with
    | nil => simp [Day.late] at hx
    | cons x l => exact ⟨x, l, rfl⟩
  obtain ⟨x, l, hx⟩ := hne
  rw [hd, List.cons_append]
  rw [hx] at s1 s2 ⊢
  rw [s1]
  simp only [s2]
  unfold Day.late
  simp only [dblComma_written e d.apAvg h.apAvg]
  obtain ⟨c', w', hc'⟩ := List.exists_cons_of_ne_nil h.cp.2
  have hw' : ',' ∉ w' := fun hm => h.cp.1.1 (by rw [hc']; simp [hm])
  have s3 := skip_columns (d.obs.text ++ ',' :: (d.adj.text ++ ',' :: (d.type ++ ',' :: (d.obsC81.text ++ ',' ::
    (d.obsL81.text ++ ',' :: (d.adjC81.text ++ ',' :: d.adjL81)))))) [d.c9, d.isn] c' w' hw'
    (by simp only [List.mem_cons, List.not_mem_nil, or_false, forall_eq_or_imp, forall_eq]; exact ⟨h.c9.1, h.isn.1⟩)
  rw [hc', List.cons_append]
  have hne : ∃ x l, d.obs.text ++ ',' :: (d.adj.text ++ ',' :: (d.type ++ ',' :: (d.obsC81.text ++ ',' ::
    (d.obsL81.text ++ ',' :: (d.adjC81.text ++ ',' :: d.adjL81))))) = x :: l := by
    cases hx : d.obs.text ++ ',' :: (d.adj.text ++ ',' :: (d.type ++ ',' :: (d.obsC81.text ++ ',' ::
      (d.obsL81.text ++ ',' :: (d.adjC81.text ++ ',' :: d.adjL81))))) with
    | nil => simp at hx
    | cons x l => exact ⟨x, l, rfl⟩
  have s4 := dblComma_written e d.obs h.obs (d.adj.text ++ ',' :: (d.type ++ ',' :: (d.obsC81.text ++ ',' ::
    (d.obsL81.text ++ ',' :: (d.adjC81.text ++ ',' :: d.adjL81)))))
  obtain ⟨y, l', hy⟩ := hne
  rw [hy] at s3 s4 ⊢
  have e3 : [d.c9, d.isn].length + 1 = 3 := rfl
  rw [e3] at s3
  rw [s3]
  simp only [s4, dblComma_written e d.adj h.adj, List.drop_left' h.type.2, dblComma_written e d.obsC81 h.obsC81,
    dblComma_written e d.obsL81 h.obsL81, dblComma_written e d.adjC81 h.adjC81, List.take_left' h.type.2]
  rw [if_neg (by simp only [List.length_append, h.type.2]; omega)]
  rfl

/-! ### The file -/

theorem line_length (e : Ext) (d : Day) (h : d.Ok e) : 10 ≤ d.line.text.length := by
  rw [line_text, List.length_append, date_length e d h]; omega

theorem getline_day (e : Ext) (d : Day) (h : d.Ok e) (rest : List Line) (b : Buf) :
    getline 512 (Stream.open (d.line :: rest)) b = (Stream.open rest, fill b d.line.text) := by
  unfold getline
  rw [if_neg (by simp [Stream.open, Stream.good])]
  simp only [Stream.open]
  rw [if_neg (by have := h.fits; omega)]
  rfl

theorem dateOf_day (e : Ext) (d : Day) (h : d.Ok e) (b : Buf) : dateOf e (fill b d.line.text) = some (d.mjd e) := by
  rw [dateOf_fill e b _ (line_length e d h), dateOf_line e d h]

theorem search_days (e : Ext) (start : Int) (x : Day) (hx : x.Ok e) (hs : x.mjd e = start) (rest : List Line) :
    ∀ (ds : List Day) (n : Nat) (b : Buf) (c : Int), (∀ d ∈ ds, d.Ok e ∧ d.mjd e ≠ start) → c ≠ start →
      ds.length < n →
      ∃ b', search e start n (Stream.open (ds.map Day.line ++ x.line :: rest)) b c =
        .ok (Stream.open rest, fill b' x.line.text)
  | [], n, b, c, _, hc, hn => by
    obtain ⟨n, rfl⟩ : ∃ m, n = m + 1 := ⟨n - 1, by simp at hn; omega⟩
    refine ⟨b, ?_⟩
    rw [search, if_neg hc, List.map_nil, List.nil_append]
    simp only [getline_day e x hx, dateOf_day e x hx]
    simp only [Stream.open, Bool.false_eq_true, if_false]
    rw [hs]
    cases n <;> rw [search, if_pos rfl]
  | d :: ds, n, b, c, h, hc, hn => by
    obtain ⟨n, rfl⟩ : ∃ m, n = m + 1 := ⟨n - 1, by simp at hn; omega⟩
    have hd := h d (by simp)
    obtain ⟨b', hb⟩ := search_days e start x hx hs rest ds n (fill b d.line.text) (d.mjd e)
      (fun y hy => h y (by simp [hy])) hd.2 (by simpa using hn)
    refine ⟨b', ?_⟩
    rw [search, if_neg hc, List.map_cons, List.cons_append]
    simp only [getline_day e d hd.1, dateOf_day e d hd.1]
    simp only [Stream.open, Bool.false_eq_true, if_false]
    exact hb

theorem set_drop (flux : List Flux) (k : Nat) (f : Flux) (h : k < flux.length) (t : List Flux) :
    (flux.set k f).take (k + 1) ++ t = flux.take k ++ f :: t := by
  rw [List.take_succ_eq_append_getElem (by simpa using h), List.take_set_of_le (le_refl k)]
  simp

/-- The position after the days asked for: one line further, or the top when there is no such line. -/
def positionAfter (file : List Line) : List Day → Pos
  | [] => .top
  | _ :: r => .line (file.length - r.length)

/-- The record loop over days that follow one another. -/
theorem store_days (e : Ext) (file : List Line) (start : Int) (rest : List Day) (hrest : ∀ d ∈ rest, d.Ok e) :
    ∀ (ds : List Day) (d : Day) (cdi : Nat) (b : Buf) (flux : List Flux), d.Ok e → (∀ x ∈ ds, x.Ok e) →
      (∀ i (h : i < (d :: (ds ++ rest)).length), (d :: (ds ++ rest))[i].mjd e = start + cdi + i) →
      cdi + (ds.length + 1) ≤ flux.length →
      store e file start (ds.length + 1) cdi (Stream.open ((ds ++ rest).map Day.line)) (fill b d.line.text) flux =
        .ret 0 (flux.take cdi ++ (d :: ds).map (Day.flux e) ++ flux.drop (cdi + (ds.length + 1)))
          (positionAfter file rest)
  | [], d, cdi, b, flux, hd, _, hm, hn => by
    simp only [List.length_nil, List.nil_append, store, line_roundtrip e d hd]
    have hset : (flux.set cdi (d.flux e)) =
        flux.take cdi ++ [d].map (Day.flux e) ++ flux.drop (cdi + 1) := by
      rw [List.set_eq_take_append_cons_drop, if_pos (by simp at hn; omega)]
      simp
    cases rest with
    | nil =>
      simp only [List.map_nil, getline, Stream.open, Stream.good]
      simp [hset, positionAfter]
    | cons x r =>
      have h1 := hm 1 (by simp)
      simp only [List.nil_append, List.getElem_cons_succ, List.getElem_cons_zero] at h1
      rw [List.map_cons]
      simp only [getline_day e x (hrest x (by simp)), dateOf_day e x (hrest x (by simp)), h1]
      simp only [Stream.open, Bool.false_eq_true, if_false]
      rw [if_pos (by simp)]
      rw [hset]
      simp [tell, Stream.good, positionAfter]
  | y :: ds, d, cdi, b, flux, hd, hds, hm, hn => by
    have hy := hds y (by simp)
    have h1 := hm 1 (by simp)
    simp only [List.cons_append, List.getElem_cons_succ, List.getElem_cons_zero] at h1
    have ih := store_days e file start rest hrest ds y (cdi + 1) (fill b d.line.text) (flux.set cdi (d.flux e)) hy
      (fun x hx => hds x (by simp [hx]))
      (fun i hi => by
        have := hm (i + 1) (by simpa using hi)
        simp only [List.cons_append, List.getElem_cons_succ] at this
        rw [this]; push_cast; ring)
      (by simp at hn ⊢; omega)
    rw [List.length_cons, store]
    simp only [line_roundtrip e d hd]
    rw [List.cons_append, List.map_cons]
    simp only [getline_day e y hy, dateOf_day e y hy, h1]
    rw [if_neg (by simp [Stream.open]), if_pos (by simp)]
    rw [ih]
    congr 1
    rw [List.append_assoc, set_drop _ _ _ (by simp at hn; omega)]
    rw [List.drop_set_of_lt (by omega)]
    simp
    congr 1
    omega

/-- What a call gives for `n` days from the `j`-th on. -/
def given (e : Ext) (ds : List Day) (j n : Nat) (flux : List Flux) : List Flux :=
  ((ds.drop j).take n).map (Day.flux e) ++ flux.drop n

theorem drop_split {α : Type} (l : List α) (a b : Nat) (h : a ≤ b) :
    l.drop a = (l.drop a).take (b - a) ++ l.drop b := by
  have h1 := List.take_append_drop (b - a) (l.drop a)
  rw [List.drop_drop, show a + (b - a) = b by omega] at h1
  exact h1.symm

theorem body_days (e : Ext) (file : List Line) (first : Int) (ds : List Day) (hok : ∀ d ∈ ds, d.Ok e)
    (hd : Daily e first ds) (q j n : Nat) (hq : q < ds.length) (hj : j + (n + 1) ≤ ds.length) (b : Buf)
    (flux : List Flux) (hf : n + 1 ≤ flux.length) :
    body e file (first + j) (n + 1) (Stream.open ((ds.drop q).map Day.line)) b flux =
      if j < q then none
      else some (.ret 0 (given e ds j (n + 1) flux) (positionAfter file (ds.drop (j + (n + 1))))) := by
  have hdrop : ds.drop q = ds[q] :: ds.drop (q + 1) := List.drop_eq_getElem_cons hq
  have hq' := hd q hq
  have okq : ds[q].Ok e := hok _ (List.getElem_mem hq)
  unfold body
  rw [hdrop, List.map_cons]
  simp only [getline_day e _ okq, dateOf_day e _ okq, hq']
  by_cases hlt : j < q
  · rw [if_pos (by omega), if_pos hlt]
  · rw [if_neg (by omega), if_neg hlt]
    have hjl : j < ds.length := by omega
    have okj : ds[j].Ok e := hok _ (List.getElem_mem hjl)
    have hsplit : ds.drop (j + 1) = (ds.drop (j + 1)).take n ++ ds.drop (j + (n + 1)) := by
      have h := drop_split ds (j + 1) (j + (n + 1)) (by omega)
      rwa [show j + (n + 1) - (j + 1) = n by omega] at h
    have key : ∃ b', search e (first + j) ((Stream.open ((ds.drop (q + 1)).map Day.line)).lines.length + 1)
        (Stream.open ((ds.drop (q + 1)).map Day.line)) (fill b ds[q].line.text) (first + q) =
        .ok (Stream.open ((ds.drop (j + 1)).map Day.line), fill b' ds[j].line.text) := by
      by_cases he : j = q
      · subst he
        refine ⟨b, ?_⟩
        rw [search, if_pos rfl]
      · have h1 : ds.drop (q + 1) = (ds.drop (q + 1)).take (j - (q + 1)) ++ ds[j] :: ds.drop (j + 1) := by
          rw [← List.drop_eq_getElem_cons hjl]
          exact drop_split ds (q + 1) j (by omega)
        have h2 := search_days e (first + j) ds[j] okj (hd j hjl) ((ds.drop (j + 1)).map Day.line)
          ((ds.drop (q + 1)).take (j - (q + 1))) ((Stream.open ((ds.drop (q + 1)).map Day.line)).lines.length + 1)
          (fill b ds[q].line.text) (first + q)
          (by
            intro d hdm
            obtain ⟨i, hi, rfl⟩ := List.getElem_of_mem hdm
            simp only [List.length_take, List.length_drop] at hi
            rw [List.getElem_take, List.getElem_drop]
            refine ⟨hok _ (List.getElem_mem _), ?_⟩
            rw [hd _ (by omega)]
            omega) (by omega) (by simp [Stream.open])
        obtain ⟨b', h3⟩ := h2
        refine ⟨b', ?_⟩
        rw [← List.map_cons, ← List.map_append, ← h1] at h3
        exact h3
    obtain ⟨b', hs⟩ := key
    rw [hs]
    simp only
    have h4 := store_days e file (first + j) (ds.drop (j + (n + 1))) (fun d hm => hok d (List.mem_of_mem_drop hm))
      ((ds.drop (j + 1)).take n) ds[j] 0 b' flux okj (fun d hm => hok d (List.mem_of_mem_drop (List.mem_of_mem_take hm)))
      (by
        intro i hi
        simp only [← hsplit, ← List.drop_eq_getElem_cons hjl, List.getElem_drop] at hi ⊢
        rw [hd _ (by simp only [List.length_drop] at hi; omega)]
        push_cast; ring)
      (by simp only [List.length_take, List.length_drop]; omega)
    rw [← hsplit] at h4
    have hlen : ((ds.drop (j + 1)).take n).length = n := by simp only [List.length_take, List.length_drop]; omega
    rw [hlen] at h4
    rw [h4]
    unfold given
    rw [ List.take_zero, List.nil_append, Nat.zero_add, ← List.take_succ_cons, ← List.drop_eq_getElem_cons hjl]

theorem strncmp_prefix (h t : List Char) (hn : '\x00' ∉ h) : strncmpEq h.length (h ++ t) h = true := by
  induction h with
  | nil => rfl
  | cons c h ih =>
    rw [List.mem_cons, not_or] at hn
    have hc : ¬c = '\x00' := fun h' => hn.1 h'.symm
    simp [strncmpEq, hc, ih hn.2]

/-- The position left behind in a file of `count` days after a call whose last day is the `m`-th: the line after the
next one. -/
def nextPos (count m : Nat) : Pos := if m + 1 < count then .line (m + 3) else .top

theorem position_next (tail : List Char) (ds : List Day) (m : Nat) (hm : m < ds.length) :
    positionAfter (fileOf tail ds) (ds.drop (m + 1)) = nextPos ds.length m := by
  unfold nextPos
  split
  · rename_i h
    rw [List.drop_eq_getElem_cons h]
    simp only [positionAfter, fileOf, List.length_cons, List.length_map, List.length_drop]
    congr 1
    omega
  · rw [List.drop_of_length_le (by omega)]
    rfl

/-- A tail of the header line that can be written. -/
def TailOk (tail : List Char) : Prop := '\x00' ∉ tail ∧ header.length + tail.length ≤ 511

/-- Positions from which the reader finds every day. -/
def Ready (count : Nat) (p : Pos) : Prop := p = .top ∨ ∃ k, 1 ≤ k ∧ k ≤ count ∧ p = .line k

theorem getline_header (tail : List Char) (ht : TailOk tail) (ds : List Day) (b : Buf) :
    getline 512 (seek (fileOf tail ds) .top) b = (Stream.open (ds.map Day.line), fill b (header ++ tail)) := by
  have h2 := ht.2
  simp only [seek, fileOf, header_names]
  unfold getline
  rw [if_neg (by simp [Stream.open, Stream.good])]
  simp only [Stream.open]
  rw [if_neg (by rw [List.length_append]; omega)]
  rfl

theorem header_accepted (tail : List Char) (ht : TailOk tail) (b : Buf) :
    strncmpEq header.length (cstr (fill b (header ++ tail)) 0) header = true := by
  have h1 : '\x00' ∉ header := by decide +kernel
  rw [cstr_fill b _ (by rw [List.mem_append, not_or]; exact ⟨h1, ht.1⟩)]
  exact strncmp_prefix header tail h1

/-- **C148** From the start of the file, and from every position at a day of the file, all days that are asked for are
delivered, in order, with the values of their lines. -/
theorem parse_written (e : Ext) (tail : List Char) (ht : TailOk tail) (first : Int) (ds : List Day)
    (hok : ∀ d ∈ ds, d.Ok e) (hd : Daily e first ds) (p : Pos) (hp : Ready ds.length p) (b : Buf)
    (i before after : Nat) (hb : before ≤ i) (ha : i + after < ds.length) (flux : List Flux)
    (hf : before + 1 + after ≤ flux.length) :
    parse e (some (fileOf tail ds)) b (first + i) flux p before after =
      .ret 0 (given e ds (i - before) (before + 1 + after) flux) (nextPos ds.length (i + after)) := by
  have hstart : first + (i : Int) - (before : Int) = first + ((i - before : Nat) : Int) := by omega
  have hn : before + 1 + after = (before + after) + 1 := by omega
  have hpos : positionAfter (fileOf tail ds) (ds.drop (i - before + (before + after + 1))) =
      nextPos ds.length (i + after) := by
    rw [show i - before + (before + after + 1) = i + after + 1 by omega]
    exact position_next tail ds _ ha
  have top := body_days e (fileOf tail ds) first ds hok hd 0 (i - before) (before + after) (by omega) (by omega)
    (fill b (header ++ tail)) flux (by omega)
  rw [if_neg (by omega), List.drop_zero, hpos] at top
  unfold parse
  simp only [hstart, hn, getline_header tail ht, header_accepted tail ht, top]
  simp only [Stream.open, Bool.false_eq_true, if_false, Option.getD_some]
  rw [if_neg (by simp)]
  rcases hp with rfl | ⟨k, hk1, hk2, rfl⟩
  · rfl
  · simp only
    have hsk : seek (fileOf tail ds) (.line k) = Stream.open ((ds.drop (k - 1)).map Day.line) := by
      obtain ⟨k, rfl⟩ : ∃ m, k = m + 1 := ⟨k - 1, by omega⟩
      simp only [seek, fileOf, List.drop_succ_cons, Nat.add_sub_cancel, List.map_drop]
    have h := body_days e (fileOf tail ds) first ds hok hd (k - 1) (i - before) (before + after) (by omega)
      (by omega) b flux (by omega)
    rw [hsk, h]
    split
    · rfl
    · rw [hpos]; rfl

/-- The position behind the last line: nothing is delivered, whatever is asked for; the next call starts from the top
again. -/
theorem parse_at_end (e : Ext) (tail : List Char) (ds : List Day) (b : Buf) (mjd : Int) (flux : List Flux)
    (before after : Nat) :
    parse e (some (fileOf tail ds)) b mjd flux (.line (ds.length + 1)) before after = .ret (-2) flux .top := by
  have hsk : seek (fileOf tail ds) (.line (ds.length + 1)) = Stream.open [] := by
    simp only [seek, fileOf, List.drop_succ_cons]
    rw [List.drop_of_length_le (by simp)]
  have hg : getline 512 (Stream.open []) b = (⟨[], true, true⟩, fill b []) := rfl
  unfold parse
  simp only [hsk]
  unfold body
  simp only [hg, dateOf_fill_nil, Option.getD_some]

/-- A day before the first of the file. -/
theorem parse_before (e : Ext) (tail : List Char) (ht : TailOk tail) (first : Int) (ds : List Day)
    (hok : ∀ d ∈ ds, d.Ok e) (hd : Daily e first ds) (hne : 0 < ds.length) (b : Buf) (mjd : Int)
    (before after : Nat) (hb : mjd - before < first) (flux : List Flux) :
    parse e (some (fileOf tail ds)) b mjd flux .top before after = .ret 1 flux .top := by
  have hbody : body e (fileOf tail ds) (mjd - before) (before + 1 + after) (Stream.open (ds.map Day.line))
      (fill b (header ++ tail)) flux = none := by
    have hcons : ds = ds[0] :: ds.drop 1 := by
      have := List.drop_eq_getElem_cons hne
      simpa using this
    have hok0 : ds[0].Ok e := hok _ (List.getElem_mem hne)
    have h0 := hd 0 hne
    unfold body
    conv_lhs => rw [hcons, List.map_cons]
    simp only [getline_day e _ hok0, dateOf_day e _ hok0]
    rw [if_pos (by rw [h0]; push_cast; omega)]
  unfold parse
  simp only [getline_header tail ht, header_accepted tail ht, hbody]
  simp only [Stream.open, Bool.false_eq_true, if_false, Option.getD_none]
  rw [if_neg (by simp)]

/-! ### The feed -/

/-- The 3-hour values of the whole file in one row. -/
def apRow (ds : List Day) (k : Nat) : ℚ := ((ds.flatMap Day.ap).getD k 0 : ℚ)

/-- Mean of the eight values `from`, … `from + 7` places before place `p`. -/
def apMean (ds : List Day) (p start : Nat) : ℚ := (((List.range 8).map fun j => apRow ds (p - (start + j))).sum) / 8

/-- What the atmosphere model is to be given for second `sec` of the `i`-th day. -/
def wanted (ds : List Day) (today yesterday : Day) (i sec : Nat) : Params :=
  let p := 8 * i + sec / 10800
  { f107A := today.obsC81.value
    f107 := yesterday.obs.value
    ap := today.apAvg.value
    arr := [today.apAvg.value, apRow ds p, apRow ds (p - 1), apRow ds (p - 2), apRow ds (p - 3), apMean ds p 4,
      apMean ds p 12] }

/-- The four days of the window. -/
def window (e : Ext) (ds : List Day) (i : Nat) : List Flux := ((ds.drop (i - 3)).take 4).map (Day.flux e)

theorem flatMap_drop (ds : List Day) (h : ∀ d ∈ ds, d.ap.length = 8) (m : Nat) :
    (ds.drop m).flatMap Day.ap = (ds.flatMap Day.ap).drop (8 * m) := by
  induction m generalizing ds with
  | zero => simp
  | succ m ih =>
    cases ds with
    | nil => simp
    | cons d ds =>
      have hd := h d (by simp)
      rw [List.drop_succ_cons, List.flatMap_cons, ih ds (fun x hx => h x (by simp [hx])),
        show 8 * (m + 1) = d.ap.length + 8 * m by omega, ← List.drop_drop, List.drop_left]

theorem flatMap_length (ds : List Day) (h : ∀ d ∈ ds, d.ap.length = 8) : (ds.flatMap Day.ap).length = 8 * ds.length := by
  induction ds with
  | nil => rfl
  | cons d ds ih =>
    rw [List.flatMap_cons, List.length_append, h d (by simp), ih (fun x hx => h x (by simp [hx])), List.length_cons]
    omega

theorem series_window (e : Ext) (ds : List Day) (h : ∀ d ∈ ds, d.ap.length = 8) (i : Nat) (h3 : 3 ≤ i)
    (hi : i < ds.length) (k : Nat) (hk : k < 32) : series (window e ds i) k = apRow ds (8 * (i - 3) + k) := by
  have hflat : (window e ds i).flatMap Flux.ap = ((ds.drop (i - 3)).take 4).flatMap Day.ap := by
    simp only [window, List.flatMap_map, Day.flux]
  have hlen : (((ds.drop (i - 3)).take 4).flatMap Day.ap).length = 32 := by
    rw [flatMap_length _ (fun d hm => h d (List.mem_of_mem_drop (List.mem_of_mem_take hm)))]
    simp only [List.length_take, List.length_drop]
    omega
  have hsplit : (ds.flatMap Day.ap).drop (8 * (i - 3)) =
      ((ds.drop (i - 3)).take 4).flatMap Day.ap ++ ((ds.drop (i - 3)).drop 4).flatMap Day.ap := by
    rw [← flatMap_drop ds h, ← List.flatMap_append, List.take_append_drop]
  unfold series apRow
  rw [hflat]
  simp only [List.getD_eq_getElem?_getD]
  rw [← List.getElem?_drop, hsplit, List.getElem?_append_left (by omega)]

theorem mean_window (e : Ext) (ds : List Day) (h : ∀ d ∈ ds, d.ap.length = 8) (i : Nat) (h3 : 3 ≤ i)
    (hi : i < ds.length) (p start : Nat) (hp : p < 32) (hs : start + 7 ≤ p) :
    meanBefore (window e ds i) p start = apMean ds (8 * (i - 3) + p) start := by
  unfold meanBefore apMean
  congr 2
  apply List.map_congr_left
  intro j hj
  rw [List.mem_range] at hj
  rw [series_window e ds h i h3 hi _ (by omega)]
  congr 1
  omega

theorem init_window (e : Ext) (ds : List Day) (hok : ∀ d ∈ ds, d.Ok e) (i sec : Nat) (h3 : 3 ≤ i) (hi : i < ds.length)
    (hs : sec < 86400) : init (window e ds i) sec = some (wanted ds ds[i] ds[i - 1] i sec) := by
  have h8 : ∀ d ∈ ds, d.ap.length = 8 := fun d hd => (hok d hd).ap.1
  have hw : window e ds i = [ds[i - 3].flux e, ds[i - 2].flux e, ds[i - 1].flux e, ds[i].flux e] := by
    apply List.ext_getElem
    · simp only [window, List.length_map, List.length_take, List.length_drop, List.length_cons, List.length_nil]
      omega
    · intro k h1 h2
      have hk : k < 4 := by simpa using h2
      simp only [window, List.getElem_map, List.getElem_take, List.getElem_drop]
      match k, hk with
      | 0, _ => rfl
      | 1, _ => simp only [List.getElem_cons_succ, List.getElem_cons_zero, show i - 3 + 1 = i - 2 by omega]
      | 2, _ => simp only [List.getElem_cons_succ, List.getElem_cons_zero, show i - 3 + 2 = i - 1 by omega]
      | 3, _ => simp only [List.getElem_cons_succ, List.getElem_cons_zero, show i - 3 + 3 = i by omega]
  have hap := ap_entries (ds[i - 3].flux e) (ds[i - 2].flux e) (ds[i - 1].flux e) (ds[i].flux e)
    (h8 _ (List.getElem_mem _)) (h8 _ (List.getElem_mem _)) (h8 _ (List.getElem_mem _)) (h8 _ (List.getElem_mem _)) sec hs
  simp only [← hw] at hap
  rw [hap]
  have hq : sec / 10800 < 8 := by omega
  unfold wanted
  rw [series_window e ds h8 i h3 hi _ (by omega), series_window e ds h8 i h3 hi _ (by omega),
    series_window e ds h8 i h3 hi _ (by omega), series_window e ds h8 i h3 hi _ (by omega),
    mean_window e ds h8 i h3 hi _ _ (by omega) (by omega), mean_window e ds h8 i h3 hi _ _ (by omega) (by omega)]
  simp only [Day.flux]
  rw [show 8 * (i - 3) + (24 + sec / 10800) = 8 * i + sec / 10800 by omega,
    show 8 * (i - 3) + (24 + sec / 10800 - 1) = 8 * i + sec / 10800 - 1 by omega,
    show 8 * (i - 3) + (24 + sec / 10800 - 2) = 8 * i + sec / 10800 - 2 by omega,
    show 8 * (i - 3) + (24 + sec / 10800 - 3) = 8 * i + sec / 10800 - 3 by omega]

/-- The feed serves second `sec` of the `i`-th day. -/
structure Serves (e : Ext) (first : Int) (ds : List Day) (i sec : Nat) (f : Feed) : Prop where
  mjd : f.mjd = first + i
  flux : f.flux = window e ds i
  chi : f.chi = sec / 10800
  params : ∃ (_ : 3 ≤ i) (h : i < ds.length), f.params = wanted ds ds[i] ds[i - 1] i sec

theorem given_window (e : Ext) (ds : List Day) (i : Nat) (flux : List Flux) (hl : flux.length = 4) :
    given e ds (i - 3) (3 + 1 + 0) flux = window e ds i := by
  unfold given window
  rw [List.drop_of_length_le (l := flux) (by omega), List.append_nil]

theorem window_length (e : Ext) (ds : List Day) (i : Nat) (h3 : 3 ≤ i) (hi : i < ds.length) :
    (window e ds i).length = 4 := by
  simp only [window, List.length_map, List.length_take, List.length_drop]
  omega

/-- **C148** A feed constructed for any day of the file but the first three serves that day's values. -/
theorem construct_served (e : Ext) (tail : List Char) (ht : TailOk tail) (first : Int) (ds : List Day)
    (hok : ∀ d ∈ ds, d.Ok e) (hd : Daily e first ds) (j : Junk) (i sec : Nat) (h3 : 3 ≤ i) (hi : i < ds.length)
    (hs : sec < 86400) :
    ∃ f, construct e (some (fileOf tail ds)) j (first + i) sec = some (.ok f) ∧ Serves e first ds i sec f ∧
      f.fpos = nextPos ds.length i := by
  have hp := parse_written e tail ht first ds hok hd .top (.inl rfl) j.buf i 3 0 h3 (by omega)
    [j.flux, j.flux, j.flux, j.flux] (by simp)
  rw [given_window e ds i _ rfl] at hp
  refine ⟨⟨sec / 3600 / 3, first + i, window e ds i, nextPos ds.length i, wanted ds ds[i] ds[i - 1] i sec⟩, ?_, ?_, rfl⟩
  · unfold construct
    rw [hp]
    simp only [init_window e ds hok i sec h3 hi hs]
    rfl
  · exact ⟨rfl, rfl, Nat.div_div_eq_div_mul _ _ _, h3, hi, rfl⟩

theorem window_next (e : Ext) (ds : List Day) (i : Nat) (h3 : 3 ≤ i) (hi : i + 1 < ds.length) (nf : Flux) :
    (window e ds i).drop 1 ++ (given e ds (i + 1 - 0) (0 + 1 + 0) [nf]).take 1 = window e ds (i + 1) := by
  have hg : given e ds (i + 1 - 0) (0 + 1 + 0) [nf] = [ds[i + 1].flux e] := by
    unfold given
    rw [Nat.sub_zero, List.drop_eq_getElem_cons hi]
    rfl
  rw [hg]
  apply List.ext_getElem
  · simp only [List.length_append, List.length_drop, window_length e ds i h3 (by omega),
      window_length e ds (i + 1) (by omega) hi]
    rfl
  · intro k h1 h2
    rw [window_length e ds (i + 1) (by omega) hi] at h2
    by_cases hk : k < 3
    · rw [List.getElem_append_left (by rw [List.length_drop, window_length e ds i h3 (by omega)]; omega)]
      simp only [window, List.getElem_drop, List.getElem_map, List.getElem_take]
      congr 2
      omega
    · have : k = 3 := by omega
      subst this
      rw [List.getElem_append_right (by rw [List.length_drop, window_length e ds i h3 (by omega)])]
      simp only [window, List.getElem_drop, List.getElem_map, List.getElem_take, List.length_drop, List.length_map,
        List.length_take]
      have e1 : i + 1 - 3 + 3 = i + 1 := by omega
      simp only [e1, List.getElem_singleton]

/-- **C148** An update to any day of the file but the first three is served, from every position at a day of the file. -/
theorem update_served (e : Ext) (tail : List Char) (ht : TailOk tail) (first : Int) (ds : List Day)
    (hok : ∀ d ∈ ds, d.Ok e) (hd : Daily e first ds) (j : Junk) (i sec : Nat) (f : Feed)
    (hf : Serves e first ds i sec f) (hp : Ready ds.length f.fpos) (k sec' : Nat) (h3 : 3 ≤ k) (hk : k < ds.length)
    (hs : sec' < 86400) :
    ∃ f', update e (some (fileOf tail ds)) j f (first + k) sec' = .ok f' ∧ Serves e first ds k sec' f' ∧
      f'.fpos = if k = i then f.fpos else nextPos ds.length k := by
  have h0 : sec' / 86400 = 0 := Nat.div_eq_of_lt hs
  have hdiv : sec' / 3600 / 3 = sec' / 10800 := Nat.div_div_eq_div_mul _ _ _
  obtain ⟨hm, hfl, hc, i3, iN, hpar⟩ := hf
  unfold update
  simp only [h0, hdiv, Nat.cast_zero, add_zero, hm]
  by_cases hki : k = i
  · subst hki
    rw [if_pos rfl]
    by_cases hchi : sec' / 10800 = f.chi
    · rw [if_pos hchi]
      refine ⟨f, rfl, ⟨hm, hfl, hchi.symm, h3, hk, ?_⟩, by simp⟩
      rw [hpar]
      unfold wanted
      rw [hchi, hc]
    · rw [if_neg hchi, hfl, init_window e ds hok k sec' h3 hk hs]
      exact ⟨_, rfl, ⟨rfl, rfl, rfl, h3, hk, rfl⟩, by simp⟩
  · rw [if_neg (by omega), if_neg hki]
    by_cases hnext : k = i + 1
    · subst hnext
      rw [if_pos (by push_cast; ring)]
      have hpw := parse_written e tail ht first ds hok hd f.fpos hp j.buf (i + 1) 0 0 (by omega) (by omega) [j.flux]
        (by simp)
      have hg : getNext e (some (fileOf tail ds)) j.buf (first + ((i + 1 : Nat) : Int)) j.flux f.flux f.fpos =
          .ret 0 (window e ds (i + 1)) (nextPos ds.length (i + 1)) := by
        unfold getNext
        rw [hpw]
        simp only [ne_eq, not_true_eq_false, if_false, Nat.add_zero]
        rw [hfl, window_next e ds i i3 hk]
      simp only [hg, ne_eq, not_true_eq_false, if_false, init_window e ds hok (i + 1) sec' h3 hk hs]
      exact ⟨_, rfl, ⟨rfl, rfl, rfl, h3, hk, rfl⟩, rfl⟩
    · rw [if_neg (by omega)]
      have hl : f.flux.length = 4 := by rw [hfl, window_length e ds i i3 iN]
      have hpw := parse_written e tail ht first ds hok hd f.fpos hp j.buf k 3 0 h3 (by omega) f.flux (by omega)
      rw [given_window e ds k _ hl] at hpw
      simp only [hpw, ne_eq, not_true_eq_false, if_false, init_window e ds hok k sec' h3 hk hs]
      exact ⟨_, rfl, ⟨rfl, rfl, rfl, h3, hk, rfl⟩, rfl⟩

theorem ready_next (count m : Nat) (h : m + 2 ≠ count) : Ready count (nextPos count m) := by
  unfold nextPos
  split
  · exact .inr ⟨m + 3, by omega, by omega, rfl⟩
  · exact .inl rfl

/-- Updates one after the other; `none` when one of them does not succeed. -/
def updates (e : Ext) (file : List Line) (j : Junk) (first : Int) : Feed → List (Nat × Nat) → Option Feed
  | f, [] => some f
  | f, (k, s) :: rest =>
    match update e (some file) j f (first + k) s with
    | .ok f' => updates e file j first f' rest
    | _ => none

/-- **C148** Any sequence of requests, forwards and backwards, is served with the values of the file, as long as none is
for the last day but one. -/
theorem updates_served_partial (e : Ext) (tail : List Char) (ht : TailOk tail) (first : Int) (ds : List Day)
    (hok : ∀ d ∈ ds, d.Ok e) (hd : Daily e first ds) (j : Junk) (rs : List (Nat × Nat))
    (hr : ∀ r ∈ rs, 3 ≤ r.1 ∧ r.1 < ds.length ∧ r.1 + 2 ≠ ds.length ∧ r.2 < 86400) (i sec : Nat) (f : Feed)
    (hf : Serves e first ds i sec f) (hp : Ready ds.length f.fpos) :
    ∃ f', updates e (fileOf tail ds) j first f rs = some f' ∧
      Serves e first ds (rs.getLast?.getD (i, sec)).1 (rs.getLast?.getD (i, sec)).2 f' := by
  induction rs generalizing i sec f with
  | nil => exact ⟨f, rfl, hf⟩
  | cons r rs ih =>
    obtain ⟨k, s⟩ := r
    have h1 := hr (k, s) (by simp)
    obtain ⟨f1, hu, hs1, hp1⟩ := update_served e tail ht first ds hok hd j i sec f hf hp k s h1.1 h1.2.1 h1.2.2.2
    have hr1 : Ready ds.length f1.fpos := by
      rw [hp1]
      split
      · exact hp
      · exact ready_next _ _ h1.2.2.1
    obtain ⟨f2, hu2, hs2⟩ := ih (fun r hm => hr r (by simp [hm])) k s f1 hs1 hr1
    refine ⟨f2, ?_, ?_⟩
    · simp only [updates, hu, hu2]
    · rw [List.getLast?_cons]
      simpa using hs2

/-- After the last day but one the position is behind the last line; then every update to another day of the file is
refused, the last day included.  The refused update resets the position, so the same update succeeds when it is asked for
once more. -/
theorem last_day_counterexample (e : Ext) (tail : List Char) (ht : TailOk tail) (first : Int) (ds : List Day)
    (hok : ∀ d ∈ ds, d.Ok e) (hd : Daily e first ds) (j : Junk) (hn : 5 ≤ ds.length) (sec k sec' : Nat)
    (hs : sec < 86400) (h3 : 3 ≤ k) (hk : k < ds.length) (hne : k ≠ ds.length - 2) (hs' : sec' < 86400) :
    ∃ f g, construct e (some (fileOf tail ds)) j (first + ((ds.length - 2 : Nat) : Int)) sec = some (.ok f) ∧
      update e (some (fileOf tail ds)) j f (first + k) sec' = .fail g ∧
      ∃ h, update e (some (fileOf tail ds)) j g (first + k) sec' = .ok h ∧ Serves e first ds k sec' h := by
  obtain ⟨f, hc, hf, hp⟩ := construct_served e tail ht first ds hok hd j (ds.length - 2) sec (by omega) (by omega) hs
  have hpos : f.fpos = .line (ds.length + 1) := by
    rw [hp, nextPos, if_pos (by omega)]
    congr 1
    omega
  refine ⟨f, { f with fpos := .top }, hc, ?_, ?_⟩
  · unfold update
    simp only [Nat.div_eq_of_lt hs', Nat.cast_zero, add_zero, hf.mjd, hpos]
    rw [if_neg (by omega)]
    have hg : getNext e (some (fileOf tail ds)) j.buf (first + k) j.flux f.flux (.line (ds.length + 1)) =
        .ret 1 f.flux .top := by
      unfold getNext
      rw [parse_at_end]
      simp
    rw [parse_at_end, hg]
    split
    · rename_i h
      split at h <;> cases h
    · rename_i st flux fpos h
      split at h <;> cases h <;> simp
  · obtain ⟨h, hu, hs, _⟩ := update_served e tail ht first ds hok hd j (ds.length - 2) sec { f with fpos := .top }
      ⟨hf.mjd, hf.flux, hf.chi, hf.params⟩ (.inl rfl) k sec' h3 hk hs'
    exact ⟨h, hu, hs⟩

/-! ### Lines the reader does not read as they are meant -/

theorem resolve_fill (e : Ext) (b : Buf) (t : List Char) (h : '\x00' ∉ t) (hl : 10 ≤ t.length) :
    resolve e (fill b t) = resolve e (fill [] t) := by
  unfold resolve
  rw [dateOf_fill e b _ hl, dateOf_fill e [] _ hl, cstr_fill b _ h, cstr_fill [] _ h]

/-- A day with the same value in all columns, whole numbers. -/
def exDay (dd : Nat) (a : Int) (x : Nat) : Day :=
  { year := 2020, month := 1, day := dd, early := List.replicate 11 ['1'], ap := List.replicate 8 a,
    apAvg := ⟨intText a, a⟩, cp := ['0'], c9 := ['0'], isn := ['0'], obs := ⟨intText x, x⟩, adj := ⟨intText x, x⟩,
    type := ['O', 'B', 'S'], obsC81 := ⟨intText x, x⟩, obsL81 := ⟨intText x, x⟩, adjC81 := ⟨intText x, x⟩,
    adjL81 := intText x }

/-- Column CP may be empty in the files.  Then its comma is not counted, the columns are taken one further to the right,
and the line is refused, since the column of the adjusted value is then read as the observed one and the type as a number. -/
theorem empty_cp_counterexample (b : Buf) :
    resolve exExt (fill b (exDay 1 5 70).line.text) = .ok ((exDay 1 5 70).flux exExt) ∧
      resolve exExt (fill b { exDay 1 5 70 with cp := [] }.line.text) = .fail := by
  refine ⟨?_, ?_⟩
  · rw [resolve_fill _ b _ (by decide +kernel) (by decide +kernel)]
    decide +kernel
  · rw [resolve_fill _ b _ (by decide +kernel) (by decide +kernel)]
    decide +kernel

/-- A line of the monthly predictions, as the files have them at their end: the 3-hour values are missing. -/
def exMonthly : Line :=
  ⟨"2020-01-06,2670,1,,,,,,,,,,,,,,,,,,,,,,62.4,70,69,PRM,70,70,70,70".toList, true⟩

/-- Lines without 3-hour values are refused. -/
theorem monthly_counterexample (b : Buf) : resolve exExt (fill b exMonthly.text) = .fail := by
  rw [resolve_fill _ b _ (by decide +kernel) (by decide +kernel)]
  decide +kernel

/-! ### Examples -/

theorem exNum_ok (z : Int) (h1 : -2147483648 ≤ z) (h2 : z ≤ 2147483647) : Num.Ok exExt ⟨intText z, z⟩ := by
  refine ⟨intText_nul z, fun r hr => ?_⟩
  simp only [exExt, fromCharsI_int z r hr h1 h2, List.drop_left]

theorem exDay_ok (dd : Nat) (a : Int) (x : Nat) (hd : dd < 100) (ha : 0 ≤ a ∧ a < 1000) (hx : x < 1000)
    (hf : (exDay dd a x).line.text.length ≤ 511) : (exDay dd a x).Ok exExt where
  year := show 2020 < 10000 by decide
  month := show 1 < 100 by decide
  day := hd
  early := ⟨rfl, fun t ht => by
    have : t = ['1'] := List.eq_of_mem_replicate ht
    rw [this]; unfold Free; decide⟩
  ap := ⟨rfl, fun y hy => by
    have : y = a := List.eq_of_mem_replicate hy
    omega⟩
  apAvg := exNum_ok a (by omega) (by omega)
  cp := show Free ['0'] ∧ ['0'] ≠ [] by unfold Free; decide
  c9 := show Free ['0'] by unfold Free; decide
  isn := show Free ['0'] by unfold Free; decide
  obs := exNum_ok x (by omega) (by omega)
  adj := exNum_ok x (by omega) (by omega)
  type := show '\x00' ∉ ['O', 'B', 'S'] ∧ ['O', 'B', 'S'].length = 3 by decide
  obsC81 := exNum_ok x (by omega) (by omega)
  obsL81 := exNum_ok x (by omega) (by omega)
  adjC81 := exNum_ok x (by omega) (by omega)
  adjL81 := intText_nul x
  fits := hf

/-- Six days. -/
def exDays : List Day := [exDay 1 1 70, exDay 2 2 71, exDay 3 3 72, exDay 4 4 73, exDay 5 5 74, exDay 6 6 75]

example : (∀ d ∈ exDays, d.Ok exExt) ∧ Daily exExt 1 exDays ∧ TailOk ['\r'] := by
  refine ⟨?_, ?_, by unfold TailOk; decide +kernel⟩
  · intro d hd
    simp only [exDays, List.mem_cons, List.not_mem_nil, or_false] at hd
    rcases hd with rfl | rfl | rfl | rfl | rfl | rfl <;>
      exact exDay_ok _ _ _ (by decide) (by decide) (by decide) (by decide +kernel)
  · unfold Daily
    decide +kernel

/-- The days one after the other: the fifth is served, the sixth refused at first. -/
example : (match construct exExt (some (fileOf ['\r'] exDays)) exJunk 4 0 with
    | some (.ok f) => (match update exExt (some (fileOf ['\r'] exDays)) exJunk f 5 20000 with
      | .ok g => (g.params.arr, match update exExt (some (fileOf ['\r'] exDays)) exJunk g 6 0 with
        | .fail g' => (g'.mjd, match update exExt (some (fileOf ['\r'] exDays)) exJunk g' 6 0 with
          | .ok k => k.flux.map Flux.mjd
          | _ => [])
        | _ => (0, []))
      | _ => ([], 0, []))
    | _ => ([], 0, [])) = ([5, 5, 5, 4, 4, 15 / 4, 11 / 4], 5, [3, 4, 5, 6]) := by
  decide +kernel

/-- Forwards and backwards. -/
example : ∀ r ∈ [(5, 0), (3, 86399), (5, 7200)], 3 ≤ r.1 ∧ r.1 < exDays.length ∧ r.1 + 2 ≠ exDays.length ∧ r.2 < 86400 := by
  decide

example : wanted exDays (exDay 6 6 75) (exDay 5 5 74) 5 7200 = ⟨75, 74, 6, [6, 6, 5, 5, 5, 37 / 8, 29 / 8]⟩ := by
  decide +kernel

end Verif.SpaceWeather.Write
