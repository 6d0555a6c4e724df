import Verif.Rinex.HeaderInv
import Verif.Rinex.StreamLemmas
import Mathlib.Data.List.Perm.Basic

/-
C13 (consistency of an accepted header), C14 (label dispatch), C15 (independence from what is
left in the line buffer).
-/
namespace Verif.Rinex
open Verif.Text Verif.SystemInfo

/-! ### C14 -/

/-- No recognised label begins another one. -/
theorem labels_prefix_free (l₁ l₂ : Label) (h : l₁.text <+: l₂.text) : l₁ = l₂ := by
  revert h
  cases l₁ <;> cases l₂ <;> decide

/-- **C14.** No line matches two labels. -/
theorem label_unique (b : Buf) (l₁ l₂ : Label) (h₁ : labelAt b l₁.text = true)
    (h₂ : labelAt b l₂.text = true) : l₁ = l₂ := by
  unfold labelAt at h₁ h₂
  rw [beq_iff_eq] at h₁ h₂
  have p₁ : l₁.text <+: b.drop 60 := h₁ ▸ List.take_prefix _ _
  have p₂ : l₂.text <+: b.drop 60 := h₂ ▸ List.take_prefix _ _
  rcases List.prefix_or_prefix_of_prefix p₁ p₂ with h | h
  · exact labels_prefix_free l₁ l₂ h
  · exact (labels_prefix_free l₂ l₁ h).symm

/-- **C14.** The branch taken is the matching label, whatever the order of the tests. -/
theorem dispatch_iff (ls : List Label) (b : Buf) (l : Label) :
    dispatch ls b = some l ↔ l ∈ ls ∧ labelAt b l.text = true := by
  unfold dispatch
  constructor
  · intro h
    exact ⟨List.mem_of_find?_eq_some h, List.find?_some (p := fun l : Label => labelAt b l.text) h⟩
  · rintro ⟨hm, hl⟩
    cases hf : ls.find? (fun l => labelAt b l.text) with
    | none =>
      rw [List.find?_eq_none] at hf
      exact absurd hl (hf l hm)
    | some l' =>
      have := List.find?_some (p := fun l : Label => labelAt b l.text) hf
      rw [label_unique b l' l this hl]

theorem dispatch_order_irrelevant (ls : List Label) (hp : ls.Perm Label.order) (b : Buf) :
    dispatch ls b = dispatch Label.order b := by
  apply Option.ext
  intro l
  rw [dispatch_iff, dispatch_iff, hp.mem_iff]

/-- Every label is tested for. -/
theorem order_complete (l : Label) : l ∈ Label.order := by cases l <;> decide

/-- A line of at least 60 characters is dispatched to `l` exactly when `l`'s text starts at
column 60 of the line. -/
theorem dispatch_line (st line : List Char) (h : 60 ≤ line.length) (l : Label) :
    dispatch Label.order (fill st line) = some l ↔ l.text <+: line.drop 60 := by
  rw [dispatch_iff, labelAt_fill st line _ l.text_no_nul h]
  simp [order_complete l]

/-- The labels of the DORIS RINEX format (columns 61-80 of the header lines read), each with what it announces. -/
def formatLabels : List (String × Label) :=
  [("SATELLITE NAME      ", .satelliteName), ("COSPAR NUMBER       ", .cosparNumber),
   ("MARKER TYPE         ", .markerType), ("OBSERVER / AGENCY   ", .observerAgency),
   ("REC # / TYPE / VERS ", .receiver), ("ANT # / TYPE        ", .antenna),
   ("APPROX POSITION XYZ ", .approxPosition), ("CENTER OF MASS: XYZ ", .centerOfMass),
   ("SYS / # / OBS TYPES ", .obsTypes), ("TIME OF FIRST OBS   ", .firstObs),
   ("SYS / DCBS APPLIED  ", .dcbs), ("SYS / SCALE FACTOR  ", .scaleFactor),
   ("L2 / L1 DATE OFFSET ", .l12Offset), ("# OF STATIONS       ", .numStations),
   ("STATION REFERENCE   ", .stationReference), ("# TIME REF STATIONS ", .numTimeRef),
   ("TIME REF STATION    ", .timeRefStation), ("TIME REF STAT DATE  ", .timeRefDate),
   ("RCV CLOCK OFFS APPL ", .rcvClock), ("END OF HEADER       ", .endOfHeader)]

/-- Every label of the format is recognised, behind whatever the first 60 columns hold. -/
theorem format_labels (st line : List Char) (h : line.length = 60) (t : String) (l : Label) (hl : (t, l) ∈ formatLabels) :
    dispatch Label.order (fill st (line ++ t.toList)) = some l := by
  rw [dispatch_line _ _ (by simp [h])]
  rw [List.drop_append_of_le_length (by omega), List.drop_of_length_le (by omega), List.nil_append]
  have : ∀ p ∈ formatLabels, p.2.text <+: p.1.toList := by decide +kernel
  exact this (t, l) hl

/-- All labels occur in the list of the format. -/
theorem format_labels_all (l : Label) : ∃ t, (t, l) ∈ formatLabels ∧ t.length = 20 := by
  cases l <;> simp [formatLabels] <;> decide

example : dispatch Label.order
    (fill [] (List.replicate 60 ' ' ++ "TIME REF STAT DATE  ".toList)) = some .timeRefDate := by
  decide

/-! ### C13 -/

/-- What a caller may rely on after `read_header` returned 0. -/
structure Consistent (h : Hdr) : Prop where
  /-- as many codes as announced -/
  codes : (h.codes.length : Int) = h.obsTypesNum
  /-- one scale factor per code, none of them zero -/
  scaleLen : h.scale.length = h.codes.length
  scaleNe : ∀ x ∈ h.scale, x ≠ 0
  /-- carrier codes have frequency 1 or 2, others 0 -/
  codesOk : ∀ a ∈ h.codes,
    if hasFrequency a.type then a.freq = 1 ∨ a.freq = 2 else a.freq = 0
  /-- as many beacons as announced -/
  stations : (h.stations.length : Int) = h.numStations
  /-- reference beacons are listed beacons, and not all of them -/
  refs : ∀ r ∈ h.refs, ∃ s ∈ h.stations, s.internalCode = r.code
  refsLen : h.refs.length < h.stations.length

theorem hinv_init (v : Rat) : HInv { version := v } := by
  constructor <;> simp

theorem headerLoop_inv (e : Ext) (fuel : Nat) : ∀ (s : Stream) (b : Buf) (h : Hdr) (h' : Hdr)
    (s' : Stream), HInv h → headerLoop e fuel s b h = .ok (h', s') → HInv h' := by
  induction fuel with
  | zero => intro s b h h' s' _ hl; simp [headerLoop] at hl
  | succ fuel ih =>
    intro s b h h' s' hi hl
    simp only [headerLoop] at hl
    split at hl
    · simp at hl
    · split at hl
      · simp at hl
      · split at hl
        · exact ih _ _ _ _ _ hi hl
        · split at hl
          · simp at hl
            exact hl.1 ▸ hi
          · simp at hl
        · split at hl
          · simp at hl
          · rename_i h1 hs
            exact ih _ _ _ _ _ (onLabel_inv e _ h h1 _ hi hs) hl

theorem code_ok_of_make {t : ObsType} {f : Int} {a : ObsCode} (h : ObsCode.make t f = some a) :
    if hasFrequency a.type then a.freq = 1 ∨ a.freq = 2 else a.freq = 0 := by
  unfold ObsCode.make at h
  simp only at h
  split at h
  · rename_i ht
    split at h
    · simp at h
    · simp at h; subst h
      simp only [ht, if_true]
      omega
  · rename_i ht
    simp at h; subst h
    simp [ht]

/-- **C13.** A header that was read successfully is consistent. -/
theorem header_consistent (e : Ext) (b0 : Buf) (s s' : Stream) (h : Hdr)
    (hr : readHeader e b0 s = .ok (h, s')) : Consistent h := by
  unfold readHeader at hr
  split at hr
  · simp at hr
  · simp only at hr
    split at hr
    · simp at hr
    · split at hr
      · simp at hr
      · split at hr
        · simp at hr
        · split at hr
          · simp at hr
          · split at hr
            · simp at hr
            · rename_i h1 s1 hl
              split at hr
              · rename_i hf
                simp at hr
                obtain ⟨rfl, rfl⟩ := hr
                have hi := headerLoop_inv e _ _ _ _ _ _ (hinv_init _) hl
                simp only [finalChecks, Bool.and_eq_true, beq_iff_eq, decide_eq_true_eq] at hf
                obtain ⟨⟨⟨f1, f2⟩, f3⟩, f4⟩ := hf
                exact ⟨f2.symm, f1.symm, hi.scaleNe,
                  fun a ha => by
                    obtain ⟨t, f, hm⟩ := hi.codesValid a ha
                    exact code_ok_of_make hm,
                  f3.symm, hi.refsListed, f4⟩
              · simp at hr

/-! ### C15 -/

/-- Lines with a label field: at least 60 characters. -/
def Wide (s : Stream) : Prop := ∀ l ∈ s.lines, 60 ≤ l.text.length

theorem getline_cases (s : Stream) (b : Buf) (hw : Wide s) :
    (∃ st line, 60 ≤ line.length ∧ (getline 81 s b).2 = fill st line ∧
      (∀ b', (getline 81 s b').2 = fill b' line) ∧ st = b ∧
      ∃ l ∈ s.lines, line = l.text.take 80) ∨ (getline 81 s b).1.fail = true := by
  unfold getline
  by_cases hg : s.good = false
  · simp [hg]
  · simp only [hg, if_false, Bool.false_eq_true]
    cases hl : s.lines with
    | nil => simp
    | cons l rest =>
      have h60 : 60 ≤ l.text.length := hw l (by simp [hl])
      left
      simp only
      by_cases hlen : l.text.length > 81 - 1
      · refine ⟨b, l.text.take (81 - 1), by simp; omega, by simp [hlen], by simp [hlen], rfl, l,
          by simp, rfl⟩
      · refine ⟨b, l.text, h60, by simp [hlen], by simp [hlen], rfl, l, by simp, ?_⟩
        rw [List.take_of_length_le (by omega)]

theorem getline_sub {s : Stream} {b : Buf} (hf : (getline 81 s b).1.fail = false) :
    ∀ x ∈ (getline 81 s b).1.lines, x ∈ s.lines := by
  obtain ⟨l, rest, hl, -, -, he⟩ := getline_ok hf
  intro x hx
  rw [he] at hx
  rw [hl]
  exact List.mem_cons_of_mem _ hx

theorem getline_wide (s : Stream) (b : Buf) (hw : Wide s) (hf : (getline 81 s b).1.fail = false) :
    Wide (getline 81 s b).1 := fun x hx => hw x (getline_sub hf x hx)

theorem headerLoop_buf (e : Ext) (fuel : Nat) : ∀ (s : Stream) (b b' : Buf) (h : Hdr),
    Wide s → HInv h → headerLoop e fuel s b h = headerLoop e fuel s b' h := by
  induction fuel with
  | zero => intros; rfl
  | succ fuel ih =>
    intro s b b' h hw hi
    simp only [headerLoop]
    rw [getline_stream 81 s b' b]
    split
    · rfl
    · split
      · rfl
      · rename_i hf
        rcases getline_cases s b hw with ⟨st, line, h60, -, h2, -, -⟩ | h1
        · have hw' := getline_wide s b hw (by simpa using hf)
          have e1 := h2 b
          have e2 := h2 b'
          rw [e1, e2, dispatch_fill _ b line h60, dispatch_fill _ b' line h60]
          split
          · exact ih _ _ _ _ hw' hi
          · rfl
          · rw [onLabel_fill e b line h _ h60 hi.codesLen, onLabel_fill e b' line h _ h60 hi.codesLen]
            split
            · rfl
            · rename_i h1 hs
              exact ih _ _ _ _ hw' (onLabel_inv e _ h h1 _ hi hs)
        · exact absurd h1 hf

/-- **C15 (partial).** When every line has its label field (at least 60 characters) and there
is at least one line, the outcome does not depend on what the line buffer held before.

Missing: files with shorter lines, for which the claim fails
(`stale_label_counterexample`). -/
theorem header_buffer_independent_partial (e : Ext) (b0 b0' : Buf) (s : Stream) (hw : Wide s)
    (hne : s.lines ≠ []) : readHeader e b0 s = readHeader e b0' s := by
  unfold readHeader
  split
  · rfl
  · rename_i hg
    obtain ⟨l, rest, hl⟩ : ∃ l rest, s.lines = l :: rest := by
      cases hl : s.lines with
      | nil => exact absurd hl hne
      | cons l rest => exact ⟨l, rest, rfl⟩
    have h60 : 60 ≤ l.text.length := hw l (by simp [hl])
    have key : ∃ line, 60 ≤ line.length ∧ ∀ b, (getline 81 s b).2 = fill b line := by
      unfold getline
      simp only [hg, if_false, Bool.false_eq_true, hl]
      by_cases hlen : l.text.length > 81 - 1
      · exact ⟨l.text.take (81 - 1), by simp; omega, by simp [hlen]⟩
      · exact ⟨l.text, h60, by simp [hlen]⟩
    obtain ⟨line, hline, hb⟩ := key
    have n1 : '\x00' ∉ "RINEX VERSION / TYPE".toList := by decide
    have n2 : '\x00' ∉ "PGM / RUN BY / DATE".toList := by decide
    simp only [hb, getline_stream 81 s b0' b0]
    rw [labelAt_fill' b0 line _ n1 hline, labelAt_fill' b0' line _ n1 hline]
    split
    · rfl
    · rename_i hv
      rw [cstr_fill' b0 line 0 (by omega), cstr_fill' b0' line 0 (by omega)]
      split
      · rfl
      · rw [getD_fill b0 line 20 (by omega), getD_fill b0' line 20 (by omega),
          getD_fill b0 line 40 (by omega), getD_fill b0' line 40 (by omega)]
        split
        · rfl
        · by_cases hf1 : (getline 81 s b0).1.good = false ∨ (getline 81 s b0).1.lines = []
          · -- the second `getline` stores nothing: the first line's label is still there
            have hpre : ∀ b, labelAt (fill (fill b line) []) "PGM / RUN BY / DATE".toList = false := by
              intro b
              have hv' : "RINEX VERSION / TYPE".toList <+: line.drop 60 := by
                rw [← labelAt_fill [] line _ n1 hline]
                simpa using hv
              obtain ⟨t, ht⟩ := hv'
              unfold labelAt fill
              have hd : (([] : List Char) ++ '\x00' :: List.drop (([] : List Char).length + 1)
                  (line ++ '\x00' :: List.drop (line.length + 1) b)).drop 60 =
                  (line ++ '\x00' :: List.drop (line.length + 1) b).drop 60 := by
                simp
              rw [hd]
              rw [List.drop_append_of_le_length hline, ← ht]
              simp
            have hsecond : ∀ b, (getline 81 (getline 81 s b0).1 (fill b line)).2 =
                fill (fill b line) [] := by
              intro b
              by_cases h' : (getline 81 s b0).1.good = false
              · rw [getline_bad _ h']
              · rcases hf1 with h | h
                · exact absurd h h'
                · rw [getline_end _ (by simpa using h') h]
            simp only [hsecond, hpre]
            rfl
          · have hs1 : (getline 81 s b0).1.fail = false := by
              cases hx : (getline 81 s b0).1.fail with
              | false => rfl
              | true => exact absurd (Or.inl (by simp [Stream.good, hx])) hf1
            have hw1 := getline_wide s b0 hw hs1
            have hg1 : ¬ (getline 81 s b0).1.good = false := fun h => hf1 (Or.inl h)
            obtain ⟨l2, rest2, hl2⟩ : ∃ l2 rest2, (getline 81 s b0).1.lines = l2 :: rest2 := by
              cases hl2 : (getline 81 s b0).1.lines with
              | nil => exact absurd (Or.inr hl2) hf1
              | cons l2 rest2 => exact ⟨l2, rest2, rfl⟩
            have h602 : 60 ≤ l2.text.length := hw1 l2 (by simp [hl2])
            generalize (getline 81 s b0).1 = s1 at *
            have key2 : ∃ line2, 60 ≤ line2.length ∧ ∀ b, (getline 81 s1 b).2 = fill b line2 := by
              unfold getline
              simp only [hg1, if_false, Bool.false_eq_true, hl2]
              by_cases hlen : l2.text.length > 81 - 1
              · exact ⟨l2.text.take (81 - 1), by simp; omega, by simp [hlen]⟩
              · exact ⟨l2.text, h602, by simp [hlen]⟩
            obtain ⟨line2, hline2, hb2⟩ := key2
            simp only [hb2, getline_stream 81 s1 (fill b0' line) (fill b0 line)]
            rw [labelAt_fill' _ line2 _ n2 hline2, labelAt_fill' (fill b0' line) line2 _ n2 hline2]
            split
            · rfl
            · have hloop : ∀ v, headerLoop e ((getline 81 s1 (fill b0 line)).1.lines.length + 1)
                  (getline 81 s1 (fill b0 line)).1 (fill (fill b0 line) line2) { version := v } =
                headerLoop e ((getline 81 s1 (fill b0 line)).1.lines.length + 1)
                  (getline 81 s1 (fill b0 line)).1 (fill (fill b0' line) line2) { version := v } := by
                intro v
                by_cases hf2 : (getline 81 s1 (fill b0 line)).1.fail = true
                · simp [headerLoop, hf2]
                · exact headerLoop_buf e _ _ _ _ _ (getline_wide s1 _ hw1 (by simpa using hf2))
                    (hinv_init v)
              rw [hloop]

/-! ### C13: the beacon list is exactly what the file lists -/

/-- The beacon described by a line, if it is a STATION REFERENCE line. -/
def stationOf (l : Line) : Option Beacon :=
  if "STATION REFERENCE".toList <+: l.text.drop 60 then
    (Beacon.setFromRinexLine (l.text.takeWhile (· != '\x00'))).toOption
  else none

/-- The line closes the header. -/
def IsEnd (l : Line) : Prop := "END OF HEADER".toList <+: l.text.drop 60

theorem onLabel_stations {e : Ext} {b : Buf} {h h' : Hdr} {l : Label}
    (hl : l ≠ .stationReference) (hs : onLabel e b h l = .ok h') : h'.stations = h.stations := by
  cases l
  case stationReference => exact absurd rfl hl
  case obsTypes =>
    simp only [onLabel, onObsTypes] at hs
    repeat' (split at hs)
    all_goals first
      | (simp at hs; done)
      | (simp at hs; subst hs; rfl)
  case scaleFactor =>
    simp only [onLabel, onScaleFactor] at hs
    repeat' (split at hs)
    all_goals first
      | (simp at hs; done)
      | (simp at hs; subst hs; rfl)
  case timeRefStation =>
    simp only [onLabel, onTimeRefStation] at hs
    repeat' (split at hs)
    all_goals first
      | (simp at hs; done)
      | (simp at hs; subst hs; rfl)
  all_goals
    simp only [onLabel] at hs
    repeat' (split at hs)
    all_goals first
      | (simp at hs; done)
      | (simp at hs; subst hs; rfl)

theorem stationOf_label {l : Line} {lab : Label} (h : lab.text <+: l.text.drop 60)
    (hne : lab ≠ .stationReference) : stationOf l = none := by
  unfold stationOf
  rw [if_neg]
  intro h'
  rcases List.prefix_or_prefix_of_prefix h h' with h1 | h1
  · exact hne (labels_prefix_free lab .stationReference h1)
  · exact hne (labels_prefix_free .stationReference lab h1).symm

theorem headerLoop_stations (e : Ext) (fuel : Nat) : ∀ (s : Stream) (b : Buf) (h h' : Hdr)
    (s' : Stream), Wide s → headerLoop e fuel s b h = .ok (h', s') →
    ∃ pre last post, s.lines = pre ++ last :: post ∧ s' = Stream.open post ∧ IsEnd last ∧
      (∀ l ∈ pre, ¬ IsEnd l) ∧ h'.stations = h.stations ++ pre.filterMap stationOf := by
  induction fuel with
  | zero => intro s b h h' s' _ hl; simp [headerLoop] at hl
  | succ fuel ih =>
    intro s b h h' s' hw hl
    simp only [headerLoop] at hl
    split at hl
    · simp at hl
    · split at hl
      · simp at hl
      · rename_i hf
        have hf' : (getline 81 s b).1.fail = false := by simpa using hf
        obtain ⟨l, rest, hlines, hgood, hlen, hget⟩ := getline_ok hf'
        have h60 : 60 ≤ l.text.length := hw l (by simp [hlines])
        have hw' : Wide ⟨rest, false, !l.eol⟩ := fun x hx =>
          hw x (by rw [hlines]; exact List.mem_cons_of_mem _ hx)
        rw [hget] at hl
        simp only at hl
        split at hl
        · -- ignored line
          rename_i hd
          have hno : ∀ lab : Label, ¬ lab.text <+: l.text.drop 60 := by
            intro lab hp
            rw [(dispatch_line b l.text h60 lab).2 hp] at hd
            simp at hd
          obtain ⟨pre, last, post, e1, e2, e3, e4, e5⟩ := ih _ _ _ _ _ hw' hl
          refine ⟨l :: pre, last, post, by simp only at e1; rw [hlines, e1]; rfl, e2, e3, ?_, ?_⟩
          · intro x hx
            rcases List.mem_cons.1 hx with rfl | hx
            · exact hno .endOfHeader
            · exact e4 x hx
          · have : stationOf l = none := by
              unfold stationOf
              exact if_neg (hno .stationReference)
            rw [e5, List.filterMap_cons, this]
        · -- END OF HEADER
          rename_i hd
          split at hl
          · rename_i hg
            simp at hl
            obtain ⟨rfl, rfl⟩ := hl
            refine ⟨[], l, rest, by simp [hlines], ?_, (dispatch_line b l.text h60 _).1 hd, by simp,
              by simp⟩
            simp only [Stream.good, Bool.not_not, Bool.not_false, Bool.true_and] at hg
            simp [Stream.open, hg]
          · simp at hl
        · rename_i lab hend hd
          have hlab := (dispatch_line b l.text h60 lab).1 hd
          have hne : lab ≠ .endOfHeader := fun hh => hend (hh ▸ rfl)
          split at hl
          · simp at hl
          · rename_i h1 hs
            obtain ⟨pre, last, post, e1, e2, e3, e4, e5⟩ := ih _ _ _ _ _ hw' hl
            refine ⟨l :: pre, last, post, by simp only at e1; rw [hlines, e1]; rfl, e2, e3, ?_, ?_⟩
            · intro x hx
              rcases List.mem_cons.1 hx with rfl | hx
              · intro hx
                have := (dispatch_line b x.text h60 .endOfHeader).2 hx
                rw [this] at hd
                simp at hd
                exact hne hd.symm
              · exact e4 x hx
            · by_cases hst : lab = .stationReference
              · subst hst
                simp only [onLabel] at hs
                rw [cstr_fill b l.text 0 (by omega)] at hs
                simp only [List.drop_zero] at hs
                split at hs
                · simp at hs
                · rename_i bs hbs
                  simp at hs; subst hs
                  have : stationOf l = some bs := by
                    unfold stationOf
                    have hp : "STATION REFERENCE".toList <+: l.text.drop 60 := hlab
                    rw [if_pos hp, hbs]
                    rfl
                  rw [e5, List.filterMap_cons, this]
                  simp
              · rw [e5, List.filterMap_cons, stationOf_label hlab hst, onLabel_stations hst hs]

/-- **C13.** After a successful read of a file whose header lines have their label field, the
beacons are exactly those of the STATION REFERENCE lines before the first END OF HEADER line,
in file order, and the stream stands right after that line. -/
theorem header_stations_exact (e : Ext) (b0 : Buf) (s s' : Stream) (h : Hdr) (hw : Wide s)
    (hr : readHeader e b0 s = .ok (h, s')) :
    ∃ pre last post, s.lines = pre ++ last :: post ∧ s' = Stream.open post ∧ IsEnd last ∧
      (∀ l ∈ pre, ¬ IsEnd l) ∧ h.stations = pre.filterMap stationOf := by
  have noLab : ∀ (t : List Char) (l : Line), t <+: l.text.drop 60 →
      (∀ lab : Label, ¬ lab.text <+: t ∧ ¬ t <+: lab.text) →
      ¬ IsEnd l ∧ stationOf l = none := by
    intro t l ht hlab
    constructor
    · intro hend
      rcases List.prefix_or_prefix_of_prefix ht hend with h1 | h1
      · exact (hlab .endOfHeader).2 h1
      · exact (hlab .endOfHeader).1 h1
    · unfold stationOf
      rw [if_neg]
      intro hst
      rcases List.prefix_or_prefix_of_prefix ht hst with h1 | h1
      · exact (hlab .stationReference).2 h1
      · exact (hlab .stationReference).1 h1
  unfold readHeader at hr
  split at hr
  · simp at hr
  · simp only at hr
    split at hr
    · simp at hr
    · rename_i hv
      split at hr
      · simp at hr
      · split at hr
        · simp at hr
        · split at hr
          · simp at hr
          · rename_i hp
            split at hr
            · simp at hr
            · rename_i h1 s1 hl
              split at hr
              · simp at hr
                obtain ⟨rfl, rfl⟩ := hr
                generalize hs1 : (getline 81 s b0) = p1 at *
                by_cases hf2 : (getline 81 p1.1 p1.2).1.fail = true
                · simp [headerLoop, hf2] at hl
                have hf2' : (getline 81 p1.1 p1.2).1.fail = false := by simpa using hf2
                have hf1 : p1.1.fail = false := by
                  cases h : p1.1.fail with
                  | false => rfl
                  | true => exact absurd (getline_fail_mono h) hf2
                rw [← hs1] at hf1
                obtain ⟨l1, rest1, a1, -, -, a4⟩ := getline_ok hf1
                rw [hs1] at a4
                obtain ⟨l2, rest2, c1, -, -, c4⟩ := getline_ok hf2'
                rw [c4, a4] at hp
                rw [c4] at hl
                rw [a4] at hv c1 hl
                simp only at c1 hv hp hl
                have w1 : 60 ≤ l1.text.length := hw l1 (by simp [a1])
                have w2 : 60 ≤ l2.text.length := hw l2 (by simp [a1, c1])
                have w3 : Wide ⟨rest2, false, !l2.eol⟩ := fun x hx => hw x (by simp [a1, c1, hx])
                obtain ⟨pre, last, post, e1, e2, e3, e4, e5⟩ :=
                  headerLoop_stations e _ _ _ _ _ _ w3 hl
                have hv' := (labelAt_fill b0 l1.text "RINEX VERSION / TYPE".toList (by decide) w1).1
                  (by simpa using hv)
                have hp' := (labelAt_fill _ l2.text "PGM / RUN BY / DATE".toList (by decide) w2).1
                  (by simpa using hp)
                obtain ⟨n1, n2⟩ := noLab _ l1 hv' (by intro lab; cases lab <;> decide)
                obtain ⟨n3, n4⟩ := noLab _ l2 hp' (by intro lab; cases lab <;> decide)
                refine ⟨l1 :: l2 :: pre, last, post, ?_, e2, e3, ?_, ?_⟩
                · simp only at e1
                  rw [a1, c1, e1]; rfl
                · intro x hx
                  rcases List.mem_cons.1 hx with rfl | hx
                  · exact n1
                  · rcases List.mem_cons.1 hx with rfl | hx
                    · exact n3
                    · exact e4 x hx
                · simp [e5, n2, n4]
              · simp at hr

/-! ### C15: accesses -/

theorem headerLoop_ub (e : Ext) (fuel : Nat) : ∀ (s : Stream) (b : Buf) (h : Hdr),
    Wide s → HInv h → headerLoop e fuel s b h = .error .ub →
      ∃ l ∈ s.lines, ∀ i < 20, l.text[i]? = some ' ' := by
  induction fuel with
  | zero => intro s b h _ _ hl; simp [headerLoop] at hl
  | succ fuel ih =>
    intro s b h hw hi hl
    simp only [headerLoop] at hl
    split at hl
    · simp at hl
    · split at hl
      · simp at hl
      · rename_i hf
        have hf' : (getline 81 s b).1.fail = false := by simpa using hf
        have hw' := getline_wide s b hw hf'
        rcases getline_cases s b hw with ⟨st, line, h60, h1, -, -, l, hlm, hlt⟩ | h1
        · split at hl
          · obtain ⟨x, hx, hx'⟩ := ih _ _ _ hw' hi hl
            exact ⟨x, getline_sub hf' x hx, hx'⟩
          · split at hl <;> simp at hl
          · split at hl
            · rename_i x hx
              simp at hl; subst hl
              rw [h1] at hx
              have := onLabel_ub e st line h _ h60 hi.codesLen hx
              refine ⟨l, hlm, fun i hi => ?_⟩
              have := this i hi
              rw [hlt, List.getElem?_take_of_lt (by omega)] at this
              exact this
            · rename_i h2 hs
              obtain ⟨x, hx, hx'⟩ := ih _ _ _ hw' (onLabel_inv e _ h h2 _ hi hs) hl
              exact ⟨x, getline_sub hf' x hx, hx'⟩
        · exact absurd h1 hf

/-- **C15 (partial).** With such lines, the reader accesses memory outside the line buffer only
when some line starts with 20 blanks (a blank name field; see `blank_name_counterexample`). -/
theorem header_in_bounds_partial (e : Ext) (b0 : Buf) (s : Stream) (hw : Wide s)
    (hr : readHeader e b0 s = .error .ub) : ∃ l ∈ s.lines, ∀ i < 20, l.text[i]? = some ' ' := by
  unfold readHeader at hr
  split at hr
  · simp at hr
  · simp only at hr
    split at hr
    · simp at hr
    · split at hr
      · simp at hr
      · split at hr
        · simp at hr
        · split at hr
          · simp at hr
          · split at hr
            · rename_i x hx
              simp at hr; subst hr
              generalize hs1 : (getline 81 s b0) = p1 at *
              by_cases hf2 : (getline 81 p1.1 p1.2).1.fail = true
              · simp [headerLoop, hf2] at hx
              · have hf2' : (getline 81 p1.1 p1.2).1.fail = false := by simpa using hf2
                have hf1 : p1.1.fail = false := by
                  cases h : p1.1.fail with
                  | false => rfl
                  | true => exact absurd (getline_fail_mono h) hf2
                have hw1 : Wide p1.1 := by rw [← hs1] at hf1 ⊢; exact getline_wide s b0 hw hf1
                obtain ⟨x, hx1, hx2⟩ :=
                  headerLoop_ub e _ _ _ _ (getline_wide _ _ hw1 hf2') (hinv_init _) hx
                refine ⟨x, ?_, hx2⟩
                have := getline_sub hf2' x hx1
                rw [← hs1] at this hf1
                exact getline_sub hf1 x this
            · split at hr <;> simp at hr

/-! #### Witnesses -/

/-- External functions for the examples: every number reads as 1, every date as 0. -/
def ext1 : Ext := ⟨fun _ => some 1, fun _ => some 1, fun _ => some 0⟩

/-- `body` padded to 60 columns, then the label. -/
def mk (body label : String) : Line :=
  ⟨body.toList ++ List.replicate (60 - body.length) ' ' ++ label.toList, true⟩

/-- A small complete header. -/
def sampleHeader : List Line :=
  [mk "     3.00           O                   D" "RINEX VERSION / TYPE",
   mk "Expert   CNES" "PGM / RUN BY / DATE",
   mk "JASON-3" "SATELLITE NAME",
   mk "D    3 L1  C2  F" "SYS / # / OBS TYPES",
   mk "D  100  1 C2" "SYS / SCALE FACTOR",
   mk "     2" "# OF STATIONS",
   mk "D01  PAUB PAPEETE                       92201S010 3   0" "STATION REFERENCE",
   mk "D02  KRWB KOUROU                        97301S006 3  -3" "STATION REFERENCE",
   mk "     1" "# TIME REF STATIONS",
   mk "D02   0.0   0.0" "TIME REF STATION",
   mk "" "END OF HEADER"]

example : (match readHeader ext1 [] (Stream.open sampleHeader) with
    | .ok (h, _) => h.codes == [⟨.phase, 1⟩, ⟨.pseudorange, 2⟩, ⟨.frequencyOffset, 0⟩] &&
        h.scale == [1, 100, 1] && h.stations.length == 2 && h.refs.length == 1
    | .error _ => false) = true := by
  decide +kernel

example : Wide (Stream.open sampleHeader) := by
  have : ∀ l ∈ sampleHeader, 60 ≤ l.text.length := by decide +kernel
  exact this

/-- A blank line after a STATION REFERENCE line is taken for another station line (status 171),
while after an ignored line it is ignored: the outcome depends on the bytes left in the line
buffer. -/
theorem stale_label_counterexample :
    ∃ (prev₁ prev₂ : Line) (s : Stream) (h : Hdr),
      headerLoop ext1 2 s (fill [] prev₁.text) h = .error (.status 171) ∧
      headerLoop ext1 2 s (fill [] prev₂.text) h = .error (.status (-2)) :=
  ⟨mk "D01  PAUB" "STATION REFERENCE", mk "text" "COMMENT", Stream.open [⟨[], true⟩], {},
    rfl, rfl⟩

/-- The whole function on an empty file depends on uninitialised memory. -/
theorem empty_file_counterexample :
    ∃ b0 b0' : Buf, readHeader ext1 b0 (Stream.open []) ≠ readHeader ext1 b0' (Stream.open []) := by
  refine ⟨[], List.replicate 60 ' ' ++ "RINEX VERSION / TYPE".toList, ?_⟩
  have h1 : readHeader ext1 [] (Stream.open []) = .error (.status 10) := by rfl
  have h2 : readHeader ext1 (List.replicate 60 ' ' ++ "RINEX VERSION / TYPE".toList)
      (Stream.open []) = .error (.status 11) := by rfl
  rw [h1, h2]
  simp

/-- A blank satellite name makes `count_length_reverse` read `line[-1]`. -/
theorem blank_name_counterexample (h : Hdr) :
    onLabel ext1 (fill [] (mk "" "SATELLITE NAME").text) h .satelliteName = .error .ub := by
  rfl

end Verif.Rinex
