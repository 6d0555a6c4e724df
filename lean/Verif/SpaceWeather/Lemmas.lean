import Verif.SpaceWeather.Model
import Verif.Rinex.StreamLemmas
import Mathlib.Tactic.ByContra
import Mathlib.Data.List.Basic

namespace Verif.SpaceWeather

open Verif.Rinex Verif.Text

theorem dateOf_fill_nil (e : Ext) (b : Buf) : dateOf e (fill b []) = none := by
  have : fromCharsI (field (fill b []) 0 4) = none := by
    simp [field, fill, fromCharsI, scanDigits, isDigit]
  simp [dateOf, this]

/-- The buffer holds (the beginning of) line `l`; the stream is behind it. -/
def At (file : List Line) (s : Stream) (b : Buf) (pre : List Line) (l : Line) : Prop :=
  ∃ b0 rest, b = fill b0 (l.text.take 511) ∧ file = pre ++ l :: rest ∧
    (s.fail = false → s.lines = rest ∧ s.eof = !l.eol) ∧ (s.fail = true → l.text.length > 511)

/-- A line was read, if its date can be read. -/
theorem getline_at (e : Ext) (file : List Line) (s : Stream) (b : Buf) (pre : List Line)
    (hf : s.fail = false → file = pre ++ s.lines) (d : Int)
    (hd : dateOf e (getline 512 s b).2 = some d) :
    ∃ l, At file (getline 512 s b).1 (getline 512 s b).2 pre l ∧ s.good = true := by
  by_cases hg : s.good = true
  · have hfail : s.fail = false := by
      cases h : s.fail with
      | false => rfl
      | true => simp [Stream.good, h] at hg
    cases hl : s.lines with
    | nil =>
      rw [getline_end b hg hl] at hd
      rw [dateOf_fill_nil] at hd
      cases hd
    | cons l rest =>
      refine ⟨l, ?_, hg⟩
      by_cases hlen : l.text.length ≤ 511
      · rw [getline_good (cap := 512) b hg hl hlen]
        refine ⟨b, rest, ?_, by rw [← hl]; exact hf hfail, fun _ => ⟨rfl, rfl⟩, by simp⟩
        rw [List.take_of_length_le hlen]
      · refine ⟨b, rest, ?_, by rw [← hl]; exact hf hfail, ?_⟩
        · simp [getline, hg, hl, show l.text.length > 512 - 1 by omega]
        · refine ⟨?_, fun _ => by omega⟩
          simp [getline, hg, hl, show l.text.length > 512 - 1 by omega]
  · rw [getline_bad b (by simpa using hg), dateOf_fill_nil] at hd
    cases hd

/-- The search ends at a line with the wanted date. -/
theorem search_at (e : Ext) (file : List Line) (start : Int) (n : Nat) (s : Stream) (b : Buf)
    (cmjd : Int) (pre : List Line) (l : Line) (hat : At file s b pre l)
    (hd : dateOf e b = some cmjd) (s2 : Stream) (b2 : Buf)
    (h : search e start n s b cmjd = .ok (s2, b2)) :
    ∃ pre' l', At file s2 b2 pre' l' ∧ dateOf e b2 = some start := by
  induction n generalizing s b cmjd pre l with
  | zero =>
    unfold search at h
    split at h
    · rename_i hc
      cases h
      exact ⟨pre, l, hat, by rw [hd, hc]⟩
    · cases h
  | succ n ih =>
    unfold search at h
    split at h
    · rename_i hc
      cases h
      exact ⟨pre, l, hat, by rw [hd, hc]⟩
    · simp only at h
      split at h
      · cases h
      · rename_i hfail
        split at h
        · cases h
        · rename_i d hdd
          have hsf : s.fail = false := by
            cases hs : s.fail with
            | false => rfl
            | true => exact (hfail (getline_fail_mono hs)).elim
          obtain ⟨b0, rest, _, hfile, hl, _⟩ := hat
          have hlines := (hl hsf).1
          obtain ⟨l', hat', _⟩ := getline_at e file s b (pre ++ [l])
            (fun _ => by rw [hlines, hfile]; simp) d hdd
          exact ih _ _ d (pre ++ [l]) l' hat' hdd h

/-- One stored record: the line it was made from, and its contents. -/
structure From (e : Ext) (start : Int) (i : Nat) (l : Line) (f : Flux) : Prop where
  ex : ∃ b, dateOf e (fill b (l.text.take 511)) = some (start + i) ∧
    resolve e (fill b (l.text.take 511)) = .ok f

/-- What the record loop stores when it returns 0. -/
theorem store_ok (e : Ext) (file : List Line) (start : Int) (n cdi : Nat) (s : Stream) (b : Buf)
    (flux : List Flux) (pre : List Line) (l : Line) (hat : At file s b pre l)
    (hd : dateOf e b = some (start + cdi)) (hn : cdi + (n + 1) ≤ flux.length) (flux' : List Flux)
    (p : Pos) (h : store e file start (n + 1) cdi s b flux = .ret 0 flux' p) :
    ∃ (recs : List (Line × Flux)) (suf : List Line), 1 ≤ recs.length ∧ recs.length ≤ n + 1 ∧
      file = pre ++ recs.map Prod.fst ++ suf ∧
      flux' = flux.take cdi ++ recs.map Prod.snd ++ flux.drop (cdi + recs.length) ∧
      (∀ (i : Nat) (hi : i < recs.length), From e start (cdi + i) recs[i].1 recs[i].2) ∧
      (recs.length < n + 1 → p = .top ∧ ((∀ l ∈ file, l.eol = true ∧ l.text.length ≤ 511) → suf = [])) := by
  induction n generalizing cdi s b flux pre l with
  | zero =>
    unfold store at h
    split at h
    · cases h
    · cases h
    · rename_i f hres
      obtain ⟨b0, rest, hb, hfile, hl, hlong⟩ := hat
      have hset : flux.set cdi f = flux.take cdi ++ [f] ++ flux.drop (cdi + 1) := by
        rw [List.set_eq_take_append_cons_drop]
        simp [show cdi < flux.length by omega]
      have hfl : flux' = flux.set cdi f := by
        simp only at h
        split at h
        · cases h; rfl
        · split at h
          · unfold store at h; cases h; rfl
          · cases h
      refine ⟨[(l, f)], rest, by simp, by simp, by simp [hfile], by simp [hfl, hset], ?_, by simp⟩
      intro i hi
      have : i = 0 := by simpa using hi
      subst this
      exact ⟨b0, by simp only [List.getElem_singleton]; rw [← hb]; simpa using hd,
        by simp only [List.getElem_singleton]; rw [← hb]; exact hres⟩
  | succ n ih =>
    unfold store at h
    split at h
    · cases h
    · cases h
    · rename_i f hres
      obtain ⟨b0, rest, hb, hfile, hl, hlong⟩ := hat
      have hset : flux.set cdi f = flux.take cdi ++ [f] ++ flux.drop (cdi + 1) := by
        rw [List.set_eq_take_append_cons_drop]
        simp [show cdi < flux.length by omega]
      simp only at h
      have hfrom : From e start cdi l f := ⟨b0, by rw [← hb]; exact hd, by rw [← hb]; exact hres⟩
      split at h
      · rename_i hfail
        cases h
        refine ⟨[(l, f)], rest, by simp, by simp, by simp [hfile], by simp [hset], ?_, ?_⟩
        · intro i hi
          have : i = 0 := by simpa using hi
          subst this
          exact hfrom
        · intro _
          refine ⟨rfl, ?_⟩
          intro hgood
          by_cases hsf : s.fail = false
          · obtain ⟨h1, h2⟩ := hl hsf
            have hleol : l.eol = true := (hgood l (by rw [hfile]; simp)).1
            have hg : s.good = true := by simp [Stream.good, hsf, h2, hleol]
            cases hr : rest with
            | nil => rfl
            | cons l2 rest2 =>
              have hl2 := (hgood l2 (by rw [hfile, hr]; simp)).2
              rw [getline_good (cap := 512) b hg (h1.trans hr) hl2] at hfail
              simp at hfail
          · -- the stream had failed before: not from a readable line
            exfalso
            have h1 := hlong (by simpa using hsf)
            have h2 := (hgood l (by rw [hfile]; simp)).2
            omega
      · rename_i hnf
        split at h
        · rename_i hdd
          have hsf : s.fail = false := by
            cases hs : s.fail with
            | false => rfl
            | true => exact (hnf (getline_fail_mono hs)).elim
          have hlines := (hl hsf).1
          have hdd' : dateOf e (getline 512 s b).2 = some (start + (cdi + 1 : Nat)) := by
            rw [hdd]; congr 1; push_cast; omega
          obtain ⟨l', hat', _⟩ := getline_at e file s b (pre ++ [l])
            (fun _ => by rw [hlines, hfile]; simp) _ hdd'
          obtain ⟨recs, suf, h1, h2, h3, h4, h5, h6⟩ := ih (cdi + 1) _ _ (flux.set cdi f)
            (pre ++ [l]) l' hat' hdd' (by simp; omega) h
          refine ⟨(l, f) :: recs, suf, by simp, by simp; omega, by simp [h3], ?_, ?_, ?_⟩
          · rw [h4]
            have e1 : (flux.set cdi f).take (cdi + 1) = flux.take cdi ++ [f] := by
              rw [hset]
              rw [List.take_append_of_le_length (by simp; omega)]
              rw [List.take_of_length_le (by simp)]
            have e2 : (flux.set cdi f).drop (cdi + 1 + recs.length) =
                flux.drop (cdi + ((l, f) :: recs).length) := by
              rw [List.drop_set_of_lt (by omega)]
              congr 1
              simp; omega
            rw [e1, e2]
            simp
          · intro i hi
            cases i with
            | zero => exact hfrom
            | succ i =>
              have := h5 i (by simpa using hi)
              simp only [List.getElem_cons_succ]
              rw [show cdi + (i + 1) = cdi + 1 + i by omega]
              exact this
          · intro hk
            exact h6 (by simpa using hk)
        · cases h

/-- What a call that returns 0 has done: `recs` are consecutive lines of the file with the records
made from them, for the days `start`, `start + 1`, …; they fill the beginning of the array.  Either
all `n` days were found, or reading stopped (and then `fpos` is 0, and a readable file is at its
end). -/
def Stores (e : Ext) (file : List Line) (start : Int) (n : Nat) (flux flux' : List Flux) (p : Pos) :
    Prop :=
  ∃ (recs : List (Line × Flux)) (pre suf : List Line), 1 ≤ recs.length ∧ recs.length ≤ n ∧
    file = pre ++ recs.map Prod.fst ++ suf ∧
    flux' = recs.map Prod.snd ++ flux.drop recs.length ∧
    (∀ (i : Nat) (hi : i < recs.length), From e start i recs[i].1 recs[i].2) ∧
    (recs.length < n → p = .top ∧ ((∀ l ∈ file, l.eol = true ∧ l.text.length ≤ 511) → suf = []))

theorem body_ok (e : Ext) (file : List Line) (start : Int) (n : Nat) (s : Stream) (b : Buf)
    (flux : List Flux) (pre : List Line) (hf : s.fail = false → file = pre ++ s.lines)
    (hn : n + 1 ≤ flux.length) (flux' : List Flux) (p : Pos)
    (h : body e file start (n + 1) s b flux = some (.ret 0 flux' p)) :
    Stores e file start (n + 1) flux flux' p := by
  unfold body at h
  simp only at h
  split at h
  · cases h
  · rename_i d hd
    split at h
    · cases h
    · obtain ⟨l, hat, _⟩ := getline_at e file s b pre hf d hd
      split at h
      · rename_i st hst
        cases h
        -- a search error is never status 0
        exfalso
        have : ∀ n s b c, search e start n s b c ≠ .error 0 := by
          intro n
          induction n with
          | zero =>
            intro s b c hh
            unfold search at hh
            split at hh <;> cases hh
          | succ n ih =>
            intro s b c hh
            unfold search at hh
            split at hh
            · cases hh
            · simp only at hh
              split at hh
              · split at hh <;> cases hh
              · split at hh
                · split at hh <;> cases hh
                · exact ih _ _ _ hh
        exact this _ _ _ _ hst
      · rename_i s2 b2 hs
        obtain ⟨pre', l', hat', hd'⟩ := search_at e file start _ _ _ d pre l hat hd s2 b2 hs
        simp only [Option.some.injEq] at h
        obtain ⟨recs, suf, h1, h2, h3, h4, h5, h6⟩ := store_ok e file start n 0 s2 b2 flux pre' l' hat'
          (by simpa using hd') (by omega) flux' p h
        exact ⟨recs, pre', suf, h1, h2, h3, by simpa using h4,
          fun i hi => by simpa using h5 i hi, h6⟩

theorem parse_ok (e : Ext) (file : List Line) (b : Buf) (mjd : Int) (flux : List Flux) (fpos : Pos)
    (before after : Nat) (hn : before + 1 + after ≤ flux.length) (flux' : List Flux) (p : Pos)
    (h : parse e (some file) b mjd flux fpos before after = .ret 0 flux' p) :
    Stores e file (mjd - before) (before + 1 + after) flux flux' p := by
  have hn' : before + 1 + after = (before + after) + 1 := by omega
  have top : ∀ o, (let (s, b1) := getline 512 (seek file .top) b
      if s.fail then Out.ret (-1) flux .top
      else if strncmpEq header.length (cstr b1 0) header = false then .ret (-1) flux .top
      else (body e file (mjd - before) (before + 1 + after) s b1 flux).getD (.ret 1 flux .top)) = o →
      o = .ret 0 flux' p → Stores e file (mjd - before) (before + 1 + after) flux flux' p := by
    intro o ho hr
    subst ho
    simp only at hr
    split at hr
    · cases hr
    · rename_i hfail
      split at hr
      · cases hr
      · generalize hb : body e file (mjd - before) (before + 1 + after) _ _ flux = r at hr
        cases r with
        | none => cases hr
        | some o' =>
          simp only [Option.getD_some] at hr
          subst hr
          obtain ⟨l, rest, hl, _, _, he⟩ := getline_ok (by simpa using hfail)
          rw [hn'] at hb ⊢
          refine body_ok e file _ _ _ _ flux [l] ?_ (by omega) flux' p hb
          intro _
          rw [he]
          simpa [seek, Stream.open] using hl
  unfold parse at h
  simp only at h
  cases fpos with
  | top => exact top _ rfl h
  | line k =>
    simp only at h
    generalize hb : body e file (mjd - before) (before + 1 + after) _ _ flux = r at h
    cases r with
    | none => exact top _ rfl h
    | some o' =>
      simp only [Option.getD_some] at h
      subst h
      rw [hn'] at hb ⊢
      exact body_ok e file _ _ _ _ flux (file.take k) (fun _ => by simp [seek, Stream.open]) (by omega)
        flux' p hb
  | bad =>
    simp only at h
    generalize hb : body e file (mjd - before) (before + 1 + after) _ _ flux = r at h
    cases r with
    | none => exact top _ rfl h
    | some o' =>
      simp only [Option.getD_some] at h
      subst h
      rw [hn'] at hb ⊢
      exact body_ok e file _ _ _ _ flux [] (fun h => by simp [seek] at h) (by omega) flux' p hb

/-- A record carries the date of its line. -/
theorem resolve_mjd (e : Ext) (b : Buf) (f : Flux) (h : resolve e b = .ok f) :
    dateOf e b = some f.mjd := by
  unfold resolve at h
  split at h
  · cases h
  · rename_i mjd hm
    rw [hm]
    repeat' split at h
    all_goals first
      | (cases h; done)
      | (cases h; rfl)

theorem From.mjd {e : Ext} {start : Int} {i : Nat} {l : Line} {f : Flux} (h : From e start i l f) :
    f.mjd = start + i := by
  obtain ⟨b, h1, h2⟩ := h.ex
  have := resolve_mjd e _ f h2
  rw [h1] at this
  exact (Option.some.inj this).symm

/-- Eight 3-hour values. -/
theorem aps_length (n : Nat) (s : List Char) (xs : List Int) (r : List Char)
    (h : aps n s = some (xs, r)) : xs.length = n := by
  induction n generalizing s xs r with
  | zero =>
    simp only [aps, Option.some.injEq, Prod.mk.injEq] at h
    simp [← h.1]
  | succ n ih =>
    simp only [aps] at h
    split at h
    · cases h
    · split at h
      · cases h
      · rename_i ys r' hy
        cases h
        simp [ih _ _ _ hy]

theorem resolve_ap (e : Ext) (b : Buf) (f : Flux) (h : resolve e b = .ok f) : f.ap.length = 8 := by
  unfold resolve at h
  split at h
  · cases h
  · split at h
    · cases h
    · cases h
    · split at h
      · cases h
      · rename_i ap s2 hap
        have := aps_length _ _ _ _ hap
        repeat' split at h
        all_goals first
          | (cases h; done)
          | (cases h; exact this)

/-! ### Regular files -/

/-- Every line is complete, not too long for the buffer, and the dates increase. -/
structure Regular (e : Ext) (file : List Line) : Prop where
  lines : ∀ l ∈ file, l.eol = true ∧ l.text.length ≤ 511 ∧ 10 ≤ l.text.length ∧ '\x00' ∉ l.text
  dates : (file.filterMap fun l => dateOf e l.text).Pairwise (· < ·)

/-- The days a file has a line for. -/
def Has (e : Ext) (file : List Line) (d : Int) : Prop := ∃ l ∈ file, dateOf e l.text = some d

theorem field_fill (b : Buf) (t : List Char) (o n : Nat) (h : o + n ≤ t.length) :
    field (fill b t) o n = field t o n := by
  unfold field fill
  rw [List.drop_append_of_le_length (by omega), List.take_append_of_le_length (by simp; omega)]

theorem dateOf_fill (e : Ext) (b : Buf) (t : List Char) (h : 10 ≤ t.length) :
    dateOf e (fill b t) = dateOf e t := by
  unfold dateOf
  rw [field_fill _ _ _ _ (by omega), field_fill _ _ _ _ (by omega), field_fill _ _ _ _ (by omega)]

theorem takeWhile_nul (t u : List Char) (h : '\x00' ∉ t) :
    (t ++ '\x00' :: u).takeWhile (· != '\x00') = t := by
  induction t with
  | nil => simp
  | cons c t ih =>
    have hc : c ≠ '\x00' := by intro hh; exact h (by simp [hh])
    rw [List.cons_append, List.takeWhile_cons_of_pos (by simpa using hc),
      ih (fun hh => h (List.mem_cons_of_mem _ hh))]

theorem cstr_fill (b : Buf) (t : List Char) (h : '\x00' ∉ t) : cstr (fill b t) 0 = t :=
  takeWhile_nul t _ h

/-- The record conversion of a regular line does not depend on the rest of the buffer. -/
theorem resolve_fill (e : Ext) (b b' : Buf) (t : List Char) (h : 10 ≤ t.length)
    (h0 : '\x00' ∉ t) : resolve e (fill b t) = resolve e (fill b' t) := by
  unfold resolve
  rw [dateOf_fill e b t h, dateOf_fill e b' t h, cstr_fill b t h0, cstr_fill b' t h0]

/-- In a regular file, two lines with the same date are the same. -/
theorem regular_unique (e : Ext) (file : List Line) (hr : Regular e file) (l l' : Line) (d : Int)
    (hl : l ∈ file) (hl' : l' ∈ file) (h : dateOf e l.text = some d) (h' : dateOf e l'.text = some d) :
    l = l' := by
  have hp := List.pairwise_filterMap.mp hr.dates
  clear hr
  induction file with
  | nil => cases hl
  | cons x xs ih =>
    rw [List.pairwise_cons] at hp
    rcases List.mem_cons.mp hl with hm | hm <;> rcases List.mem_cons.mp hl' with hm' | hm'
    · rw [hm, hm']
    · rw [hm] at h
      have := hp.1 l' hm' d h d h'
      omega
    · rw [hm'] at h'
      have := hp.1 l hm d h' d h
      omega
    · exact ih hm hm' hp.2

/-- In a regular file, a day has at most one record. -/
theorem From.unique {e : Ext} {file : List Line} (hr : Regular e file) {start start' : Int}
    {i i' : Nat} {l l' : Line} {f f' : Flux} (h : From e start i l f) (h' : From e start' i' l' f')
    (hl : l ∈ file) (hl' : l' ∈ file) (hd : start + i = start' + i') : f = f' := by
  obtain ⟨b, h1, h2⟩ := h.ex
  obtain ⟨b', h1', h2'⟩ := h'.ex
  obtain ⟨_, g2, g3, g4⟩ := hr.lines l hl
  obtain ⟨_, g2', g3', g4'⟩ := hr.lines l' hl'
  rw [List.take_of_length_le g2] at h1 h2
  rw [List.take_of_length_le g2'] at h1' h2'
  rw [dateOf_fill e b _ g3] at h1
  rw [dateOf_fill e b' _ g3'] at h1'
  have := regular_unique e file hr l l' (start + i) hl hl' h1 (by rw [h1', hd])
  subst this
  rw [resolve_fill e b' b _ g3 g4, h2] at h2'
  cases h2'
  rfl

/-- In a regular file that has the last requested day, success means that all days were stored. -/
theorem stores_complete (e : Ext) (file : List Line) (hr : Regular e file) (start : Int) (n : Nat)
    (flux flux' : List Flux) (p : Pos) (h : Stores e file start n flux flux' p)
    (hh : Has e file (start + n - 1)) :
    ∃ (recs : List (Line × Flux)), recs.length = n ∧ (∀ r ∈ recs, r.1 ∈ file) ∧
      flux' = recs.map Prod.snd ++ flux.drop n ∧
      (∀ (i : Nat) (hi : i < recs.length), From e start i recs[i].1 recs[i].2) := by
  obtain ⟨recs, pre, suf, h1, h2, h3, h4, h5, h6⟩ := h
  have hmem : ∀ r ∈ recs, r.1 ∈ file := by
    intro r hr
    rw [h3]
    simp only [List.mem_append]
    exact .inl (.inr (List.mem_map_of_mem hr))
  by_cases hk : recs.length = n
  · exact ⟨recs, hk, hmem, by rw [← hk]; exact h4, h5⟩
  · exfalso
    have hlt : recs.length < n := by omega
    have hsuf : suf = [] := (h6 hlt).2 (fun l hl => ⟨(hr.lines l hl).1, (hr.lines l hl).2.1⟩)
    subst hsuf
    rw [List.append_nil] at h3
    -- the last record is the last line
    have hne : recs ≠ [] := by intro h0; rw [h0] at h1; simp at h1
    have hsplit : recs = recs.dropLast ++ [recs.getLast hne] := (List.dropLast_append_getLast hne).symm
    have hlast := h5 (recs.length - 1) (by omega)
    have hgl : recs[recs.length - 1]'(by omega) = recs.getLast hne := by
      rw [List.getLast_eq_getElem]
    rw [hgl] at hlast
    obtain ⟨b, hb1, _⟩ := hlast.ex
    have hlm := hmem _ (List.getLast_mem hne)
    obtain ⟨_, g2, g3, _⟩ := hr.lines _ hlm
    rw [List.take_of_length_le g2, dateOf_fill e b _ g3] at hb1
    obtain ⟨l, hl, hld⟩ := hh
    have hfile : file = (pre ++ recs.dropLast.map Prod.fst) ++ [(recs.getLast hne).1] := by
      rw [h3]
      conv_lhs => rw [hsplit]
      simp
    have hp := List.pairwise_filterMap.mp hr.dates
    rw [hfile] at hp hl
    rw [List.pairwise_append] at hp
    rcases List.mem_append.mp hl with hl | hl
    · have := hp.2.2 l hl _ (by simp) _ hld _ hb1
      omega
    · rw [List.mem_singleton] at hl
      subst hl
      rw [hb1] at hld
      simp only [Option.some.injEq] at hld
      omega

end Verif.SpaceWeather
