import Verif.SpaceWeather.Lemmas
import Mathlib.Tactic.IntervalCases
import Mathlib.Tactic.NormNum
import Mathlib.Tactic.Ring

/-
C26: the four-day window of the feed.
C27: `parse_csv_for_date` reports success only if all requested days were stored in order.
C28: the seven Ap entries.
C29: history independence of the feed.

C26, C27 and C29 are violated when the file ends before the last requested day: the reader then
returns 0 (line 282).  C29 also fails after an unsuccessful update, which leaves new records in the
window of the old day.
-/
namespace Verif.SpaceWeather

open Verif.Rinex Verif.Text

/-! ### C27 -/

/-- For every file: what success means. -/
theorem success_stores (e : Ext) (file : List Line) (b : Buf) (mjd : Int) (flux : List Flux)
    (fpos : Pos) (before after : Nat) (hn : before + 1 + after ≤ flux.length) (flux' : List Flux)
    (p : Pos) (h : parse e (some file) b mjd flux fpos before after = .ret 0 flux' p) :
    Stores e file (mjd - before) (before + 1 + after) flux flux' p :=
  parse_ok e file b mjd flux fpos before after hn flux' p h

/-- C27 when the reader reports a file position (it read a line behind the last requested day):
every requested day was stored, in order, from consecutive lines. -/
theorem success_complete_partial (e : Ext) (file : List Line) (b : Buf) (mjd : Int)
    (flux : List Flux) (fpos : Pos) (before after : Nat) (hn : before + 1 + after ≤ flux.length)
    (flux' : List Flux) (p : Pos)
    (h : parse e (some file) b mjd flux fpos before after = .ret 0 flux' p) (hp : p ≠ .top) :
    ∃ (recs : List (Line × Flux)) (pre suf : List Line), recs.length = before + 1 + after ∧
      file = pre ++ recs.map Prod.fst ++ suf ∧
      flux' = recs.map Prod.snd ++ flux.drop (before + 1 + after) ∧
      (∀ (i : Nat) (hi : i < recs.length), recs[i].2.mjd = mjd - before + i ∧
        From e (mjd - before) i recs[i].1 recs[i].2) := by
  obtain ⟨recs, pre, suf, h1, h2, h3, h4, h5, h6⟩ := parse_ok e file b mjd flux fpos before after hn
    flux' p h
  have hk : recs.length = before + 1 + after := by
    by_contra hne
    exact hp (h6 (by omega)).1
  exact ⟨recs, pre, suf, hk, h3, by rw [← hk]; exact h4, fun i hi => ⟨(h5 i hi).mjd, h5 i hi⟩⟩

/-- A request for a single day is always complete on success. -/
theorem single_day_complete (e : Ext) (file : List Line) (b : Buf) (mjd : Int) (nf : Flux)
    (fpos : Pos) (flux' : List Flux) (p : Pos)
    (h : parse e (some file) b mjd [nf] fpos 0 0 = .ret 0 flux' p) :
    ∃ l ∈ file, ∃ f, flux' = [f] ∧ From e mjd 0 l f := by
  obtain ⟨recs, pre, suf, h1, h2, h3, h4, h5, _⟩ := parse_ok e file b mjd [nf] fpos 0 0 (by simp)
    flux' p h
  match recs, h1, h2 with
  | [r], _, _ =>
    refine ⟨r.1, by rw [h3]; simp, r.2, by simpa using h4, ?_⟩
    have := h5 0 (by simp)
    simpa using this

/-- C27 for regular files that have the last requested day. -/
theorem regular_complete (e : Ext) (file : List Line) (hr : Regular e file) (b : Buf) (mjd : Int)
    (flux : List Flux) (fpos : Pos) (before after : Nat) (hn : before + 1 + after ≤ flux.length)
    (hh : Has e file (mjd + after)) (flux' : List Flux) (p : Pos)
    (h : parse e (some file) b mjd flux fpos before after = .ret 0 flux' p) :
    ∃ (recs : List (Line × Flux)), recs.length = before + 1 + after ∧ (∀ r ∈ recs, r.1 ∈ file) ∧
      flux' = recs.map Prod.snd ++ flux.drop (before + 1 + after) ∧
      (∀ (i : Nat) (hi : i < recs.length), From e (mjd - before) i recs[i].1 recs[i].2) := by
  refine stores_complete e file hr _ _ flux flux' p (parse_ok e file b mjd flux fpos before after hn
    flux' p h) ?_
  have : mjd - (before : Int) + ((before + 1 + after : Nat) : Int) - 1 = mjd + after := by
    push_cast; omega
  rw [this]
  exact hh

/-! ### C26 -/

/-- The window: four records for the four days that end with the current day. -/
def Window (f : Feed) : Prop :=
  f.flux.length = 4 ∧ ∀ (i : Nat) (hi : i < f.flux.length), f.flux[i].mjd = f.mjd - 3 + i

/-- After construction, when a line followed the current day in the file. -/
theorem construct_window_partial (e : Ext) (file : List Line) (j : Junk) (day : Int) (isec : Nat)
    (f : Feed) (h : construct e (some file) j day isec = some (.ok f)) (hp : f.fpos ≠ .top) :
    Window f ∧ f.mjd = day := by
  unfold construct at h
  split at h
  · cases h
  · rename_i st flux fpos hparse
    split at h
    · cases h
    · rename_i hst
      split at h
      · cases h
      · rename_i p hp'
        cases h
        have hst0 : st = 0 := by simpa using hst
        subst hst0
        obtain ⟨recs, _, _, h1, _, h3, h4⟩ := success_complete_partial e file j.buf day _ .top 3 0
          (by simp) flux fpos hparse hp
        refine ⟨⟨by simp [h3, h1], ?_⟩, rfl⟩
        intro i hi
        simp only at hi ⊢
        have hi' : i < recs.length := by
          simp [h3, h1] at hi
          omega
        have := (h4 i hi').1
        simp only [h3]
        rw [List.getElem_append_left (by simpa using hi')]
        simpa using this

/-- One-day advances keep the window. -/
theorem advance_window (e : Ext) (file : List Line) (j : Junk) (f f' : Feed) (day : Int)
    (isec : Nat) (hw : Window f) (hd : day + ((isec / 86400 : Nat) : Int) = f.mjd + 1)
    (h : update e (some file) j f day isec = .ok f') : Window f' ∧ f'.mjd = f.mjd + 1 := by
  unfold update at h
  simp only at h
  rw [if_neg (by omega), if_pos (by omega)] at h
  split at h
  · cases h
  · rename_i st flux fpos hg
    split at h
    · cases h
    · rename_i hst
      have hst0 : st = 0 := by simpa using hst
      subst hst0
      unfold getNext at hg
      split at hg
      · cases hg
      · rename_i st' got fpos' hparse
        split at hg
        · cases hg
        · rename_i hst'
          have hst0' : st' = 0 := by simpa using hst'
          subst hst0'
          cases hg
          obtain ⟨l, _, g, hgot, hfrom⟩ := single_day_complete e file j.buf _ _ _ _ _ hparse
          subst hgot
          split at h
          · cases h
          · cases h
            obtain ⟨w1, w2⟩ := hw
            have hlen : (f.flux.drop 1 ++ [g]).length = 4 := by simp [w1]
            refine ⟨⟨by simpa using hlen, ?_⟩, by simpa using hd⟩
            intro i hi
            simp only [List.take_succ_cons, List.take_zero] at hi ⊢
            by_cases h3 : i < 3
            · rw [List.getElem_append_left (by simp [w1]; omega), List.getElem_drop,
                w2 (1 + i) (by omega)]
              push_cast
              omega
            · have hi3 : i = 3 := by omega
              subst hi3
              rw [List.getElem_append_right (by simp [w1])]
              simp only [List.getElem_singleton]
              have := hfrom.mjd
              push_cast at this ⊢
              omega

/-- A failed one-day advance leaves the window and the current day as they were. -/
theorem failed_advance (e : Ext) (file : Option (List Line)) (j : Junk) (f f' : Feed) (day : Int)
    (isec : Nat) (hd : day + ((isec / 86400 : Nat) : Int) = f.mjd + 1)
    (h : update e file j f day isec = .fail f') :
    f'.flux = f.flux ∧ f'.mjd = f.mjd ∧ f'.params = f.params := by
  unfold update at h
  simp only at h
  rw [if_neg (by omega), if_pos (by omega)] at h
  split at h
  · cases h
  · rename_i st flux fpos hg
    split at h
    · rename_i hst
      cases h
      unfold getNext at hg
      split at hg
      · cases hg
      · split at hg
        · cases hg; exact ⟨rfl, rfl, rfl⟩
        · cases hg; exact (hst rfl).elim
    · split at h <;> cases h

/-- C26 for any number of advances after a construction that saw a line behind the current day. -/
theorem window_after_advances_partial (e : Ext) (file : List Line) (j : Junk) (day : Int)
    (isec : Nat) (f : Feed) (h : construct e (some file) j day isec = some (.ok f))
    (hp : f.fpos ≠ .top) (fs : List Feed) (hlen : fs ≠ [])
    (h0 : fs.head? = some f)
    (hadv : ∀ i, ∀ a b, fs[i]? = some a → fs[i + 1]? = some b → ∃ d s,
      d + ((s / 86400 : Nat) : Int) = a.mjd + 1 ∧ update e (some file) j a d s = .ok b) :
    ∀ g, fs.getLast? = some g → Window g ∧ g.mjd = day + ((fs.length : Int) - 1) := by
  obtain ⟨hw, hm⟩ := construct_window_partial e file j day isec f h hp
  suffices key : ∀ n : Nat, ∀ g, fs[n]? = some g → Window g ∧ g.mjd = day + n by
    intro g hg
    rw [List.getLast?_eq_getElem?] at hg
    have := key _ g hg
    refine ⟨this.1, ?_⟩
    rw [this.2]
    have : 1 ≤ fs.length := by
      cases fs with
      | nil => exact (hlen rfl).elim
      | cons _ _ => simp
    omega
  intro n
  induction n with
  | zero =>
    intro g hg
    rw [← List.head?_eq_getElem?, h0] at hg
    cases hg
    exact ⟨hw, by simpa using hm⟩
  | succ n ih =>
    intro g hg
    have hlt : n < fs.length := by
      have := (List.getElem?_eq_some_iff.mp hg).1
      omega
    obtain ⟨w, m⟩ := ih fs[n] (List.getElem?_eq_getElem hlt)
    obtain ⟨d, s, hd, hu⟩ := hadv n fs[n] g (List.getElem?_eq_getElem hlt) hg
    obtain ⟨w', m'⟩ := advance_window e file j fs[n] g d s w hd hu
    refine ⟨w', ?_⟩
    rw [m', m]
    push_cast
    omega

/-! ### C28 -/

/-- The 3-hour values of the window in one row: value `k` is that of hours `3k … 3k+3` after the
start of the first day. -/
def series (flux : List Flux) (k : Nat) : ℚ := ((flux.flatMap Flux.ap).getD k 0 : ℚ)

/-- Mean of the eight values that are `from`, `from + 1`, … `from + 7` places before place `p`. -/
def meanBefore (flux : List Flux) (p start : Nat) : ℚ :=
  (((List.range 8).map fun j => series flux (p - (start + j))).sum) / 8

/-- C28: at every time of day the entries are the daily value, the 3-hour value now and 3, 6 and 9
hours earlier, the mean of the eight values 12 to 33 hours earlier and the mean of those 36 to 57
hours earlier; nothing outside the window is read. -/
theorem ap_entries (f0 f1 f2 f3 : Flux) (h0 : f0.ap.length = 8) (h1 : f1.ap.length = 8)
    (h2 : f2.ap.length = 8) (h3 : f3.ap.length = 8) (isec : Nat) (hs : isec < 86400) :
    let w := [f0, f1, f2, f3]
    let p := 24 + isec / 10800
    init w isec = some ⟨f3.f107ObsC81, f2.f107Obs, f3.apDaily,
      [f3.apDaily, series w p, series w (p - 1), series w (p - 2), series w (p - 3),
        meanBefore w p 4, meanBefore w p 12]⟩ := by
  obtain ⟨m0, a0, b0, c0, d0, e0, g0, ap0, fl0⟩ := f0
  obtain ⟨m1, a1, b1, c1, d1, e1, g1, ap1, fl1⟩ := f1
  obtain ⟨m2, a2, b2, c2, d2, e2, g2, ap2, fl2⟩ := f2
  obtain ⟨m3, a3, b3, c3, d3, e3, g3, ap3, fl3⟩ := f3
  simp only at h0 h1 h2 h3
  match ap0, h0 with
  | [x0, x1, x2, x3, x4, x5, x6, x7], _ =>
  match ap1, h1 with
  | [y0, y1, y2, y3, y4, y5, y6, y7], _ =>
  match ap2, h2 with
  | [z0, z1, z2, z3, z4, z5, z6, z7], _ =>
  match ap3, h3 with
  | [t0, t1, t2, t3, t4, t5, t6, t7], _ =>
  have hdiv : isec / 3600 / 3 = isec / 10800 := by rw [Nat.div_div_eq_div_mul]
  have hlt : isec / 10800 < 8 := by omega
  simp only [init, hdiv]
  generalize isec / 10800 = q at hlt
  clear hdiv hs
  interval_cases q <;>
    simp [apAt, back, fwd, avgLoop, series, meanBefore, List.range_succ, List.range_zero] <;>
    exact ⟨by ring, by ring⟩

/-- Records delivered by the reader have eight 3-hour values, so `ap_entries` applies to every
window made of them. -/
theorem From.ap_length {e : Ext} {start : Int} {i : Nat} {l : Line} {f : Flux}
    (h : From e start i l f) : f.ap.length = 8 := by
  obtain ⟨b, _, h2⟩ := h.ex
  exact resolve_ap e _ f h2

/-- Second 86400 and later (which `update` counts as the next day) reads outside the record. -/
theorem leap_second_counterexample (f0 f1 f2 f3 : Flux) (h3 : f3.ap.length = 8) :
    init [f0, f1, f2, f3] 86400 = none := by
  have : f3.ap[8]? = none := List.getElem?_eq_none (by omega)
  simp [init, apAt, this]

/-- `init` sees the time only through its 3-hour index. -/
theorem init_congr (flux : List Flux) (s s' : Nat) (h : s / 3600 / 3 = s' / 3600 / 3) :
    init flux s = init flux s' := by
  simp only [init, h]

/-! ### C29 -/

/-- The state of the feed is that of its current day and 3-hour interval. -/
structure Current (e : Ext) (file : List Line) (f : Feed) : Prop where
  recs : ∃ rs : List (Line × Flux), f.flux = rs.map Prod.snd ∧ rs.length = 4 ∧
    (∀ r ∈ rs, r.1 ∈ file) ∧
    ∀ (i : Nat) (hi : i < rs.length), From e (f.mjd - 3) i rs[i].1 rs[i].2
  params : ∃ s, s / 3600 / 3 = f.chi ∧ init f.flux s = some f.params

theorem construct_current (e : Ext) (file : List Line) (hr : Regular e file) (j : Junk) (day : Int)
    (isec : Nat) (hh : Has e file day) (f : Feed)
    (h : construct e (some file) j day isec = some (.ok f)) :
    Current e file f ∧ f.mjd = day ∧ f.chi = isec / 3600 / 3 := by
  unfold construct at h
  split at h
  · cases h
  · rename_i st flux fpos hparse
    split at h
    · cases h
    · rename_i hst
      split at h
      · cases h
      · rename_i p hp'
        cases h
        have hst0 : st = 0 := by simpa using hst
        subst hst0
        obtain ⟨recs, h1, h2, h3, h4⟩ := regular_complete e file hr j.buf day _ .top 3 0 (by simp)
          (by simpa using hh) flux fpos hparse
        exact ⟨⟨⟨recs, by simpa using h3, h1, h2, by simpa using h4⟩, ⟨isec, rfl, hp'⟩⟩, rfl, rfl⟩

theorem update_current (e : Ext) (file : List Line) (hr : Regular e file) (j : Junk) (f f' : Feed)
    (day : Int) (isec : Nat) (hh : Has e file (day + ((isec / 86400 : Nat) : Int)))
    (hc : Current e file f) (h : update e (some file) j f day isec = .ok f') :
    Current e file f' ∧ f'.mjd = day + ((isec / 86400 : Nat) : Int) ∧
      f'.chi = isec / 3600 / 3 := by
  unfold update at h
  simp only at h
  split at h
  · rename_i hm
    split at h
    · rename_i hchi
      cases h
      exact ⟨hc, hm.symm, hchi.symm⟩
    · split at h
      · cases h
      · rename_i p hp
        cases h
        exact ⟨⟨hc.recs, ⟨isec, rfl, hp⟩⟩, hm.symm, rfl⟩
  · rename_i hm
    split at h
    · cases h
    · rename_i st flux fpos hout
      split at h
      · cases h
      · rename_i hst
        have hst0 : st = 0 := by simpa using hst
        subst hst0
        split at h
        · cases h
        · rename_i p hp
          cases h
          refine ⟨⟨?_, ⟨isec, rfl, hp⟩⟩, rfl, rfl⟩
          simp only
          obtain ⟨rs, hfl, hlen, hmem, hfrom⟩ := hc.recs
          by_cases hadv : f.mjd + 1 = day + ((isec / 86400 : Nat) : Int)
          · rw [if_pos hadv] at hout
            unfold getNext at hout
            split at hout
            · cases hout
            · rename_i st' got fpos' hparse
              split at hout
              · cases hout
              · rename_i hst'
                have hst0' : st' = 0 := by simpa using hst'
                subst hst0'
                cases hout
                obtain ⟨l, hl, g, hgot, hgf⟩ := single_day_complete e file j.buf _ _ _ _ _ hparse
                subst hgot
                refine ⟨rs.drop 1 ++ [(l, g)], by simp [hfl], by simp [hlen], ?_, ?_⟩
                · intro r hr'
                  rcases List.mem_append.mp hr' with h1 | h1
                  · exact hmem r (List.mem_of_mem_drop h1)
                  · rw [List.mem_singleton] at h1
                    rw [h1]
                    exact hl
                · intro i hi
                  by_cases h3 : i < 3
                  · rw [List.getElem_append_left (by simp [hlen]; omega), List.getElem_drop]
                    obtain ⟨b, hb1, hb2⟩ := (hfrom (1 + i) (by omega)).ex
                    refine ⟨b, ?_, hb2⟩
                    rw [hb1, ← hadv]
                    congr 1
                    push_cast
                    omega
                  · have hi3 : i = 3 := by simp [hlen] at hi; omega
                    subst hi3
                    rw [List.getElem_append_right (by simp [hlen])]
                    simp only [List.getElem_singleton]
                    obtain ⟨b, hb1, hb2⟩ := hgf.ex
                    refine ⟨b, ?_, hb2⟩
                    rw [hb1]
                    congr 1
                    push_cast
                    omega
          · rw [if_neg hadv] at hout
            have hl4 : f.flux.length = 4 := by simp [hfl, hlen]
            obtain ⟨recs, h1, h2, h3, h4⟩ := regular_complete e file hr j.buf _ _ _ 3 0
              (by omega) (by simpa using hh) flux fpos hout
            refine ⟨recs, ?_, h1, h2, by simpa using h4⟩
            rw [h3, List.drop_of_length_le (by omega)]
            simp

/-- Two current feeds of the same day and interval have the same records and parameters. -/
theorem current_unique (e : Ext) (file : List Line) (hr : Regular e file) (f f' : Feed)
    (h : Current e file f) (h' : Current e file f') (hm : f.mjd = f'.mjd) (hc : f.chi = f'.chi) :
    f.flux = f'.flux ∧ f.params = f'.params := by
  obtain ⟨rs, h1, h2, h3, h4⟩ := h.recs
  obtain ⟨rs', h1', h2', h3', h4'⟩ := h'.recs
  have hfl : f.flux = f'.flux := by
    rw [h1, h1']
    apply List.ext_getElem
    · simp [h2, h2']
    · intro i hi hi'
      simp only [List.getElem_map]
      have a1 : i < rs.length := by simpa using hi
      have a2 : i < rs'.length := by simpa using hi'
      exact From.unique hr (h4 i a1) (h4' i a2) (h3 _ (List.getElem_mem a1))
        (h3' _ (List.getElem_mem a2)) (by rw [hm])
  refine ⟨hfl, ?_⟩
  obtain ⟨s, hs, hi⟩ := h.params
  obtain ⟨s', hs', hi'⟩ := h'.params
  have := init_congr f.flux s s' (by rw [hs, hs', hc])
  rw [hi, hfl, hi'] at this
  exact Option.some.inj this

/-- Successive successful updates, for days the file has. -/
inductive Updates (e : Ext) (file : List Line) (j : Junk) : Feed → List (Int × Nat) → Feed → Prop
  | nil (f) : Updates e file j f [] f
  | cons {f f' f'' d s us} : Has e file (d + ((s / 86400 : Nat) : Int)) →
      update e (some file) j f d s = .ok f' → Updates e file j f' us f'' →
      Updates e file j f ((d, s) :: us) f''

theorem updates_current (e : Ext) (file : List Line) (hr : Regular e file) (j : Junk) (f f' : Feed)
    (us : List (Int × Nat)) (h : Updates e file j f us f') (hc : Current e file f) :
    Current e file f' := by
  induction h with
  | nil => exact hc
  | cons hh hu _ ih => exact ih (update_current e file hr j _ _ _ _ hh hc hu).1

/-- C29 for regular files, days that the file has and successful updates: after any history, the
feed serves for an epoch the same records and parameters as a new one. -/
theorem history_independent_partial (e : Ext) (file : List Line) (hr : Regular e file) (j j' : Junk)
    (d0 : Int) (s0 : Nat) (hh0 : Has e file d0) (f0 : Feed)
    (h0 : construct e (some file) j d0 s0 = some (.ok f0)) (us : List (Int × Nat)) (f f' : Feed)
    (hus : Updates e file j f0 us f) (d : Int) (s : Nat) (hs : s < 86400) (hh : Has e file d)
    (hu : update e (some file) j f d s = .ok f') (g : Feed)
    (hg : construct e (some file) j' d s = some (.ok g)) :
    f'.params = g.params ∧ f'.flux = g.flux ∧ f'.mjd = g.mjd ∧ f'.chi = g.chi := by
  have hs0 : s / 86400 = 0 := Nat.div_eq_of_lt hs
  obtain ⟨c0, _, _⟩ := construct_current e file hr j d0 s0 hh0 f0 h0
  have c1 := updates_current e file hr j f0 f us hus c0
  obtain ⟨c2, m2, i2⟩ := update_current e file hr j f f' d s (by simpa [hs0] using hh) c1 hu
  obtain ⟨c3, m3, i3⟩ := construct_current e file hr j' d s hh g hg
  rw [hs0] at m2
  have hm : f'.mjd = g.mjd := by rw [m2, m3]; simp
  have hi : f'.chi = g.chi := by rw [i2, i3]
  obtain ⟨hfl, hp⟩ := current_unique e file hr f' g c2 c3 hm hi
  exact ⟨hp, hfl, hm, hi⟩

/-! ### Counterexamples and examples -/

/-- Unsigned whole numbers. -/
def exExt : Ext :=
  ⟨fun s => match fromCharsI s with
    | some (x, k) => some ((x : ℚ), s.drop k)
    | none => none,
   fun _ _ d => d, fun _ f => f⟩

/-- A line for January `dd` with 3-hour values `a` and flux `x`. -/
def exLine (dd a x : String) : Line :=
  ⟨("2020-01-" ++ dd ++ ",1,1,1,1,1,1,1,1,1,1,1," ++ a ++ "," ++ a ++ "," ++ a ++ "," ++ a ++ "," ++
    a ++ "," ++ a ++ "," ++ a ++ "," ++ a ++ "," ++ a ++ ",0,0,0," ++ x ++ "," ++ x ++ ",OBS," ++ x ++
    "," ++ x ++ "," ++ x ++ "," ++ x).toList, true⟩

def exHeader : Line := ⟨header, true⟩

/-- Days 1 to 6, then a gap, then days 10, 11, 13 and 14. -/
def exFile : List Line :=
  [exHeader, exLine "01" "1" "70", exLine "02" "2" "71", exLine "03" "3" "72", exLine "04" "4" "73",
   exLine "05" "5" "74", exLine "06" "5" "74", exLine "10" "6" "75", exLine "11" "6" "75", exLine "13" "7" "76",
   exLine "14" "7" "76"]

def exJunk : Junk := ⟨List.replicate 512 'x', newFlux (-1) [], ⟨0, 0, 0, []⟩⟩

/-- The file ends two days before the last requested one, yet the status is 0. -/
theorem eof_counterexample :
    (match parse exExt (some [exHeader, exLine "01" "1" "70", exLine "02" "2" "71"]) exJunk.buf 4
        [exJunk.flux, exJunk.flux, exJunk.flux, exJunk.flux] .top 3 0 with
      | .ret st flux p => (st, flux.map Flux.mjd, p)
      | .stale => (1, [], .bad)) = (0, [1, 2, 0, 0], .top) := by
  decide +kernel

/-- A feed whose window lacks the current day, although its construction succeeded. -/
theorem window_counterexample :
    (match construct exExt (some [exHeader, exLine "01" "1" "70", exLine "02" "2" "71",
        exLine "03" "3" "72"]) { exJunk with flux := newFlux (-1) [9, 9, 9, 9, 9, 9, 9, 9] } 4 0 with
      | some (.ok f) => (f.mjd, f.flux.map Flux.mjd, f.params.ap)
      | _ => (0, [], 0)) = (4, [1, 2, 3, 0], -1) := by
  decide +kernel

/-- What a feed serves after some updates. -/
def serve (f : Feed) : List (Int × Nat) → List (Option (List Int × List ℚ))
  | [] => []
  | (d, s) :: us =>
    match update exExt (some exFile) exJunk f d s with
    | .ok f' => some (f'.flux.map Flux.mjd, f'.params.arr) :: serve f' us
    | .fail f' => none :: serve f' us
    | .ub => []

def serveFrom (d0 : Int) (s0 : Nat) (us : List (Int × Nat)) : List (Option (List Int × List ℚ)) :=
  match construct exExt (some exFile) exJunk d0 s0 with
  | some (.ok f) => some (f.flux.map Flux.mjd, f.params.arr) :: serve f us
  | _ => []

/-- An unsuccessful update to day 13 (the file has 10, 11, 13) leaves the records of days 10 and 11
in the window of day 4; the next update within day 4 serves wrong values and reports success.  A
feed that had not been asked for day 13 serves the right ones. -/
theorem failed_update_counterexample :
    serveFrom 4 0 [(13, 0), (4, 10800)] =
      [some ([1, 2, 3, 4], [4, 4, 3, 3, 3, 21 / 8, 13 / 8]), none,
       some ([10, 11, 3, 4], [4, 4, 4, 3, 3, 15 / 4, 6])] ∧
    serveFrom 4 0 [(4, 10800)] =
      [some ([1, 2, 3, 4], [4, 4, 3, 3, 3, 21 / 8, 13 / 8]),
       some ([1, 2, 3, 4], [4, 4, 4, 3, 3, 11 / 4, 7 / 4])] := by
  decide +kernel

/-- A day that is in the file is refused when the line behind it is not that of the next day. -/
theorem present_refused_counterexample :
    Has exExt exFile 6 ∧
    (match parse exExt (some exFile) exJunk.buf 6 [exJunk.flux] .top 0 0 with
      | .ret st flux p => (st, flux.map Flux.mjd, p)
      | .stale => (1, [], .bad)) = (-2, [6], .top) :=
  ⟨⟨exLine "06" "5" "74", by decide +kernel, by decide +kernel⟩, by decide +kernel⟩

/-- Non-vacuity: the example file is regular and has day 5; constructing for day 4 leaves a position
behind the day, and advancing to day 5 succeeds. -/
example : Regular exExt exFile := ⟨by decide +kernel, by decide +kernel⟩

example : Has exExt exFile 5 :=
  ⟨exLine "05" "5" "74", by decide +kernel, by decide +kernel⟩

example : (match construct exExt (some exFile) exJunk 4 0 with
    | some (.ok f) => (decide (f.fpos ≠ .top), match update exExt (some exFile) exJunk f 4 86399 with
      | .ok f' => (f'.chi, match update exExt (some exFile) exJunk f' 5 3600 with
        | .ok g => g.flux.map Flux.mjd
        | _ => [])
      | _ => (0, []))
    | _ => (false, 0, [])) = (true, 7, [2, 3, 4, 5]) := by
  decide +kernel

/-- The last line of the file: a one-day advance. -/
example : (match parse exExt (some exFile) exJunk.buf 14 [exJunk.flux] .top 0 0 with
    | .ret st flux p => (st, flux.map Flux.mjd, p)
    | .stale => (1, [], .bad)) = (0, [14], .top) := by
  decide +kernel

/-- A failed advance (day 6 is refused): the window stays. -/
example : (match construct exExt (some exFile) exJunk 5 0 with
    | some (.ok f) => (match update exExt (some exFile) exJunk f 6 0 with
      | .fail g => g.flux.map Flux.mjd
      | _ => [])
    | _ => []) = [2, 3, 4, 5] := by
  decide +kernel

end Verif.SpaceWeather
