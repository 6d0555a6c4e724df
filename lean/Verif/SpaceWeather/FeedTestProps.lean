import Verif.SpaceWeather.FeedTestModel
import Verif.SpaceWeather.WriteProps

/-! C160: the program that tests the feed of space weather values. -/
namespace Verif.SpaceWeather.Write

open Verif.Rinex Verif.Rinex.Write Verif.SpaceWeather

/-! ### Specification -/

/-- The file has the days 22 to 26 July 2022, with the values that the program lists in its comment, as days `i - 3` to `i + 1`. -/
structure July (ds : List Day) (i : Nat) : Prop where
  three : 3 ≤ i
  next : i + 1 < ds.length
  ap22 : (ds[i - 3]'(by omega)).ap = [22, 9, 12, 9, 5, 9, 6, 12]
  ap23 : (ds[i - 2]'(by omega)).ap = [32, 67, 22, 7, 7, 3, 5, 12]
  ap24 : (ds[i - 1]'(by omega)).ap = [12, 9, 7, 5, 5, 9, 9, 6]
  ap25 : (ds[i]'(by omega)).ap = [12, 6, 2, 3, 4, 4, 3, 7]
  ap26 : ds[i + 1].ap = [18, 7, 3, 6, 6, 4, 3, 7]
  avg25 : (ds[i]'(by omega)).apAvg.value = 5
  avg26 : ds[i + 1].apAvg.value = 6
  obs24 : (ds[i - 1]'(by omega)).obs.value = 107.1
  obs25 : (ds[i]'(by omega)).obs.value = 102.3
  c81_25 : (ds[i]'(by omega)).obsC81.value = 116.4
  c81_26 : ds[i + 1].obsC81.value = 116.0

/-- The calendar knows the two days. -/
structure KnowsJuly (e : Ext) (cal : Calendar) : Prop where
  july25 : cal.ydoy (e.ymd2mjd 2022 7 25) = (2022, 206)
  july26 : cal.ydoy (e.ymd2mjd 2022 7 25 + 1) = (2022, 207)
  back25 : cal.mjd 2022 206 = e.ymd2mjd 2022 7 25
  back26 : cal.mjd 2022 207 = e.ymd2mjd 2022 7 25 + 1

/-! ### The values served -/

/-- `wanted`, by the 3-hour values of the window. -/
theorem wanted_eq (e : Ext) (ds : List Day) (hok : ∀ d ∈ ds, d.Ok e) (i sec : Nat) (h3 : 3 ≤ i) (hi : i < ds.length) (hs : sec < 86400)
    (L : List Int) (hL : (window e ds i).flatMap Flux.ap = L) (t y : Day) :
    wanted ds t y i sec = ⟨t.obsC81.value, y.obs.value, t.apAvg.value,
      [t.apAvg.value, ((L.getD (24 + sec / 10800) 0 : Int) : ℚ), ((L.getD (24 + sec / 10800 - 1) 0 : Int) : ℚ),
       ((L.getD (24 + sec / 10800 - 2) 0 : Int) : ℚ), ((L.getD (24 + sec / 10800 - 3) 0 : Int) : ℚ),
       ((List.range 8).map fun j => ((L.getD (24 + sec / 10800 - (4 + j)) 0 : Int) : ℚ)).sum / 8,
       ((List.range 8).map fun j => ((L.getD (24 + sec / 10800 - (12 + j)) 0 : Int) : ℚ)).sum / 8]⟩ := by
  have h8 : ∀ d ∈ ds, d.ap.length = 8 := fun d hd => (hok d hd).ap.1
  have hq : sec / 10800 < 8 := by omega
  have hser : ∀ k, ((L.getD k 0 : Int) : ℚ) = series (window e ds i) k := by
    intro k
    unfold series
    rw [hL]
  simp only [hser]
  have e4 := mean_window e ds h8 i h3 hi (24 + sec / 10800) 4 (by omega) (by omega)
  have e12 := mean_window e ds h8 i h3 hi (24 + sec / 10800) 12 (by omega) (by omega)
  unfold meanBefore at e4 e12
  rw [e4, e12, series_window e ds h8 i h3 hi _ (by omega), series_window e ds h8 i h3 hi _ (by omega),
    series_window e ds h8 i h3 hi _ (by omega), series_window e ds h8 i h3 hi _ (by omega)]
  unfold wanted
  rw [show 8 * (i - 3) + (24 + sec / 10800) = 8 * i + sec / 10800 by omega,
    show 8 * (i - 3) + (24 + sec / 10800 - 1) = 8 * i + sec / 10800 - 1 by omega,
    show 8 * (i - 3) + (24 + sec / 10800 - 2) = 8 * i + sec / 10800 - 2 by omega,
    show 8 * (i - 3) + (24 + sec / 10800 - 3) = 8 * i + sec / 10800 - 3 by omega]

theorem window_four (e : Ext) (ds : List Day) (i : Nat) (h3 : 3 ≤ i) (hi : i < ds.length) :
    window e ds i = [ds[i - 3].flux e, ds[i - 2].flux e, ds[i - 1].flux e, ds[i].flux e] := by
  apply List.ext_getElem
  · simp only [window, List.length_map, List.length_take, List.length_drop, List.length_cons, List.length_nil]
    omega
  · intro k h1 h2
    have hk : k < 4 := by simpa using h2
    simp only [window, List.getElem_map, List.getElem_take, List.getElem_drop]
    match k, hk with
    | 0, _ => rfl
    | 1, _ => simp only [List.getElem_cons_succ, List.getElem_cons_zero, show i - 3 + 1 = i - 2 by omega]
    | 2, _ => simp only [List.getElem_cons_succ, List.getElem_cons_zero, show i - 3 + 2 = i - 1 by omega]
    | 3, _ => simp only [List.getElem_cons_succ, List.getElem_cons_zero, show i - 3 + 3 = i by omega]

theorem july_window (e : Ext) (ds : List Day) (i : Nat) (h : July ds i) :
    (window e ds i).flatMap Flux.ap = [22, 9, 12, 9, 5, 9, 6, 12, 32, 67, 22, 7, 7, 3, 5, 12, 12, 9, 7, 5, 5, 9, 9, 6,
      12, 6, 2, 3, 4, 4, 3, 7] := by
  have := h.next
  rw [window_four e ds i h.three (by omega)]
  simp only [List.flatMap_cons, List.flatMap_nil, Day.flux, h.ap22, h.ap23, h.ap24, h.ap25, List.append_nil, List.cons_append,
    List.nil_append]

theorem july_window_next (e : Ext) (ds : List Day) (i : Nat) (h : July ds i) :
    (window e ds (i + 1)).flatMap Flux.ap = [32, 67, 22, 7, 7, 3, 5, 12, 12, 9, 7, 5, 5, 9, 9, 6,
      12, 6, 2, 3, 4, 4, 3, 7, 18, 7, 3, 6, 6, 4, 3, 7] := by
  have := h.next
  have h3 := h.three
  rw [window_four e ds (i + 1) (by omega) h.next]
  simp only [show i + 1 - 3 = i - 2 by omega, show i + 1 - 2 = i - 1 by omega, Nat.add_sub_cancel]
  simp only [List.flatMap_cons, List.flatMap_nil, Day.flux, h.ap23, h.ap24, h.ap25, h.ap26, List.append_nil, List.cons_append,
    List.nil_append]

section
variable (e : Ext) (ds : List Day) (hok : ∀ d ∈ ds, d.Ok e) (i : Nat) (h : July ds i)
include hok h

theorem july_first (s : Nat) (hs : s < 10800) :
    wanted ds (ds[i]'(by have := h.next; omega)) (ds[i - 1]'(by have := h.next; omega)) i s = refFirst := by
  have hn := h.next
  rw [wanted_eq e ds hok i s h.three (by omega) (by omega) _ (july_window e ds i h), show s / 10800 = 0 by omega, h.c81_25, h.obs24, h.avg25]
  decide +kernel

theorem july_second (s : Nat) (hs : 10800 ≤ s) (hs' : s < 21600) :
    wanted ds (ds[i]'(by have := h.next; omega)) (ds[i - 1]'(by have := h.next; omega)) i s = refSecond := by
  have hn := h.next
  rw [wanted_eq e ds hok i s h.three (by omega) (by omega) _ (july_window e ds i h), show s / 10800 = 1 by omega, h.c81_25, h.obs24, h.avg25]
  decide +kernel

theorem july_end (s : Nat) (hs : 75600 ≤ s) (hs' : s < 86400) :
    wanted ds (ds[i]'(by have := h.next; omega)) (ds[i - 1]'(by have := h.next; omega)) i s = refEnd := by
  have hn := h.next
  rw [wanted_eq e ds hok i s h.three (by omega) (by omega) _ (july_window e ds i h), show s / 10800 = 7 by omega, h.c81_25, h.obs24, h.avg25]
  decide +kernel

theorem july_next (s : Nat) (hs : 10800 ≤ s) (hs' : s < 21600) :
    wanted ds (ds[i + 1]'h.next) (ds[i]'(by have := h.next; omega)) (i + 1) s = refNext := by
  have hn := h.next
  have h3 := h.three
  rw [wanted_eq e ds hok (i + 1) s (by omega) h.next (by omega) _ (july_window_next e ds i h), show s / 10800 = 1 by omega, h.c81_26,
    h.obs25, h.avg26]
  decide +kernel

end

/-! ### Comparing -/

theorem differ_self (a : Core) : differ a a = 0 := by
  unfold differ
  simp only [sub_self, abs_zero]
  rw [if_neg (by norm_num)]
  simp

theorem differ_f107A (a b : Core) (h : 1 / 1000000 < |a.params.f107A - b.params.f107A|) : differ a b ≠ 0 := by
  unfold differ
  simp only
  rw [if_pos h]
  omega

/-! ### The requests -/

/-- An update within the day does not need the position in the file. -/
theorem update_same (e : Ext) (file : Option (List Line)) (first : Int) (ds : List Day) (hok : ∀ d ∈ ds, d.Ok e) (j : Junk)
    (i sec : Nat) (f : Feed) (hf : Serves e first ds i sec f) (sec' : Nat) (hs : sec' < 86400) :
    ∃ f', update e file j f (first + i) sec' = .ok f' ∧ Serves e first ds i sec' f' ∧ f'.fpos = f.fpos := by
  have h0 : sec' / 86400 = 0 := Nat.div_eq_of_lt hs
  have hdiv : sec' / 3600 / 3 = sec' / 10800 := Nat.div_div_eq_div_mul _ _ _
  obtain ⟨hm, hfl, hc, h3, hk, hpar⟩ := hf
  unfold update
  simp only [h0, hdiv, Nat.cast_zero, add_zero, hm, if_true]
  by_cases hchi : sec' / 10800 = f.chi
  · rw [if_pos hchi]
    refine ⟨f, rfl, ⟨hm, hfl, hchi.symm, h3, hk, ?_⟩, rfl⟩
    rw [hpar]
    unfold wanted
    rw [hchi, hc]
  · rw [if_neg hchi, hfl, init_window e ds hok i sec' h3 hk hs]
    exact ⟨_, rfl, ⟨rfl, rfl, rfl, h3, hk, rfl⟩, rfl⟩

/-- The day of a request and its update. -/
theorem updateParams_eq (e : Ext) (cal : Calendar) (file : Option (List Line)) (j : Junk) (f : Feed) (mjd : Int) (secday : Nat)
    (day : Int) (sec : Nat) (y d : Int) (hday : mjd + ((secday / 86400 : Nat) : Int) = day) (hsec : secday % 86400 = sec)
    (hy : cal.ydoy day = (y, d)) (hb : cal.mjd y d = day) :
    updateParams e cal file j f mjd secday = match update e file j f day sec with
      | .ok f' => some (⟨y, d, sec, f'.params⟩, f')
      | .fail f' => some (⟨y, d, sec, f'.params⟩, f')
      | .ub => none := by
  unfold updateParams
  simp only [hday, hsec, hy, hb]
  cases update e file j f day sec <;> rfl

section
variable {e : Ext} {cal : Calendar} (hc : KnowsJuly e cal) (tail : List Char) (ht : TailOk tail) (first : Int) (ds : List Day)
  (hok : ∀ d ∈ ds, d.Ok e) (hd : Daily e first ds) (j : Junk) (i : Nat) (h : July ds i) (hi : e.ymd2mjd 2022 7 25 = first + i)

include hc hi in
theorem request25_eq (file : Option (List Line)) (f : Feed) (s : Nat) (hs : s < 86400) :
    updateParams e cal file j f (e.ymd2mjd 2022 7 25) s = match update e file j f (first + i) s with
      | .ok f' => some (⟨2022, 206, s, f'.params⟩, f')
      | .fail f' => some (⟨2022, 206, s, f'.params⟩, f')
      | .ub => none := by
  rw [← hi]
  exact updateParams_eq e cal file j f _ s _ s 2022 206 (by rw [Nat.div_eq_of_lt hs]; simp) (Nat.mod_eq_of_lt hs) hc.july25 hc.back25

include hc hi in
theorem request26_eq (file : Option (List Line)) (f : Feed) :
    updateParams e cal file j f (e.ymd2mjd 2022 7 25) 97200 = match update e file j f (first + ((i + 1 : Nat) : Int)) 10800 with
      | .ok f' => some (⟨2022, 207, ((10800 : Nat) : ℚ), f'.params⟩, f')
      | .fail f' => some (⟨2022, 207, ((10800 : Nat) : ℚ), f'.params⟩, f')
      | .ub => none := by
  have : first + ((i + 1 : Nat) : Int) = e.ymd2mjd 2022 7 25 + 1 := by rw [hi]; push_cast; ring
  rw [this]
  exact updateParams_eq e cal file j f _ 97200 _ 10800 2022 207 (by norm_num) (by norm_num) hc.july26 hc.back26

include hc hok h hi in
/-- A request within the day of the feed is served. -/
theorem request25_same (file : Option (List Line)) (s : Nat) (hs : s < 86400) (sec : Nat) (f : Feed) (hf : Serves e first ds i sec f) :
    ∃ f', updateParams e cal file j f (e.ymd2mjd 2022 7 25) s =
        some (⟨2022, 206, s, wanted ds (ds[i]'(by have := h.next; omega)) (ds[i - 1]'(by have := h.next; omega)) i s⟩, f') ∧
      Serves e first ds i s f' ∧ f'.fpos = f.fpos := by
  obtain ⟨f', h1, h2, h3⟩ := update_same e file first ds hok j i sec f hf s hs
  refine ⟨f', ?_, h2, h3⟩
  rw [request25_eq hc first j i hi file f s hs, h1]
  obtain ⟨_, _, hpar⟩ := h2.params
  simp only [hpar]

include hc ht hok hd h hi in
/-- So is one back from the day after, when the position is one of a line. -/
theorem request25_back (s : Nat) (hs : s < 86400) (sec : Nat) (f : Feed) (hf : Serves e first ds (i + 1) sec f)
    (hp : Ready ds.length f.fpos) :
    ∃ f', updateParams e cal (some (fileOf tail ds)) j f (e.ymd2mjd 2022 7 25) s =
        some (⟨2022, 206, s, wanted ds (ds[i]'(by have := h.next; omega)) (ds[i - 1]'(by have := h.next; omega)) i s⟩, f') ∧
      Serves e first ds i s f' := by
  have hn := h.next
  obtain ⟨f', h1, h2, h3⟩ := update_served e tail ht first ds hok hd j (i + 1) sec f hf hp i s h.three (by omega) hs
  refine ⟨f', ?_, h2⟩
  rw [request25_eq hc first j i hi _ f s hs, h1]
  obtain ⟨_, _, hpar⟩ := h2.params
  simp only [hpar]

include hc ht hok hd h hi in
/-- And the one for 26 July. -/
theorem request26_served (sec : Nat) (f : Feed) (hf : Serves e first ds i sec f) (hp : Ready ds.length f.fpos) :
    ∃ f', updateParams e cal (some (fileOf tail ds)) j f (e.ymd2mjd 2022 7 25) 97200 = some (⟨2022, 207, 10800, refNext⟩, f') ∧
      Serves e first ds (i + 1) 10800 f' ∧ f'.params = refNext ∧ f'.fpos = nextPos ds.length (i + 1) := by
  have hn := h.next
  have h3 := h.three
  obtain ⟨f', h1, h2, h3⟩ := update_served e tail ht first ds hok hd j i sec f hf hp (i + 1) 10800 (by omega) h.next (by norm_num)
  have hpar : f'.params = refNext := by
    obtain ⟨_, _, hpar⟩ := h2.params
    simp only [Nat.add_sub_cancel] at hpar
    rw [hpar, july_next e ds hok i h 10800 (by norm_num) (by norm_num)]
  refine ⟨f', ?_, h2, hpar, ?_⟩
  · rw [request26_eq hc first j i hi, h1]
    simp only [hpar]
    norm_num
  · rw [h3, if_neg (by omega)]

include hc hi in
/-- The request for 26 July is refused when the position is behind the last line. -/
theorem request26_refused (sec : Nat) (f : Feed) (hf : Serves e first ds i sec f) (hp : f.fpos = .line (ds.length + 1)) :
    updateParams e cal (some (fileOf tail ds)) j f (e.ymd2mjd 2022 7 25) 97200 =
      some (⟨2022, 207, ((10800 : Nat) : ℚ), f.params⟩, { f with fpos := .top }) := by
  have hg : getNext e (some (fileOf tail ds)) j.buf (first + ((i + 1 : Nat) : Int)) j.flux f.flux (.line (ds.length + 1)) =
      .ret 1 f.flux .top := by
    unfold getNext
    rw [parse_at_end]
    simp
  have hu : update e (some (fileOf tail ds)) j f (first + ((i + 1 : Nat) : Int)) 10800 = .fail { f with fpos := .top } := by
    unfold update
    simp only [show (10800 : Nat) / 86400 = 0 by norm_num, Nat.cast_zero, add_zero, hf.mjd, hp, hg]
    rw [if_neg (by push_cast; omega), if_pos (by push_cast; ring)]
    simp
  rw [request26_eq hc first j i hi, hu]

include hc hi in
/-- So is the one back to 25 July. -/
theorem request25_refused (s : Nat) (hs : s < 86400) (sec : Nat) (f : Feed) (hf : Serves e first ds (i + 1) sec f)
    (hp : f.fpos = .line (ds.length + 1)) :
    updateParams e cal (some (fileOf tail ds)) j f (e.ymd2mjd 2022 7 25) s =
      some (⟨2022, 206, s, f.params⟩, { f with fpos := .top }) := by
  have hu : update e (some (fileOf tail ds)) j f (first + i) s = .fail { f with fpos := .top } := by
    unfold update
    simp only [Nat.div_eq_of_lt hs, Nat.cast_zero, add_zero, hf.mjd, hp]
    rw [if_neg (by push_cast; omega), if_neg (by push_cast; omega), parse_at_end]
    simp
  rw [request25_eq hc first j i hi _ f s hs, hu]

end

theorem serves_top {e : Ext} {first : Int} {ds : List Day} {k sec : Nat} {f : Feed} (hf : Serves e first ds k sec f) :
    Serves e first ds k sec { f with fpos := .top } := ⟨hf.mjd, hf.flux, hf.chi, hf.params⟩

theorem feedRun_good (e : Ext) (cal : Calendar) (file : Option (List Line)) (j : Junk) (mjd : Int) (s : Nat) (r c : Core)
    (rest : List (Nat × Core)) (f f' : Feed) (error : Nat) (h : updateParams e cal file j f mjd s = some (c, f')) (hc : c = r) :
    feedRun e cal file j mjd ((s, r) :: rest) f error = feedRun e cal file j mjd rest f' error := by
  rw [feedRun, h, hc]
  simp only
  rw [if_neg (by rw [differ_self]; simp)]

theorem feedRun_bad (e : Ext) (cal : Calendar) (file : Option (List Line)) (j : Junk) (mjd : Int) (s : Nat) (r c : Core)
    (rest : List (Nat × Core)) (f f' : Feed) (error : Nat) (h : updateParams e cal file j f mjd s = some (c, f'))
    (hd : differ c r ≠ 0) :
    feedRun e cal file j mjd ((s, r) :: rest) f error = feedRun e cal file j mjd rest f' (error + 1) := by
  rw [feedRun, h]
  simp only
  rw [if_pos hd]

/-! ### The program -/

section
variable {e : Ext} {cal : Calendar} (hc : KnowsJuly e cal) (tail : List Char) (ht : TailOk tail) (first : Int) (ds : List Day)
  (hok : ∀ d ∈ ds, d.Ok e) (hd : Daily e first ds) (j : Junk) (i : Nat) (h : July ds i) (hi : e.ymd2mjd 2022 7 25 = first + i)

include hc hok h hi in
/-- The first five requests, all of them on 25 July. -/
theorem feed_start (file : Option (List Line)) (f : Feed) (hf : Serves e first ds i 0 f) :
    ∃ f', Serves e first ds i 14400 f' ∧ f'.params = refSecond ∧ f'.fpos = f.fpos ∧
      feedRun e cal file j (e.ymd2mjd 2022 7 25) feedCases f 0 =
        feedRun e cal file j (e.ymd2mjd 2022 7 25)
          [(97200, ⟨2022, 207, 10800, refNext⟩), (1, ⟨2022, 206, 1, refFirst⟩), (86395, ⟨2022, 206, 86395, refEnd⟩)] f' 0 := by
  obtain ⟨f1, u1, s1, p1⟩ := request25_same hc first ds hok j i h hi file 0 (by norm_num) _ f hf
  obtain ⟨f2, u2, s2, p2⟩ := request25_same hc first ds hok j i h hi file 3600 (by norm_num) _ f1 s1
  obtain ⟨f3, u3, s3, p3⟩ := request25_same hc first ds hok j i h hi file 7200 (by norm_num) _ f2 s2
  obtain ⟨f4, u4, s4, p4⟩ := request25_same hc first ds hok j i h hi file 10800 (by norm_num) _ f3 s3
  obtain ⟨f5, u5, s5, p5⟩ := request25_same hc first ds hok j i h hi file 14400 (by norm_num) _ f4 s4
  rw [july_first e ds hok i h _ (by norm_num)] at u1 u2 u3
  rw [july_second e ds hok i h _ (by norm_num) (by norm_num)] at u4 u5
  refine ⟨f5, s5, ?_, by rw [p5, p4, p3, p2, p1], ?_⟩
  · obtain ⟨_, _, hpar⟩ := s5.params
    rw [hpar, july_second e ds hok i h _ (by norm_num) (by norm_num)]
  · unfold feedCases
    rw [feedRun_good _ _ _ _ _ _ _ _ _ _ _ _ u1 (by norm_num), feedRun_good _ _ _ _ _ _ _ _ _ _ _ _ u2 (by norm_num),
      feedRun_good _ _ _ _ _ _ _ _ _ _ _ _ u3 (by norm_num), feedRun_good _ _ _ _ _ _ _ _ _ _ _ _ u4 (by norm_num),
      feedRun_good _ _ _ _ _ _ _ _ _ _ _ _ u5 (by norm_num)]

include hc hok h hi in
/-- The last request, when the feed is on 25 July. -/
theorem feed_last (file : Option (List Line)) (sec : Nat) (f : Feed) (hf : Serves e first ds i sec f) (error : Nat) :
    feedRun e cal file j (e.ymd2mjd 2022 7 25) [(86395, ⟨2022, 206, 86395, refEnd⟩)] f error = some error := by
  obtain ⟨f1, u1, s1, p1⟩ := request25_same hc first ds hok j i h hi file 86395 (by norm_num) _ f hf
  rw [july_end e ds hok i h _ (by norm_num) (by norm_num)] at u1
  rw [feedRun_good _ _ _ _ _ _ _ _ _ _ _ _ u1 (by norm_num)]
  rfl

include hc ht hok hd h hi in
/-- **C160** How the program ends on a file of daily lines that has 22 to 26 July 2022 with the values of the reference: with status
0 when at least two more days follow, and with status 1, one case counted as a failure, when none or one does. -/
theorem feed_status :
    feedMain e cal 2 (some (fileOf tail ds)) j = .exit (if i + 4 ≤ ds.length then 0 else 1) := by
  have hn := h.next
  have h3 := h.three
  obtain ⟨f0, c0, s0, p0⟩ := construct_served e tail ht first ds hok hd j i 0 h3 (by omega) (by norm_num)
  obtain ⟨f, sf, pf, hpos, hrun⟩ := feed_start hc first ds hok j i h hi (some (fileOf tail ds)) f0 s0
  have hfin : feedMain e cal 2 (some (fileOf tail ds)) j =
      match feedRun e cal (some (fileOf tail ds)) j (e.ymd2mjd 2022 7 25) feedCases f0 0 with
      | none => .undefined
      | some error => .exit error := by
    unfold feedMain
    simp only [hc.july25, hc.back25]
    rw [hi, c0]
    simp only [ne_eq, not_true_eq_false, if_false]
    cases feedRun e cal (some (fileOf tail ds)) j (first + i) feedCases f0 0 <;> rfl
  rw [hfin, hrun]
  have hbad : ∀ a b : Core, a.params.f107A = 116.4 → b.params.f107A = 116.0 → differ a b ≠ 0 := by
    intro a b ha hb
    apply differ_f107A
    rw [ha, hb]
    norm_num [abs_of_pos]
  have hbad' : ∀ a b : Core, a.params.f107A = 116.0 → b.params.f107A = 116.4 → differ a b ≠ 0 := by
    intro a b ha hb
    apply differ_f107A
    rw [ha, hb, abs_sub_comm]
    norm_num [abs_of_pos]
  by_cases hend : ds.length = i + 2
  · rw [if_neg (by omega)]
    have hb : f.fpos = .line (ds.length + 1) := by
      rw [hpos, p0, nextPos, if_pos (by omega), hend]
    have u := request26_refused hc tail first ds j i hi _ f sf hb
    rw [feedRun_bad _ _ _ _ _ _ _ _ _ _ _ _ u (hbad _ _ (by rw [pf]; rfl) rfl)]
    obtain ⟨f1, u1, s1, p1⟩ := request25_same hc first ds hok j i h hi (some (fileOf tail ds)) 1 (by norm_num) _ _ (serves_top sf)
    rw [july_first e ds hok i h _ (by norm_num)] at u1
    rw [feedRun_good _ _ _ _ _ _ _ _ _ _ _ _ u1 (by norm_num), feed_last hc first ds hok j i h hi _ _ f1 s1]
  · have hr : Ready ds.length f.fpos := by
      rw [hpos, p0]
      exact ready_next _ _ (by omega)
    obtain ⟨g, u, sg, pg, gpos⟩ := request26_served hc tail ht first ds hok hd j i h hi _ f sf hr
    rw [feedRun_good _ _ _ _ _ _ _ _ _ _ _ _ u rfl]
    by_cases hend' : ds.length = i + 3
    · rw [if_neg (by omega)]
      have hb : g.fpos = .line (ds.length + 1) := by
        rw [gpos, nextPos, if_pos (by omega), hend']
      have u1 := request25_refused hc tail first ds j i hi 1 (by norm_num) _ g sg hb
      rw [feedRun_bad _ _ _ _ _ _ _ _ _ _ _ _ u1 (hbad' _ _ (by rw [pg]; rfl) rfl)]
      obtain ⟨f1, v1, s1⟩ := request25_back hc tail ht first ds hok hd j i h hi 86395 (by norm_num) _ _ (serves_top sg) (.inl rfl)
      rw [july_end e ds hok i h _ (by norm_num) (by norm_num)] at v1
      rw [feedRun_good _ _ _ _ _ _ _ _ _ _ _ _ v1 (by norm_num)]
      rfl
    · rw [if_pos (by omega)]
      obtain ⟨f1, u1, s1⟩ := request25_back hc tail ht first ds hok hd j i h hi 1 (by norm_num) _ g sg
        (by rw [gpos]; exact ready_next _ _ (by omega))
      rw [july_first e ds hok i h _ (by norm_num)] at u1
      rw [feedRun_good _ _ _ _ _ _ _ _ _ _ _ _ u1 (by norm_num), feed_last hc first ds hok j i h hi _ _ f1 s1]

include hc ht hok hd h hi in
/-- **C160** The program finds no difference when the file goes on for two days or more. -/
theorem feed_passes_partial (hlen : i + 4 ≤ ds.length) : feedMain e cal 2 (some (fileOf tail ds)) j = .exit 0 := by
  rw [feed_status hc tail ht first ds hok hd j i h hi, if_pos hlen]

include hc ht hok hd h hi in
/-- The program reports a failure on a file that has every day and every value it asks for but ends with 26 or 27 July: the feed
refuses the first request after the last day but one has been read, the program ignores the status, and the values of the day before
are compared. -/
theorem feed_short_file_counterexample (hlen : ds.length < i + 4) : feedMain e cal 2 (some (fileOf tail ds)) j = .exit 1 := by
  rw [feed_status hc tail ht first ds hok hd j i h hi, if_neg (by omega)]

end

/-! ### Example: rows 210 to 216 of unit_test/SW-test-data.csv -/

/-- The value of a decimal number. -/
def decValue (t : List Char) : ℚ :=
  (((t.filter Char.isDigit).foldl (fun n c => 10 * n + (c.toNat - 48)) 0 : Nat) : ℚ) / 10 ^ ((t.dropWhile (· ≠ '.')).length - 1)

/-- A reader of decimal numbers, and the days of July 2022. -/
def decExt : Ext :=
  ⟨fun s => some (decValue (s.takeWhile (· ≠ ',')), s.dropWhile (· ≠ ',')), fun _ _ d => 59760 + d, fun _ f => f⟩

def decNum (s : String) : Num := ⟨s.toList, decValue s.toList⟩

theorem decNum_ok (s : String) (h0 : '\x00' ∉ s.toList) (hc : ',' ∉ s.toList) : (decNum s).Ok decExt := by
  refine ⟨h0, ?_⟩
  intro r hr
  have hall : ∀ c ∈ s.toList, (decide (c ≠ ',')) = true := by
    intro c hcm
    simp only [decide_eq_true_eq]
    rintro rfl
    exact hc hcm
  simp only [decExt, decNum]
  rw [List.takeWhile_append_of_pos hall, List.dropWhile_append_of_pos hall]
  rcases hr with rfl | hr
  · simp
  · match r, hr with
    | c :: r, hr =>
      simp only [List.head?_cons, Option.some.injEq] at hr
      subst hr
      simp

def julyDay (d : Nat) (early : List String) (ap : List Int) (avg cp c9 isn obs adj oc ol ac al : String) : Day where
  year := 2022
  month := 7
  day := d
  early := early.map String.toList
  ap := ap
  apAvg := decNum avg
  cp := cp.toList
  c9 := c9.toList
  isn := isn.toList
  obs := decNum obs
  adj := decNum adj
  type := "OBS".toList
  obsC81 := decNum oc
  obsL81 := decNum ol
  adjC81 := decNum ac
  adjL81 := al.toList

def julyDays : List Day :=
  [julyDay 22 ["2577", "10", "37", "23", "27", "23", "13", "23", "17", "27", "190"] [22, 9, 12, 9, 5, 9, 6, 12] "10" "0.6" "3" "64" "114.7" "118.4" "117.2" "128.6" "120.7" "132.3",
   julyDay 23 ["2577", "11", "43", "57", "37", "20", "20", "7", "13", "27", "224"] [32, 67, 22, 7, 7, 3, 5, 12] "19" "1.0" "5" "64" "110.5" "114.1" "117.0" "128.6" "120.6" "132.3",
   julyDay 24 ["2577", "12", "27", "23", "20", "13", "13", "23", "23", "17", "159"] [12, 9, 7, 5, 5, 9, 9, 6] "7" "0.4" "2" "64" "107.1" "110.5" "116.8" "128.3" "120.3" "132.0",
   julyDay 25 ["2577", "13", "27", "17", "3", "7", "10", "10", "7", "20", "101"] [12, 6, 2, 3, 4, 4, 3, 7] "5" "0.2" "1" "64" "102.3" "105.5" "116.4" "128.1" "119.8" "131.8",
   julyDay 26 ["2577", "14", "33", "20", "7", "17", "17", "10", "7", "20", "131"] [18, 7, 3, 6, 6, 4, 3, 7] "6" "0.3" "1" "64" "98.8" "101.9" "116.0" "127.8" "119.5" "131.6",
   julyDay 27 ["2577", "15", "23", "23", "17", "20", "20", "23", "20", "27", "173"] [9, 9, 6, 7, 7, 9, 7, 12] "8" "0.4" "2" "64" "98.0" "101.1" "115.7" "127.6" "119.1" "131.3",
   julyDay 28 ["2577", "16", "17", "20", "23", "10", "23", "17", "13", "10", "133"] [6, 7, 9, 4, 9, 6, 5, 4] "6" "0.3" "1" "64" "93.4" "96.3" "115.4" "127.3" "118.7" "131.0"]

def julyCal : Calendar := ⟨fun m => (2022, m - 59579), fun _ d => d + 59579⟩

theorem julyDays_ok : ∀ d ∈ julyDays, d.Ok decExt := by
  intro d hd
  simp only [julyDays, List.mem_cons, List.not_mem_nil, or_false] at hd
  rcases hd with rfl | rfl | rfl | rfl | rfl | rfl | rfl <;>
    exact ⟨by decide +kernel, by decide +kernel, by decide +kernel, ⟨by decide +kernel, by unfold Free; decide +kernel⟩,
      by decide +kernel, decNum_ok _ (by decide +kernel) (by decide +kernel), ⟨by unfold Free; decide +kernel, by decide +kernel⟩,
      by unfold Free; decide +kernel, by unfold Free; decide +kernel, decNum_ok _ (by decide +kernel) (by decide +kernel),
      decNum_ok _ (by decide +kernel) (by decide +kernel), by decide +kernel, decNum_ok _ (by decide +kernel) (by decide +kernel),
      decNum_ok _ (by decide +kernel) (by decide +kernel), decNum_ok _ (by decide +kernel) (by decide +kernel), by decide +kernel,
      by decide +kernel⟩

theorem julyDays_july : July julyDays 3 :=
  ⟨by decide, by decide, by decide +kernel, by decide +kernel, by decide +kernel, by decide +kernel, by decide +kernel,
    by decide +kernel, by decide +kernel, by decide +kernel, by decide +kernel, by decide +kernel, by decide +kernel⟩

theorem julyDays_daily : Daily decExt 59782 julyDays := by
  intro i h
  have hall : ∀ i : Fin julyDays.length, (julyDays[i.1]'i.2).mjd decExt = 59782 + (i.1 : Int) := by decide +kernel
  exact hall ⟨i, h⟩

theorem julyCal_knows : KnowsJuly decExt julyCal := ⟨by decide +kernel, by decide +kernel, by decide +kernel, by decide +kernel⟩

example (j : Junk) : feedMain decExt julyCal 2 (some (fileOf [] julyDays)) j = .exit 0 :=
  feed_passes_partial julyCal_knows [] ⟨by decide, by decide +kernel⟩ 59782 julyDays julyDays_ok julyDays_daily j 3 julyDays_july (by decide +kernel)
    (by decide)

/-- The same rows up to 26 July. -/
example (j : Junk) : feedMain decExt julyCal 2 (some (fileOf [] (julyDays.take 5))) j = .exit 1 :=
  feed_short_file_counterexample julyCal_knows [] ⟨by decide, by decide +kernel⟩ 59782 _ (fun d hd => julyDays_ok d (List.mem_of_mem_take hd))
    (by intro i h; rw [List.getElem_take]; exact julyDays_daily i (by simp at h; omega)) j 3
    ⟨by decide, by decide, by decide +kernel, by decide +kernel, by decide +kernel, by decide +kernel, by decide +kernel,
      by decide +kernel, by decide +kernel, by decide +kernel, by decide +kernel, by decide +kernel, by decide +kernel⟩
    (by decide +kernel) (by decide)

end Verif.SpaceWeather.Write
