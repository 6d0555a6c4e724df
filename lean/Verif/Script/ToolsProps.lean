import Verif.Script.ToolsModel
import Verif.Script.LogProps
import Verif.Script.BulletinProps
import Verif.SpaceWeather.WriteProps

/-! C151: the remaining scripts. -/
namespace Verif.Script.Tools

open Verif.Text
open Verif.Script.Bulletin (strip dec)
open Verif.Script.Log (Py Antenna antennas)
open Verif.Rinex (Line)

/-! ### os.path -/

theorem rfind_none (c : Char) (s : List Char) : rfind c s = none ↔ c ∉ s := by
  induction s with
  | nil => simp [rfind]
  | cons x s ih =>
    cases h : rfind c s with
    | none =>
      have hs := ih.1 h
      by_cases hx : x = c
      · simp [rfind, h, hx]
      · have : ¬ c = x := fun e => hx e.symm
        simp [rfind, h, hx, hs, this]
    | some i =>
      have : c ∈ s := by
        by_contra hc
        rw [ih.2 hc] at h
        cases h
      simp [rfind, h, this]

theorem rfind_some (c : Char) (a b : List Char) (h : c ∉ b) : rfind c (a ++ c :: b) = some a.length := by
  induction a with
  | nil => simp [rfind, (rfind_none c b).2 h]
  | cons x a ih => simp [rfind, ih]

theorem rfind_split (c : Char) (s : List Char) (i : Nat) (h : rfind c s = some i) :
    ∃ a b, s = a ++ c :: b ∧ c ∉ b ∧ a.length = i := by
  induction s generalizing i with
  | nil => simp [rfind] at h
  | cons x s ih =>
    cases hs : rfind c s with
    | none =>
      by_cases hx : x = c
      · simp [rfind, hs, hx] at h
        exact ⟨[], s, by rw [hx]; rfl, (rfind_none c s).1 hs, h⟩
      · simp [rfind, hs, hx] at h
    | some j =>
      simp [rfind, hs] at h
      obtain ⟨a, b, rfl, hb, rfl⟩ := ih j hs
      exact ⟨x :: a, b, rfl, hb, by simpa using h⟩

/-- **C151** The extension of a file name (without directories): everything from the last dot, if something other than dots
comes before it. -/
theorem extension_iff (fn e : List Char) (hs : '/' ∉ fn) :
    extension fn = '.' :: e ↔ ∃ stem, fn = stem ++ '.' :: e ∧ '.' ∉ e ∧ ∃ c ∈ stem, c ≠ '.' := by
  unfold extension
  rw [(rfind_none _ _).2 hs]
  simp only [Option.elim_none, Nat.zero_le, true_and, List.drop_zero, Nat.sub_zero]
  constructor
  · intro h
    cases hd : rfind '.' fn with
    | none => rw [hd] at h; cases h
    | some i =>
      rw [hd] at h
      obtain ⟨a, b, rfl, hb, rfl⟩ := rfind_split _ _ _ hd
      simp only [List.take_left, List.drop_left] at h
      split at h
      · rename_i ha
        simp only [List.cons.injEq, true_and] at h
        subst h
        simp only [List.any_eq_true, bne_iff_ne, ne_eq] at ha
        exact ⟨a, rfl, hb, ha⟩
      · cases h
  · rintro ⟨stem, rfl, he, c, hc, hne⟩
    rw [rfind_some _ _ _ he]
    simp only [List.take_left, List.drop_left]
    rw [if_pos (by simp only [List.any_eq_true, bne_iff_ne, ne_eq]; exact ⟨c, hc, hne⟩)]

/-- **C151** Which files of a directory count as logs. -/
theorem isLog_iff (fn : List Char) (hs : '/' ∉ fn) :
    isLog fn = true ↔ ∃ stem, (fn = stem ++ ".log".toList ∨ fn = stem ++ ".LOG".toList) ∧ ∃ c ∈ stem, c ≠ '.' := by
  unfold isLog
  simp only [List.contains_cons, List.contains_nil, Bool.or_false, Bool.or_eq_true, beq_iff_eq]
  rw [show ".log".toList = '.' :: "log".toList by decide, show ".LOG".toList = '.' :: "LOG".toList by decide,
    extension_iff fn _ hs, extension_iff fn _ hs]
  constructor
  · rintro (⟨s, h, -, hc⟩ | ⟨s, h, -, hc⟩)
    · exact ⟨s, .inl h, hc⟩
    · exact ⟨s, .inr h, hc⟩
  · rintro ⟨s, h | h, hc⟩
    · exact .inl ⟨s, h, by decide, hc⟩
    · exact .inr ⟨s, h, by decide, hc⟩

/-! ### Space weather -/

/-- The text of lines. -/
def textOf (ls : List Line) : List Char := ls.flatMap fun l => l.text ++ if l.eol then ['\n'] else []

/-- The lines of a text. -/
def linesOf : List Char → List Line
  | [] => []
  | c :: s =>
    if c = '\n' then ⟨[], true⟩ :: linesOf s
    else match linesOf s with
      | [] => [⟨[c], false⟩]
      | l :: ls => ⟨c :: l.text, l.eol⟩ :: ls

theorem linesOf_line (t s : List Char) (h : '\n' ∉ t) : linesOf (t ++ '\n' :: s) = ⟨t, true⟩ :: linesOf s := by
  induction t with
  | nil => simp [linesOf]
  | cons c t ih =>
    simp only [List.mem_cons, not_or] at h
    simp [linesOf, ih h.2, Ne.symm h.1]

theorem linesOf_text (ls : List Line) (h : ∀ l ∈ ls, l.eol = true ∧ '\n' ∉ l.text) : linesOf (textOf ls) = ls := by
  induction ls with
  | nil => rfl
  | cons l ls ih =>
    have h1 := h l List.mem_cons_self
    have := ih fun l hl => h l (List.mem_cons_of_mem _ hl)
    obtain ⟨t, e⟩ := l
    simp only at h1
    obtain ⟨rfl, h1⟩ := h1
    simp only [textOf, List.flatMap_cons, if_true, List.append_assoc, List.singleton_append]
    rw [linesOf_line t _ h1]
    exact congrArg _ this

open Verif.SpaceWeather Verif.SpaceWeather.Write in
/-- **C151** The file fetched is stored under the directory and name asked for, and when the server has sent a file of the
format, a feed from that file serves its values. -/
theorem fetched_served (e : Ext) (tail : List Char) (ht : TailOk tail) (first : Int) (ds : List Verif.SpaceWeather.Write.Day) (hok : ∀ d ∈ ds, d.Ok e)
    (hd : Daily e first ds) (hn : ∀ l ∈ Verif.SpaceWeather.Write.fileOf tail ds, '\n' ∉ l.text) (isdir : List Char → Bool) (get : List Char → Reply)
    (dir name : List Char) (all : Bool) (hdir : isdir dir = true) (hne : dir ≠ [] ∧ dir.getLast? ≠ some '/') (hname : name ≠ [] ∧ name.head? ≠ some '/')
    (hget : (get (remoteCsv all)).content = textOf (Verif.SpaceWeather.Write.fileOf tail ds)) (j : Junk) (i sec : Nat) (h3 : 3 ≤ i)
    (hi : i < ds.length) (hs : sec < 86400) :
    ∃ content f, celestrak isdir get (some name) dir all = ⟨0, some (dir ++ '/' :: name, content)⟩ ∧
      construct e (some (linesOf content)) j (first + i) sec = some (.ok f) ∧ Serves e first ds i sec f := by
  obtain ⟨f, h1, h2, -⟩ := construct_served e tail ht first ds hok hd j i sec h3 hi hs
  refine ⟨textOf (Verif.SpaceWeather.Write.fileOf tail ds), f, ?_, ?_, h2⟩
  · unfold celestrak
    rw [if_neg (by rw [hdir]; decide)]
    simp only [hget]
    cases name with
    | nil => exact absurd rfl hname.1
    | cons c t =>
      simp only [join]
      rw [if_neg hname.2, if_neg (by rintro (h | h); exacts [hne.1 h, hne.2 h])]
  · rw [linesOf_text]
    · exact h1
    · intro l hl
      refine ⟨?_, hn l hl⟩
      simp only [Verif.SpaceWeather.Write.fileOf, List.mem_cons, List.mem_map] at hl
      rcases hl with rfl | ⟨d, -, rfl⟩ <;> rfl

/-- **C151** Without a name the file keeps the name it has on the server. -/
theorem default_names (isdir : List Char → Bool) (get : List Char → Reply) (dir : List Char) (hdir : isdir dir = true)
    (hne : dir ≠ [] ∧ dir.getLast? ≠ some '/') :
    (celestrak isdir get none dir true).written = some (dir ++ "/SW-All.csv".toList, (get (remoteCsv true)).content) ∧
      (celestrak isdir get none dir false).written = some (dir ++ "/SW-Last5Years.csv".toList, (get (remoteCsv false)).content) := by
  have e1 : basename (remoteCsv true) = "SW-All.csv".toList := by decide +kernel
  have e2 : basename (remoteCsv false) = "SW-Last5Years.csv".toList := by decide +kernel
  have e3 : ∀ n : List Char, n.head? ≠ some '/' → join dir n = dir ++ '/' :: n := by
    intro n h
    unfold join
    rw [if_neg h, if_neg (by rintro (h | h); exacts [hne.1 h, hne.2 h])]
  unfold celestrak
  rw [if_neg (by rw [hdir]; decide), if_neg (by rw [hdir]; decide)]
  simp only [e1, e2]
  rw [e3 _ (by decide), e3 _ (by decide)]
  exact ⟨rfl, rfl⟩

/-- The status of the reply is not looked at: whatever page the server sends with an error takes the place of the file, and
the script reports success. -/
theorem error_page_counterexample (isdir : List Char → Bool) (dir name page : List Char) (all : Bool) (status : Nat)
    (hdir : isdir dir = true) (hn : name ≠ []) :
    celestrak isdir (fun _ => ⟨status, page⟩) (some name) dir all = ⟨0, some (join dir name, page)⟩ := by
  unfold celestrak
  rw [if_neg (by rw [hdir]; decide)]
  cases name with
  | nil => exact absurd rfl hn
  | cons c t => rfl

/-- A name that begins with a slash takes the place of the directory. -/
theorem absolute_name_counterexample (isdir : List Char → Bool) (get : List Char → Reply) (dir t : List Char) (all : Bool)
    (hdir : isdir dir = true) :
    (celestrak isdir get (some ('/' :: t)) dir all).written = some ('/' :: t, (get (remoteCsv all)).content) := by
  unfold celestrak
  rw [if_neg (by rw [hdir]; decide)]
  rfl

/-! ### Attitude -/

theorem chunks_flatten (size : Nat) (hs : 0 < size) (n : Nat) (s : List Char) (hn : s.length < n) : (chunks size n s).flatten = s := by
  induction n generalizing s with
  | zero => omega
  | succ n ih =>
    cases s with
    | nil => rfl
    | cons c s =>
      simp only [chunks, List.flatten_cons]
      rw [ih _ (by simp only [List.length_drop, List.length_cons] at hn ⊢; omega), List.take_append_drop]

/-- The address of a directory listing is that of its year within the year 2021 of Jason-3, for every satellite and year:
never the one under the satellite and year asked for. -/
theorem address_counterexample (satellite : List Char) (year : Nat) (hs : satellite ≠ [] ∧ satellite.head? ≠ some '/') :
    md5sums satellite year = cddisUrl ++ (satellite ++ '/' :: (dec year ++ "/MD5SUMS".toList)) ∧
      md5sums satellite year ≠ "https://cddis.nasa.gov/archive/doris/ancillary/quaternions/".toList ++
        (satellite ++ '/' :: (dec year ++ "/MD5SUMS".toList)) := by
  have e : md5sums satellite year = cddisUrl ++ (satellite ++ '/' :: (dec year ++ "/MD5SUMS".toList)) := by
    have h1 : join cddisUrl (satellite ++ '/' :: dec year) = cddisUrl ++ (satellite ++ '/' :: dec year) := by
      unfold join
      rw [if_neg, if_pos (.inr (by decide +kernel))]
      cases satellite with
      | nil => exact absurd rfl hs.1
      | cons c t => simpa using hs.2
    unfold md5sums
    rw [h1]
    unfold join
    rw [if_neg (by decide), if_neg]
    · rw [show "/MD5SUMS".toList = '/' :: "MD5SUMS".toList by decide]
      simp
    · rintro (h | h)
      · exact absurd (List.append_eq_nil_iff.1 h).2 (by simp)
      · have hd := Verif.Script.Bulletin.dec_ne year
        rw [List.getLast?_append_of_ne_nil _ (by simp), List.getLast?_append_of_ne_nil _ (by simp),
          List.getLast?_cons] at h
        cases hl : (dec year).getLast? with
        | none => exact hd (List.getLast?_eq_none_iff.1 hl)
        | some z =>
          rw [hl] at h
          simp only [Option.getD_some, Option.some.injEq] at h
          have := Verif.Script.Bulletin.dec_digits year z (List.mem_of_getLast? hl)
          rw [h] at this
          revert this
          decide
  refine ⟨e, ?_⟩
  rw [e]
  intro h
  have := List.append_cancel_right h
  revert this
  decide +kernel

/-- The listing is stored in full, but as `foo` in the current directory, whatever the directory asked for. -/
theorem directory_counterexample (isdir : List Char → Bool) (year : List Char → Option Nat) (get : List Char → Reply)
    (satellite date dir : List Char) (y : Nat) (hdir : isdir dir = true) (hy : year date = some y)
    (hok : (get (md5sums satellite y)).status < 400) :
    quaternions isdir year get satellite date dir = ⟨0, some ("foo".toList, (get (md5sums satellite y)).content)⟩ := by
  unfold quaternions
  rw [if_neg (by rw [hdir]; decide), hy]
  simp only
  rw [if_neg (by omega), chunks_flatten 1000 (by decide) _ _ (Nat.lt_succ_self _)]

/-! ### List of antennas -/

/-- **C151** If every log can be read, the list has the antennas of all logs of the directory, in the order of its files,
and of no other file. -/
theorem stations_listed {V D : Type} (py : Py V D) (read : List Char → List (List Char)) (part : List Char → List (Antenna V D))
    (dir : List Char) (fns : List (List Char)) (xs : List Char → List (Antenna V D))
    (h : ∀ fn ∈ fns, isLog fn = true → antennas py (read (join dir fn)) = some (xs fn)) :
    stations py read part dir fns = ((fns.filter isLog).flatMap xs, true) := by
  induction fns with
  | nil => rfl
  | cons fn rest ih =>
    have hr := ih fun g hg => h g (List.mem_cons_of_mem _ hg)
    by_cases hl : isLog fn = true
    · rw [stations, if_pos hl, h fn List.mem_cons_self hl, hr, List.filter_cons_of_pos hl]
      rfl
    · rw [stations, if_neg hl, hr, List.filter_cons_of_neg hl]

/-- One log that cannot be read ends the list: the antennas of all files listed after it are missing, though their logs are
good. -/
theorem bad_log_counterexample {V D : Type} (py : Py V D) (read : List Char → List (List Char)) (part : List Char → List (Antenna V D))
    (dir : List Char) (fns : List (List Char)) (bad : List Char) (later : List (List Char)) (xs : List Char → List (Antenna V D))
    (h : ∀ fn ∈ fns, isLog fn = true → antennas py (read (join dir fn)) = some (xs fn)) (hb : isLog bad = true)
    (hbad : antennas py (read (join dir bad)) = none) :
    stations py read part dir (fns ++ bad :: later) = ((fns.filter isLog).flatMap xs ++ part bad, false) := by
  induction fns with
  | nil => simp [stations, hb, hbad]
  | cons fn rest ih =>
    have hr := ih fun g hg => h g (List.mem_cons_of_mem _ hg)
    rw [List.cons_append]
    by_cases hl : isLog fn = true
    · rw [stations, if_pos hl, h fn List.mem_cons_self hl, hr, List.filter_cons_of_pos hl]
      simp
    · rw [stations, if_neg hl, hr, List.filter_cons_of_neg hl]

/-- Asked to store the list as a log in the directory of the logs, the script takes its own, still empty, output for a log,
and stops there. -/
theorem own_output_counterexample {V D : Type} (py : Py V D) (read : List Char → List (List Char)) (part : List Char → List (Antenna V D))
    (dir : List Char) (fns : List (List Char)) (out : List Char) (later : List (List Char)) (xs : List Char → List (Antenna V D))
    (h : ∀ fn ∈ fns, isLog fn = true → antennas py (read (join dir fn)) = some (xs fn)) (hb : isLog out = true)
    (hout : read (join dir out) = []) : (stations py read part dir (fns ++ out :: later)).2 = false := by
  rw [bad_log_counterexample py read part dir fns out later xs h hb (by rw [hout]; rfl)]

/-- The heading has the columns of the lines below it: names of 4 characters, dates of 19, heights of 9. -/
theorem heading_columns : heading.length = 4 + 1 + 19 + 1 + 19 + 1 + 9 ∧ heading.take 4 = "Site".toList ∧
    (heading.drop 5).take 4 = "From".toList ∧ (heading.drop 25).take 2 = "To".toList ∧
    (heading.drop 45).take 6 = "Height".toList := by decide +kernel

/-! ### C headers -/

/-- What a line is to the preprocessor. -/
inductive Kind where
  | cond
  | elif
  | els
  | endif
  | text
deriving DecidableEq

/-- The kind of a line, by the text after its leading blanks. -/
def kind (l : List Char) : Kind :=
  let s := l.dropWhile isSpace
  if "#if".toList.isPrefixOf s then .cond
  else if "#elif".toList.isPrefixOf s then .elif
  else if "#else".toList.isPrefixOf s then .els
  else if "#endif".toList.isPrefixOf s then .endif
  else .text

/-- The open conditions after a line: is this branch used, and was one used up to here. -/
def open' (h : Bool) : Kind → List (Bool × Bool) → Option (List (Bool × Bool))
  | .cond, st => some ((h, h) :: st)
  | .elif, (_, t) :: st => some ((!t && h, t || h) :: st)
  | .els, (_, t) :: st => some ((!t, true) :: st)
  | .endif, _ :: st => some st
  | .text, st => some st
  | _, [] => none

/-- Conditional compilation: the lines used, and the conditions still open.  `holds` evaluates the conditions, and `none` is
a file whose conditions are not balanced. -/
def cpp (holds : List Char → Bool) : List (Bool × Bool) → List (List Char) → Option (List (List Char) × List (Bool × Bool))
  | st, [] => some ([], st)
  | st, l :: ls => (open' (holds (strip l)) (kind l) st).bind fun st' => (cpp holds st' ls).map fun r =>
      (if kind l = .text ∧ st.all (·.1) then l :: r.1 else r.1, r.2)

theorem cpp_append (holds : List Char → Bool) (a b : List (List Char)) (st : List (Bool × Bool)) :
    cpp holds st (a ++ b) = (cpp holds st a).bind fun r => (cpp holds r.2 b).map fun r' => (r.1 ++ r'.1, r'.2) := by
  induction a generalizing st with
  | nil =>
    simp only [List.nil_append, cpp, Option.bind_some]
    cases cpp holds st b <;> rfl
  | cons l ls ih =>
    rw [List.cons_append, cpp, cpp]
    cases open' (holds (strip l)) (kind l) st with
    | none => rfl
    | some st' =>
      simp only [Option.bind_some, ih]
      cases cpp holds st' ls with
      | none => rfl
      | some r =>
        simp only [Option.bind_some, Option.map_some]
        cases cpp holds r.2 b with
        | none => rfl
        | some r' =>
          simp only [Option.map_some]
          split <;> rfl

theorem dropWhile_head (p : Char → Bool) (s : List Char) (c : Char) (h : (s.dropWhile p).head? = some c) : p c = false := by
  induction s with
  | nil => simp at h
  | cons x s ih =>
    by_cases hx : p x = true
    · rw [List.dropWhile_cons_of_pos hx] at h; exact ih h
    · rw [List.dropWhile_cons_of_neg hx] at h
      simp only [List.head?_cons, Option.some.injEq] at h
      subst h
      simpa using hx

theorem dropWhile_fix (p : Char → Bool) (s : List Char) (h : ∀ c, s.head? = some c → p c = false) : s.dropWhile p = s := by
  cases s with
  | nil => rfl
  | cons x s => exact List.dropWhile_cons_of_neg (by simp [h x rfl])

/-- What stripping leaves: the text without its leading blanks is it and further blanks. -/
theorem strip_split (l : List Char) : ∃ sp, l.dropWhile isSpace = strip l ++ sp ∧ ∀ c ∈ sp, isSpace c = true := by
  have h := List.takeWhile_append_dropWhile (p := isSpace) (l := (l.dropWhile isSpace).reverse)
  have h2 := congrArg List.reverse h
  rw [List.reverse_append, List.reverse_reverse] at h2
  refine ⟨_, h2.symm, ?_⟩
  intro c hc
  exact List.mem_takeWhile_imp (List.mem_reverse.1 hc)

theorem strip_head (l : List Char) (c : Char) (h : (strip l).head? = some c) : isSpace c = false := by
  obtain ⟨sp, he, -⟩ := strip_split l
  refine dropWhile_head isSpace l c ?_
  rw [he, List.head?_append, h]
  rfl

theorem strip_strip (l : List Char) : strip (strip l) = strip l := by
  have h : strip (strip l) = ((strip l).reverse.dropWhile isSpace).reverse := by
    have h1 : strip (strip l) = (((strip l).dropWhile isSpace).reverse.dropWhile isSpace).reverse := rfl
    rw [h1, dropWhile_fix isSpace _ (strip_head l)]
  rw [h, dropWhile_fix]
  · exact List.reverse_reverse _
  · intro c hc
    unfold strip at hc
    rw [List.reverse_reverse] at hc
    exact dropWhile_head _ _ c hc

theorem prefix_strip (p l : List Char) (hp : ∀ c ∈ p, isSpace c = false) :
    p.isPrefixOf ((strip l).dropWhile isSpace) = p.isPrefixOf (l.dropWhile isSpace) := by
  obtain ⟨sp, he, hsp⟩ := strip_split l
  rw [dropWhile_fix isSpace _ (strip_head l), he, Bool.eq_iff_iff, List.isPrefixOf_iff_prefix, List.isPrefixOf_iff_prefix]
  constructor
  · intro h
    exact h.trans (List.prefix_append _ _)
  · intro h
    by_cases hl : p.length ≤ (strip l).length
    · exact List.prefix_of_prefix_length_le h (List.prefix_append _ _) hl
    · exfalso
      obtain ⟨u, hu⟩ := List.prefix_of_prefix_length_le (List.prefix_append (strip l) sp) h (by omega)
      cases u with
      | nil => rw [List.append_nil] at hu; rw [← hu] at hl; omega
      | cons x u =>
        rw [← hu] at h
        obtain ⟨v, hv⟩ := h
        rw [List.append_assoc] at hv
        have := List.append_cancel_left hv
        have h1 := hsp x (by rw [← this]; simp)
        have h2 := hp x (by rw [← hu]; simp)
        rw [h1] at h2
        cases h2

theorem kind_strip (l : List Char) : kind (strip l) = kind l := by
  unfold kind
  simp only [prefix_strip "#if".toList l (by decide), prefix_strip "#elif".toList l (by decide),
    prefix_strip "#else".toList l (by decide), prefix_strip "#endif".toList l (by decide)]

theorem cpp_strip (holds : List Char → Bool) (ls : List (List Char)) (st : List (Bool × Bool)) :
    cpp holds st (ls.map strip) = (cpp holds st ls).map fun r => (r.1.map strip, r.2) := by
  induction ls generalizing st with
  | nil => rfl
  | cons l ls ih =>
    rw [List.map_cons, cpp, cpp, kind_strip, strip_strip]
    cases open' (holds (strip l)) (kind l) st with
    | none => rfl
    | some st' =>
      simp only [Option.bind_some, ih]
      cases cpp holds st' ls with
      | none => rfl
      | some r =>
        simp only [Option.map_some]
        split <;> rfl

theorem cpp_head (holds : List Char → Bool) : cpp holds [] headLines =
    some (if holds "#ifdef __cplusplus".toList then ["extern \"C\" {".toList, []] else [[]], []) := by
  have k1 : kind "#ifdef __cplusplus".toList = .cond := by decide +kernel
  have k2 : kind "extern \"C\" {".toList = .text := by decide +kernel
  have k3 : kind "#endif".toList = .endif := by decide +kernel
  have k4 : kind [] = .text := by decide +kernel
  have s1 : strip "#ifdef __cplusplus".toList = "#ifdef __cplusplus".toList := by decide +kernel
  simp only [headLines, cpp, k1, k2, k3, k4, s1, open', Option.bind_some, Option.map_some]
  cases holds "#ifdef __cplusplus".toList <;> simp

theorem cpp_tail (holds : List Char → Bool) : cpp holds [] tailLines =
    some (if holds "#ifdef __cplusplus".toList then ["}".toList, []] else [[]], []) := by
  have k1 : kind "    #ifdef __cplusplus".toList = .cond := by decide +kernel
  have k2 : kind "}".toList = .text := by decide +kernel
  have k3 : kind "#endif".toList = .endif := by decide +kernel
  have k4 : kind [] = .text := by decide +kernel
  have s1 : strip "    #ifdef __cplusplus".toList = "#ifdef __cplusplus".toList := by decide +kernel
  simp only [tailLines, cpp, k1, k2, k3, k4, s1, open', Option.bind_some, Option.map_some]
  cases holds "#ifdef __cplusplus".toList <;> simp

/-- **C151** For a header whose conditions are balanced: a C compiler sees the lines of the header, stripped, and a C++
compiler sees them between `extern "C" {` and `}`. -/
theorem header_wrapped (holds : List Char → Bool) (name : List Char) (ls out : List (List Char)) (h : cpp holds [] ls = some (out, [])) :
    (c2cpp name (some ls)).2 = true ∧ cpp holds [] (c2cpp name (some ls)).1 = some
      (if holds "#ifdef __cplusplus".toList then ["extern \"C\" {".toList, []] ++ (out.map strip ++ ["}".toList, []])
        else [[]] ++ (out.map strip ++ [[]]), []) := by
  refine ⟨rfl, ?_⟩
  simp only [c2cpp]
  rw [cpp_append, cpp_head]
  simp only [Option.bind_some]
  rw [cpp_append, cpp_strip, h]
  simp only [Option.map_some, Option.bind_some]
  rw [cpp_tail]
  simp only [Option.map_some]
  cases holds "#ifdef __cplusplus".toList <;> rfl

/-- A missing file gives an output all the same: a C++ compiler sees the message, and a brace that is never closed. -/
theorem missing_header_counterexample (holds : List Char → Bool) (name : List Char) (hc : holds "#ifdef __cplusplus".toList = true) :
    cpp holds [] (c2cpp name none).1 = some (["ERROR. Failed to locate file ".toList ++ name, "extern \"C\" {".toList, []], []) := by
  have hk : kind ("ERROR. Failed to locate file ".toList ++ name) = .text := by
    have e : ("ERROR. Failed to locate file ".toList ++ name) = 'E' :: ("RROR. Failed to locate file ".toList ++ name) := by
      rw [show "ERROR. Failed to locate file ".toList = 'E' :: "RROR. Failed to locate file ".toList by decide]; rfl
    rw [e]
    unfold kind
    rw [List.dropWhile_cons_of_neg (by decide)]
    rfl
  show cpp holds [] ([_] ++ headLines) = _
  rw [cpp_append]
  simp only [cpp, hk, open', Option.bind_some, Option.map_some, cpp_head, hc]
  simp

/-! ### Examples -/

example : isLog "YELA.LOG".toList = true ∧ isLog "yela.v2.log".toList = true ∧ isLog ".LOG".toList = false ∧
    isLog "yela.Log".toList = false ∧ isLog "log".toList = false ∧ isLog "...log".toList = false := by decide +kernel

/-- A directory with a log, another file and an empty file with the name of a log. -/
example : stations Verif.Script.Log.asText (fun p => if p = "d/Y.LOG".toList then Verif.Script.Log.log else []) (fun _ => []) "d".toList
      ["readme".toList, "Y.LOG".toList] =
    ((Log.antennas Verif.Script.Log.asText Verif.Script.Log.log).getD [], true) ∧
    (stations Verif.Script.Log.asText (fun p => if p = "d/Y.LOG".toList then Verif.Script.Log.log else []) (fun _ => []) "d".toList
      ["out.log".toList, "Y.LOG".toList]) = ([], false) := by
  decide +kernel

/-- A header with a guard and a condition inside. -/
example : cpp (fun c => c == "#ifndef A_H".toList) [] ((c2cpp [] (some ["#ifndef A_H\n".toList, "  int f(int);\n".toList,
      "#ifdef B\n".toList, "int g;\n".toList, " #else\n".toList, "int h;\n".toList, "#endif\n".toList, "#endif\n".toList])).1) =
    some ([[], "int f(int);".toList, "int h;".toList, []], []) := by decide +kernel

example : md5sums "ja2".toList 2019 =
    "https://cddis.nasa.gov/archive/doris/ancillary/quaternions/ja3/2021/ja2/2019/MD5SUMS".toList := by decide +kernel

open Verif.SpaceWeather Verif.SpaceWeather.Write in
example (j : Junk) := fetched_served exExt [] (by unfold TailOk; decide +kernel) 1 exDays (by
    intro d hd
    simp only [exDays, List.mem_cons, List.not_mem_nil, or_false] at hd
    rcases hd with rfl | rfl | rfl | rfl | rfl | rfl <;>
      exact exDay_ok _ _ _ (by decide) (by decide) (by decide) (by decide +kernel)) (by unfold Daily; decide +kernel)
  (by decide +kernel) (fun _ => true)
  (fun _ => ⟨200, textOf (fileOf [] exDays)⟩) "data".toList "sw.csv".toList true rfl (by decide) (by decide) rfl j 3 0 (by decide) (by decide)
  (by decide)

end Verif.Script.Tools
