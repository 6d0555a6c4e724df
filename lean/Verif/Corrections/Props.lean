import Verif.Corrections.Model
import Mathlib.Tactic.Linarith
import Mathlib.Tactic.NormNum

/-! C39: satellite corrections. -/
namespace Verif.Corrections

open Verif.Rinex

/-! ### Specification -/

/-- A number in the file: blanks, one character, then the characters of the number proper. -/
structure Tok where
  gap : Nat
  lead : Char
  body : List Char
  val : ℚ

def Tok.text (k : Tok) : List Char := List.replicate k.gap ' ' ++ k.lead :: k.body

/-- `body` is read as `val`, and as a whole. -/
structure Tok.Ok (fc : FromChars) (k : Tok) : Prop where
  lead : k.lead ≠ ' '
  reads : ∀ rest : List Char, rest = [] ∨ rest.head? = some ' ' → fc (k.body ++ rest) = some (k.val, rest)

/-- A record: day, second, four corrections. -/
structure Record where
  day : Tok
  sec : Tok
  m : Tok
  x : Tok
  y : Tok
  z : Tok

def Record.text (r : Record) : List Char :=
  r.day.text ++ ' ' :: (r.sec.text ++ ' ' :: (r.m.text ++ ' ' :: (r.x.text ++ ' ' ::
    (r.y.text ++ ' ' :: r.z.text))))

def Record.values (r : Record) : List ℚ := [r.m.val, r.x.val, r.y.val, r.z.val]

structure Record.Ok (fc : FromChars) (r : Record) : Prop where
  day : r.day.Ok fc
  sec : r.sec.Ok fc
  m : r.m.Ok fc
  x : r.x.Ok fc
  y : r.y.Ok fc
  z : r.z.Ok fc
  length : r.text.length ≤ 255
  nul : '\x00' ∉ r.text
  notComment : r.text.head? ≠ some 'C' ∧ r.text.head? ≠ some '/'

/-- The record `r` is not later than the epoch `(jd, sec)`. -/
def notLater (jd sec : ℚ) (r : Record) : Bool :=
  decide (r.day.val < jd ∨ (r.day.val = jd ∧ r.sec.val ≤ sec))

/-- Records in chronological order. -/
def Chronological (rs : List Record) : Prop :=
  rs.Pairwise fun r s => r.day.val < s.day.val ∨ (r.day.val = s.day.val ∧ r.sec.val ≤ s.sec.val)

/-- The corrections in force: those of the last record not later than the epoch, zero if there is
none. -/
def inForce (jd sec : ℚ) (rs : List Record) : List ℚ :=
  ((rs.filter (notLater jd sec)).getLast?.map Record.values).getD [0, 0, 0, 0]

/-! ### Lemmas -/

theorem skipBlanks_tok (k : Tok) (h : k.lead ≠ ' ') (rest : List Char) :
    skipBlanks (k.text ++ rest) = some (k.body ++ rest) := by
  obtain ⟨gap, lead, body, val⟩ := k
  simp only [Tok.text, List.append_assoc] at h ⊢
  induction gap with
  | zero => simp [skipBlanks, h]
  | succ n ih => simpa [List.replicate_succ, skipBlanks] using ih

theorem dateField_tok (fc : FromChars) (k : Tok) (hk : k.Ok fc) (rest : List Char) :
    dateField fc (k.text ++ ' ' :: rest) = some (some k.val, some rest, 0) := by
  have h1 := skipBlanks_tok k hk.lead (' ' :: rest)
  have h2 := hk.reads (' ' :: rest) (.inr rfl)
  simp [dateField, h1, h2]

theorem values_tok (fc : FromChars) (k : Tok) (hk : k.Ok fc) (n i : Nat) (rest : List Char) (d : List ℚ) :
    values fc (n + 1) i (some (k.text ++ ' ' :: rest)) d 0 =
      values fc n (i + 1) (some rest) (d.set i k.val) 0 := by
  have h1 := skipBlanks_tok k hk.lead (' ' :: rest)
  have h2 := hk.reads (' ' :: rest) (.inr rfl)
  simp [values, h1, h2]

theorem values_last (fc : FromChars) (k : Tok) (hk : k.Ok fc) (i : Nat) (d : List ℚ) :
    values fc 1 i (some k.text) d 0 = .next (d.set i k.val) 0 := by
  have h1 := skipBlanks_tok k hk.lead []
  have h2 := hk.reads [] (.inl rfl)
  rw [List.append_nil] at h1 h2
  simp [values, h1, h2]

/-- What a record does. -/
theorem onLine_record (fc : FromChars) (jd sec : ℚ) (r : Record) (hr : r.Ok fc) (a b c e : ℚ) :
    onLine fc jd sec r.text [a, b, c, e] =
      if r.day.val ≥ jd ∧ r.sec.val ≥ sec then .stop 0 else .next r.values 0 := by
  unfold onLine
  rw [Record.text, dateField_tok fc r.day hr.day]
  simp only
  rw [dateField_tok fc r.sec hr.sec]
  simp only [Nat.add_zero, ne_eq, not_true_eq_false, if_false]
  split
  · rfl
  · rw [values_tok fc r.m hr.m, values_tok fc r.x hr.x, values_tok fc r.y hr.y, values_last fc r.z hr.z]
    rfl

theorem takeWhile_all (t : List Char) (h : '\x00' ∉ t) : t.takeWhile (· != '\x00') = t := by
  induction t with
  | nil => rfl
  | cons c t ih =>
    have hc : c ≠ '\x00' := fun he => h (by simp [he])
    have hr : '\x00' ∉ t := fun hm => h (by simp [hm])
    simp [hc, ih hr]

/-! ### C39 -/

/-- What the code does with a record in general: the stopping rule compares days and seconds
separately, and the corrections of the records before are kept. -/
theorem corrections_general (fc : FromChars) (jd sec : ℚ) (rs : List Record)
    (hok : ∀ r ∈ rs, r.Ok fc) (d : List ℚ) :
    corrections fc jd sec (some (rs.map fun r => ⟨r.text, true⟩)) d =
      .ret 0 (((rs.takeWhile fun r => ! decide (r.day.val ≥ jd ∧ r.sec.val ≥ sec)).getLast?.map
        Record.values).getD [0, 0, 0, 0]) := by
  unfold corrections
  simp only
  suffices h : ∀ a b c e : ℚ, loop fc jd sec (rs.map fun r => ⟨r.text, true⟩) [a, b, c, e] =
      .ret 0 (((rs.takeWhile fun r => ! decide (r.day.val ≥ jd ∧ r.sec.val ≥ sec)).getLast?.map
        Record.values).getD [a, b, c, e]) from h 0 0 0 0
  induction rs with
  | nil => intro a b c e; rfl
  | cons r rs ih =>
    intro a b c e
    have hr := hok r (List.mem_cons_self ..)
    have ih' := ih (fun r hr => hok r (List.mem_cons_of_mem _ hr))
    simp only [List.map_cons, loop]
    rw [if_neg (by have := hr.length; omega), takeWhile_all r.text hr.nul,
      if_neg (fun hh => hh.elim hr.notComment.1 hr.notComment.2), onLine_record fc jd sec r hr]
    by_cases hl : r.day.val ≥ jd ∧ r.sec.val ≥ sec
    · rw [if_pos hl]
      simp [hl]
    · rw [if_neg hl]
      simp only [if_true]
      rw [List.takeWhile_cons_of_pos (by simpa only [Bool.not_eq_true', decide_eq_false_iff_not] using hl), Record.values, ih', List.getLast?_cons]
      cases h : (rs.takeWhile fun r => ! decide (r.day.val ≥ jd ∧ r.sec.val ≥ sec)).getLast? with
      | none => simp [Record.values]
      | some r' => simp

theorem takeWhile_eq_filter (jd sec : ℚ) : ∀ (rs : List Record), Chronological rs →
    (∀ r ∈ rs, sec ≤ r.sec.val) → (∀ r ∈ rs, ¬ (r.day.val = jd ∧ r.sec.val = sec)) →
    (rs.takeWhile fun r => ! decide (r.day.val ≥ jd ∧ r.sec.val ≥ sec)) = rs.filter (notLater jd sec)
  | [], _, _, _ => rfl
  | r :: rs, hc, hs, hn => by
    have ih := takeWhile_eq_filter jd sec rs (List.pairwise_cons.1 hc).2
      (fun r hr => hs r (List.mem_cons_of_mem _ hr)) (fun r hr => hn r (List.mem_cons_of_mem _ hr))
    have hs1 := hs r (List.mem_cons_self ..)
    have hn1 := hn r (List.mem_cons_self ..)
    by_cases hd : r.day.val < jd
    · rw [List.takeWhile_cons_of_pos, List.filter_cons_of_pos, ih]
      · simp [notLater, hd]
      · simp [hd]
    · have hd' : jd ≤ r.day.val := not_lt.1 hd
      rw [List.takeWhile_cons_of_neg]
      · symm
        rw [List.filter_eq_nil_iff]
        have key : ∀ x ∈ r :: rs, jd ≤ x.day.val := by
          intro x hx
          rcases List.mem_cons.1 hx with rfl | hx
          · exact hd'
          · rcases (List.pairwise_cons.1 hc).1 x hx with h | ⟨h, _⟩
            · exact hd'.trans h.le
            · exact hd'.trans h.le
        intro x hx
        simp only [notLater, decide_eq_true_eq]
        rintro (h | ⟨h, h'⟩)
        · exact absurd h (not_lt.2 (key x hx))
        · exact hn x hx ⟨h, le_antisymm h' (hs x hx)⟩
      · simp [hd', hs1]

/-- **C39** Let every number be preceded by one more character, like a `+` sign, that may be lost.
If the records are in chronological order, the seconds of no record are below those of the epoch,
and no record has exactly the epoch, then the corrections returned are those of the last record not
later than the epoch.

Partial: the first character, the smaller seconds and the equal epoch are really handled wrongly, see
the counterexamples. -/
theorem corrections_in_force_partial (fc : FromChars) (jd sec : ℚ) (rs : List Record)
    (hok : ∀ r ∈ rs, r.Ok fc) (hc : Chronological rs) (hsec : ∀ r ∈ rs, sec ≤ r.sec.val)
    (hne : ∀ r ∈ rs, ¬ (r.day.val = jd ∧ r.sec.val = sec)) (d : List ℚ) :
    corrections fc jd sec (some (rs.map fun r => ⟨r.text, true⟩)) d = .ret 0 (inForce jd sec rs) := by
  rw [corrections_general fc jd sec rs hok d, takeWhile_eq_filter jd sec rs hc hsec hne, inForce]

/-! ### Concrete instances -/

/-- A `from_chars` for (signed) integers: like the real one it knows `-` but not `+`. -/
def intFromChars : FromChars := fun s =>
  let (neg, u) := match s with | '-' :: u => (true, u) | u => (false, u)
  let ds := u.takeWhile fun c => decide ('0' ≤ c ∧ c ≤ '9')
  if ds = [] then none
  else
    let v : ℚ := ds.foldl (fun n c => n * 10 + ((c.toNat : ℚ) - 48)) 0
    some (if neg then -v else v, u.drop ds.length)

def ln (s : String) : Line := ⟨s.toList, true⟩

/-- With a plus sign in front of every number all is well. -/
example : corrections intFromChars 50 10
    (some [ln "C comment", ln "+40 +10 +1 +2 +3 +-4", ln "  +45 +10 +5 +6 +7 +8", ln "+60 +10 +0 +0 +0 +0"])
    [9, 9, 9, 9] = .ret 0 [5, 6, 7, 8] := by
  decide +kernel

/-- A token of the theorem: `+7`. -/
example : Tok.Ok intFromChars ⟨2, '+', ['7'], 7⟩ := by
  refine ⟨by decide, ?_⟩
  intro rest hrest
  rcases hrest with rfl | hh
  · decide +kernel
  · cases rest with
    | nil => simp at hh
    | cons c r =>
      simp only [List.head?_cons, Option.some.injEq] at hh
      subst hh
      simp [intFromChars]
      norm_num

/-- **C39, where it fails (1).**  The first character of every number is lost: a digit (day 52 is
taken for day 2 and so counts as earlier than day 50; the mass 15 becomes 5) or a sign (-7 becomes
7). -/
theorem first_character_counterexample :
    corrections intFromChars 50 10 (some [ln "52 110 15 -7 -8 -9"]) [] = .ret 0 [5, 7, 8, 9] := by
  decide +kernel

/-- **C39, where it fails (2).**  A later day with a smaller second of day counts as earlier. -/
theorem later_day_counterexample :
    corrections intFromChars 50 10 (some [ln "+40 +10 +1 +2 +3 +4", ln "+60 +5 +5 +6 +7 +8"]) [] =
      .ret 0 [5, 6, 7, 8] := by
  decide +kernel

/-- **C39, where it fails (3).**  A record with exactly the requested epoch is not used. -/
theorem same_epoch_counterexample :
    corrections intFromChars 50 10 (some [ln "+40 +10 +1 +2 +3 +4", ln "+50 +10 +5 +6 +7 +8"]) [] =
      .ret 0 [1, 2, 3, 4] := by
  decide +kernel

/-- **C39, where it fails (4).**  An empty line, or one with too few numbers, makes the reader use
bytes behind the line. -/
theorem short_line_counterexample :
    corrections intFromChars 50 10 (some [ln ""]) [] = .stale ∧
    corrections intFromChars 50 10 (some [ln "+40 +10 +1 +2"]) [] = .stale := by
  decide +kernel

/-- A date that cannot be read, or that is not followed by a blank, is an error: such a line is never
used. -/
theorem bad_date_refused (fc : FromChars) (jd sec : ℚ) (text : List Char) (d : List ℚ) (r : List Char)
    (hs : skipBlanks text = some r)
    (hbad : fc r = none ∨ ∃ v r', fc r = some (v, r') ∧ r'.head? ≠ some ' ') :
    onLine fc jd sec text d = .stale ∨ ∃ n, n ≠ 0 ∧ onLine fc jd sec text d = .stop n := by
  have hdf : dateField fc text = some ((fc r).map Prod.fst, (match fc r with | some (_, r') => r'.tail? | none => r.tail?), 1) := by
    unfold dateField
    rw [hs]
    rcases hbad with h | ⟨v, r', h, hr⟩
    · simp [h]
    · simp [h, hr]
  unfold onLine
  rw [hdf]
  split
  · exact .inl rfl
  · exact .inl rfl
  · rename_i cjd c1 e1 he
    simp only [Option.some.injEq, Prod.mk.injEq] at he
    obtain ⟨-, -, rfl⟩ := he
    split
    · exact .inl rfl
    · rename_i csec c2 e2 _
      right
      split
      · rw [if_pos (by omega)]
        exact ⟨1 + e2, by omega, rfl⟩
      · exact ⟨1 + e2, by omega, rfl⟩

theorem values_errors (fc : FromChars) : ∀ (n i : Nat) (c : Option (List Char)) (d : List ℚ) (err : Nat),
    values fc n i c d err = .stale ∨ ∃ d' e, err ≤ e ∧ values fc n i c d err = .next d' e := by
  intro n
  induction n with
  | zero => exact fun i c d err => .inr ⟨d, err, le_rfl, rfl⟩
  | succ n ih =>
    intro i c d err
    rcases c with _ | c
    · exact .inl rfl
    · simp only [values]
      split
      · exact .inl rfl
      · split
        · exact ih _ _ _ _
        · rcases ih (i + 1) (List.tail? _) d (err + 1) with h | ⟨d', e, he, h⟩
          · exact .inl h
          · exact .inr ⟨d', e, by omega, h⟩

/-- Fields in front of others: each is followed by a blank. -/
def fields (ks : List Tok) : List Char := ks.flatMap fun k => k.text ++ [' ']

/-- A value that cannot be read is an error, wherever it stands among the four: the function does not report success for
a file with such a line (it fails, or it reads past the end of the line). -/
theorem bad_value_refused (fc : FromChars) (jd sec : ℚ) (day s : Tok) (hday : day.Ok fc) (hsec : s.Ok fc)
    (hearly : ¬ (day.val ≥ jd ∧ s.val ≥ sec)) (good : List Tok) (hgood : ∀ k ∈ good, k.Ok fc) (hlen : good.length < 4)
    (bad : Tok) (hlead : bad.lead ≠ ' ') (rest : List Char) (hbad : fc (bad.body ++ rest) = none)
    (text : List Char)
    (htext : text = day.text ++ ' ' :: (s.text ++ ' ' :: (fields good ++ (bad.text ++ rest))))
    (hnul : '\x00' ∉ text) (hshort : text.length ≤ 255)
    (hcomm : text.head? ≠ some 'C' ∧ text.head? ≠ some '/') (eol : Bool) (more : List Line) (d : List ℚ) :
    loop fc jd sec (⟨text, eol⟩ :: more) d = .stale ∨
      ∃ e d', e ≠ 0 ∧ loop fc jd sec (⟨text, eol⟩ :: more) d = .ret e d' := by
  have key : ∀ (ks : List Tok), (∀ k ∈ ks, k.Ok fc) → ∀ (n i : Nat) (d : List ℚ), ks.length < n →
      values fc n i (some (fields ks ++ (bad.text ++ rest))) d 0 = .stale ∨
      ∃ d' e, e ≠ 0 ∧ values fc n i (some (fields ks ++ (bad.text ++ rest))) d 0 = .next d' e := by
    intro ks
    induction ks with
    | nil =>
      intro _ n i d hn
      obtain ⟨n, rfl⟩ : ∃ m, n = m + 1 := ⟨n - 1, by simp at hn; omega⟩
      have h1 := skipBlanks_tok bad hlead rest
      simp only [fields, List.flatMap_nil, List.nil_append, values, h1, hbad]
      rcases values_errors fc n (i + 1) (List.tail? _) d (0 + 1) with h | ⟨d', e, he, h⟩
      · exact .inl h
      · exact .inr ⟨d', e, by omega, h⟩
    | cons k ks ih =>
      intro hks n i d hn
      obtain ⟨n, rfl⟩ : ∃ m, n = m + 1 := ⟨n - 1, by simp at hn; omega⟩
      have e1 : fields (k :: ks) ++ (bad.text ++ rest) = k.text ++ ' ' :: (fields ks ++ (bad.text ++ rest)) := by
        simp [fields]
      rw [e1, values_tok fc k (hks k (List.mem_cons_self ..))]
      exact ih (fun k hk => hks k (List.mem_cons_of_mem _ hk)) n (i + 1) _ (by simp at hn; omega)
  have hon : onLine fc jd sec text d = values fc 4 0 (some (fields good ++ (bad.text ++ rest))) d 0 := by
    unfold onLine
    rw [htext, dateField_tok fc day hday]
    simp only
    rw [dateField_tok fc s hsec]
    simp only [Nat.add_zero, ne_eq, not_true_eq_false, if_false]
    rw [if_neg hearly]
  have hk := key good hgood 4 0 d hlen
  rw [← hon] at hk
  simp only [loop]
  rw [if_neg (by omega), takeWhile_all text hnul, if_neg (fun hh => hh.elim hcomm.1 hcomm.2)]
  rcases hk with h | ⟨d', e, he, h⟩
  · rw [h]; exact .inl rfl
  · rw [h]
    simp only [he, if_false]
    exact .inr ⟨e, d', he, rfl⟩

/-- Such a line, the second value being `x`. -/
example : corrections intFromChars 50 10 (some [ln "+40 +10 +1 +x +3 +4", ln "+41 +10 +1 +2 +3 +4"]) [9, 9, 9, 9] =
    .ret 1 [1, 0, 3, 4] := by
  decide +kernel

end Verif.Corrections
