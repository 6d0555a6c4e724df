import Verif.Eop.C04Model
import Mathlib.Data.List.Nodup
import Batteries.Data.List.Perm
import Mathlib.Tactic.ByContra

/-
C25: parsing a C04 file reports success exactly when every requested day is present, and never
writes outside the table.

Violated in general (`duplicate_counterexample`, `outside_counterexample`, `stale_counterexample`):
the code counts rows only.  Proved for files in chronological order (each day at most once), which
is what the published files are.
-/
namespace Verif.Eop.C04

variable {V : Type}

/-- Day numbers of a file, in order. -/
def days (is : List (Item V)) : List Int :=
  is.filterMap fun | .day d _ => some d | _ => none

/-- Strictly increasing days. -/
def Chronological (is : List (Item V)) : Prop := (days is).Pairwise (· < ·)

/-- An increasing list of integers from `[a, b)` has at most `b - a` elements. -/
theorem length_le_of_increasing (l : List Int) (a b : Int) (h : l.Pairwise (· < ·))
    (hr : ∀ x ∈ l, a ≤ x ∧ x < b) : l = [] ∨ (l.length : Int) ≤ b - a := by
  induction l generalizing a with
  | nil => exact .inl rfl
  | cons x l ih =>
    right
    rw [List.pairwise_cons] at h
    have hx := hr x List.mem_cons_self
    have := ih (x + 1) h.2 (fun y hy => ⟨by have := h.1 y hy; omega, (hr y (List.mem_cons_of_mem _ hy)).2⟩)
    rcases this with h0 | h1
    · subst h0
      simp
      omega
    · simp only [List.length_cons]
      push_cast
      omega

/-- If it has exactly that many, it is the whole interval. -/
theorem eq_range_of_increasing (l : List Int) (a b : Int) (h : l.Pairwise (· < ·))
    (hr : ∀ x ∈ l, a ≤ x ∧ x < b) (hl : (l.length : Int) = b - a) (i : Nat) (hi : i < l.length) :
    l[i] = a + i := by
  induction l generalizing a i with
  | nil => simp at hi
  | cons x l ih =>
    rw [List.pairwise_cons] at h
    have hx := hr x List.mem_cons_self
    have hr' : ∀ y ∈ l, x + 1 ≤ y ∧ y < b := fun y hy =>
      ⟨by have := h.1 y hy; omega, (hr y (List.mem_cons_of_mem _ hy)).2⟩
    have hlen : (l.length : Int) + 1 = b - a := by simpa using hl
    have hxa : x = a := by
      rcases length_le_of_increasing l (x + 1) b h.2 hr' with h0 | h1
      · subst h0
        simp at hlen
        omega
      · omega
    cases i with
    | zero => simpa using hxa
    | succ i =>
      have hi' : i < l.length := by simpa using hi
      have := ih (a + 1) h.2 (by rw [← hxa]; exact hr') (by omega) i hi'
      simp only [List.getElem_cons_succ]
      rw [this]
      push_cast
      omega

/-- What the run stores, with the day of each row: rows of the days in the interval, in order. -/
theorem run_rows (st en : Int) (is : List (Item V)) (rows : List (Rec V)) (ds : List Int)
    (hds : ds.length = rows.length) (n : Nat) (rows' : List (Rec V))
    (h : run st en is rows = .ret n rows') :
    ∃ ds' : List (Int × Rec V), rows' = rows ++ ds'.map Prod.snd ∧
      (ds'.map Prod.fst).Sublist (days is) ∧
      (∀ p ∈ ds', st ≤ p.1 ∧ p.1 < en ∧ Item.day p.1 (some p.2) ∈ is) ∧
      (n = 0 → (rows'.length : Int) = en - st) := by
  induction is generalizing rows ds with
  | nil =>
    simp only [run] at h
    cases h
    refine ⟨[], by simp, by simp, by simp, ?_⟩
    intro hn
    split at hn
    · omega
    · cases hn
  | cons it is ih =>
    cases it with
    | skip =>
      simp only [run] at h
      obtain ⟨ds', h1, h2, h3, h4⟩ := ih rows ds hds h
      exact ⟨ds', h1, by simpa [days] using h2,
        fun p hp => ⟨(h3 p hp).1, (h3 p hp).2.1, List.mem_cons_of_mem _ (h3 p hp).2.2⟩, h4⟩
    | short => simp [run] at h
    | bad =>
      simp only [run] at h
      cases h
      exact ⟨[], by simp, by simp, by simp, by omega⟩
    | day d r =>
      simp only [run] at h
      split at h
      · rename_i hin
        split at h
        · cases h
        · cases r with
          | none =>
            cases h
            exact ⟨[], by simp, by simp, by simp, by omega⟩
          | some r =>
            simp only at h
            obtain ⟨ds', h1, h2, h3, h4⟩ := ih (rows ++ [r]) (ds ++ [d]) (by simp [hds]) h
            refine ⟨(d, r) :: ds', by simp [h1], ?_, ?_, h4⟩
            · simp only [List.map_cons, days, List.filterMap_cons]
              exact List.Sublist.cons_cons _ h2
            · intro p hp
              rcases List.mem_cons.mp hp with rfl | hp
              · exact ⟨hin.1, hin.2, List.mem_cons_self⟩
              · exact ⟨(h3 p hp).1, (h3 p hp).2.1, List.mem_cons_of_mem _ (h3 p hp).2.2⟩
      · split at h
        · cases h
          refine ⟨[], by simp, by simp, by simp, ?_⟩
          intro hn
          split at hn
          · omega
          · cases hn
        · obtain ⟨ds', h1, h2, h3, h4⟩ := ih rows ds hds h
          refine ⟨ds', h1, ?_,
            fun p hp => ⟨(h3 p hp).1, (h3 p hp).2.1, List.mem_cons_of_mem _ (h3 p hp).2.2⟩, h4⟩
          simp only [days, List.filterMap_cons]
          exact List.Sublist.cons _ h2

/-- For every file: success means that as many rows as days were stored, all taken in order from
lines whose day is in the interval. -/
theorem success_counts (e : Ext V) (lines : List Rinex.Line) (st en : Int) (rows : List (Rec V))
    (h : parseC04 e (some lines) st en = .ret 0 rows) :
    (rows.length : Int) = en - st ∧
    ∀ r ∈ rows, ∃ d, st ≤ d ∧ d < en ∧ Item.day d (some r) ∈ items e lines := by
  obtain ⟨ds', h1, _, h3, h4⟩ := run_rows st en _ [] [] rfl 0 rows h
  refine ⟨h4 rfl, ?_⟩
  intro r hr
  rw [h1, List.nil_append, List.mem_map] at hr
  obtain ⟨p, hp, rfl⟩ := hr
  exact ⟨p.1, h3 p hp⟩

/-- C25 (only if), for files in chronological order: on success the `i`-th row is the row of day
`st + i`. -/
theorem success_complete_partial (e : Ext V) (lines : List Rinex.Line) (st en : Int)
    (rows : List (Rec V)) (hc : Chronological (items e lines))
    (h : parseC04 e (some lines) st en = .ret 0 rows) :
    (rows.length : Int) = en - st ∧
    ∀ (i : Nat) (hi : i < rows.length), Item.day (st + i) (some rows[i]) ∈ items e lines := by
  obtain ⟨ds', h1, h2, h3, h4⟩ := run_rows st en _ [] [] rfl 0 rows h
  rw [List.nil_append] at h1
  subst h1
  refine ⟨h4 rfl, ?_⟩
  intro i hi
  have hi' : i < ds'.length := by simpa using hi
  have hinc : (ds'.map Prod.fst).Pairwise (· < ·) := List.Pairwise.sublist h2 hc
  have := eq_range_of_increasing (ds'.map Prod.fst) st en hinc (by
    intro x hx
    rw [List.mem_map] at hx
    obtain ⟨p, hp, rfl⟩ := hx
    exact ⟨(h3 p hp).1, (h3 p hp).2.1⟩) (by have := h4 rfl; simpa using this) i (by simpa using hi')
  have hm := (h3 ds'[i] (List.getElem_mem hi')).2.2
  simp only [List.getElem_map] at this ⊢
  rw [this] at hm
  exact hm

/-- The run after some rows have been stored, for chronological files: it stays inside the table. -/
theorem run_not_outside (st en : Int) (is : List (Item V)) (rows : List (Rec V)) (ds : List Int)
    (hds : ds.length = rows.length) (hc : (ds ++ days is).Pairwise (· < ·))
    (hr : ∀ x ∈ ds, st ≤ x ∧ x < en) : run st en is rows ≠ .outside := by
  induction is generalizing rows ds with
  | nil => simp [run]
  | cons it is ih =>
    cases it with
    | skip => simp only [run]; exact ih rows ds hds (by simpa [days] using hc) hr
    | short => simp [run]
    | bad => simp [run]
    | day d r =>
      have hdays : days (Item.day d r :: is) = d :: days is := rfl
      rw [hdays] at hc
      simp only [run]
      split
      · rename_i hin
        have hc1 : (ds ++ [d]).Pairwise (· < ·) := by
          refine List.Pairwise.sublist ?_ hc
          exact List.Sublist.append (List.Sublist.refl _) (by simp)
        have hr1 : ∀ x ∈ ds ++ [d], st ≤ x ∧ x < en := by
          intro x hx
          rcases List.mem_append.mp hx with hx | hx
          · exact hr x hx
          · rw [List.mem_singleton] at hx; subst hx; exact hin
        have hlen := length_le_of_increasing (ds ++ [d]) st en hc1 hr1
        rcases hlen with h0 | h1
        · simp at h0
        · simp only [List.length_append, List.length_singleton] at h1
          rw [if_neg (by rw [← hds]; push_cast at h1; omega)]
          cases r with
          | none => simp
          | some r =>
            simp only
            exact ih (rows ++ [r]) (ds ++ [d]) (by simp [hds]) (by simpa using hc) hr1
      · split
        · simp
        · refine ih rows ds hds ?_ hr
          exact List.Pairwise.sublist
            (List.Sublist.append (List.Sublist.refl _) (List.sublist_cons_self _ _)) hc

/-- C25 (safety), for files in chronological order: nothing is written outside the table. -/
theorem inside_table_partial (e : Ext V) (lines : List Rinex.Line) (st en : Int)
    (hc : Chronological (items e lines)) : parseC04 e (some lines) st en ≠ .outside :=
  run_not_outside st en _ [] [] rfl (by simpa [Chronological] using hc) (by simp)

/-- Completeness of the run. -/
theorem run_complete (st en : Int) (is : List (Item V)) (rows : List (Rec V)) (ds : List Int)
    (hds : ds.length = rows.length) (hc : (ds ++ days is).Pairwise (· < ·))
    (hr : ∀ x ∈ ds, st ≤ x ∧ x < en)
    (hgood : ∀ it ∈ is, it ≠ .short ∧ it ≠ .bad ∧ ∀ d, it = .day d none → ¬ (st ≤ d ∧ d < en))
    (hall : ∀ d, st ≤ d → d < en → d ∈ ds ∨ d ∈ days is) (hse : st ≤ en) :
    ∃ rows', run st en is rows = .ret 0 rows' := by
  -- when all days of the interval are in `ds`, the count is right
  have full : ∀ (rows : List (Rec V)) (ds : List Int), ds.length = rows.length →
      ds.Pairwise (· < ·) → (∀ x ∈ ds, st ≤ x ∧ x < en) → (∀ d, st ≤ d → d < en → d ∈ ds) →
      en - st = rows.length := by
    intro rows ds hds hp hr hall
    have h1 : (ds.length : Int) ≤ en - st := by
      rcases length_le_of_increasing ds st en hp hr with h0 | h1
      · subst h0; simp; omega
      · exact h1
    have h2 : (en - st).toNat ≤ ds.length := by
      have hnd : ((List.range (en - st).toNat).map (fun i : Nat => st + (i : Int))).Nodup := by
        refine List.Nodup.map ?_ List.nodup_range
        intro a b hab
        simp only at hab
        omega
      have hsub : ((List.range (en - st).toNat).map (fun i : Nat => st + (i : Int))) ⊆ ds := by
        intro x hx
        simp only [List.mem_map, List.mem_range] at hx
        obtain ⟨i, hi, rfl⟩ := hx
        exact hall _ (by omega) (by omega)
      have := (List.subperm_of_subset hnd hsub).length_le
      simpa using this
    rw [← hds]
    omega
  induction is generalizing rows ds with
  | nil =>
    refine ⟨rows, ?_⟩
    simp only [run]
    rw [if_pos]
    exact full rows ds hds (by simpa [days] using hc) hr
      (fun d h1 h2 => by simpa [days] using hall d h1 h2)
  | cons it is ih =>
    have hgood' : ∀ it ∈ is, it ≠ .short ∧ it ≠ .bad ∧ ∀ d, it = .day d none → ¬ (st ≤ d ∧ d < en) :=
      fun x hx => hgood x (List.mem_cons_of_mem _ hx)
    cases it with
    | skip =>
      simp only [run]
      exact ih rows ds hds (by simpa [days] using hc) hr hgood' (by simpa [days] using hall)
    | short => exact ((hgood _ List.mem_cons_self).1 rfl).elim
    | bad => exact ((hgood _ List.mem_cons_self).2.1 rfl).elim
    | day d r =>
      have hdays : days (Item.day d r :: is) = d :: days is := rfl
      rw [hdays] at hc hall
      have hc1 : (ds ++ [d]).Pairwise (· < ·) := by
        refine List.Pairwise.sublist ?_ hc
        exact List.Sublist.append (List.Sublist.refl _) (by simp)
      have hcs : (ds ++ days is).Pairwise (· < ·) := List.Pairwise.sublist
            (List.Sublist.append (List.Sublist.refl _) (List.sublist_cons_self _ _)) hc
      simp only [run]
      split
      · rename_i hin
        have hr1 : ∀ x ∈ ds ++ [d], st ≤ x ∧ x < en := by
          intro x hx
          rcases List.mem_append.mp hx with hx | hx
          · exact hr x hx
          · rw [List.mem_singleton] at hx; subst hx; exact hin
        rcases length_le_of_increasing (ds ++ [d]) st en hc1 hr1 with h0 | h1
        · simp at h0
        · simp only [List.length_append, List.length_singleton] at h1
          rw [if_neg (by rw [← hds]; push_cast at h1; omega)]
          cases r with
          | none => exact ((hgood _ List.mem_cons_self).2.2 d rfl hin).elim
          | some r =>
            simp only
            refine ih (rows ++ [r]) (ds ++ [d]) (by simp [hds]) (by simpa using hc) hr1 hgood' ?_
            intro x h1 h2
            rcases hall x h1 h2 with h | h
            · exact .inl (List.mem_append_left _ h)
            · rcases List.mem_cons.mp h with h | h
              · exact .inl (by simp [h])
              · exact .inr h
      · rename_i hnin
        split
        · rename_i hge
          refine ⟨rows, ?_⟩
          rw [if_pos]
          refine full rows ds hds (List.Pairwise.sublist (List.sublist_append_left _ _) hc) hr ?_
          intro x h1 h2
          rcases hall x h1 h2 with h | h
          · exact h
          · exfalso
            have hpd := (List.pairwise_append.mp hc).2.1
            rw [List.pairwise_cons] at hpd
            rcases List.mem_cons.mp h with h | h
            · omega
            · have := hpd.1 x h
              omega
        · refine ih rows ds hds hcs hr hgood' ?_
          intro x h1 h2
          rcases hall x h1 h2 with h | h
          · exact .inl h
          · rcases List.mem_cons.mp h with h | h
            · omega
            · exact .inr h

/-- C25 (if), for files in chronological order whose lines can all be read: when every day of the
interval has a line, parsing succeeds. -/
theorem complete_succeeds_partial (e : Ext V) (lines : List Rinex.Line) (st en : Int) (hse : st ≤ en)
    (hc : Chronological (items e lines))
    (hgood : ∀ it ∈ items e lines, it ≠ .short ∧ it ≠ .bad ∧
      ∀ d, it = .day d none → ¬ (st ≤ d ∧ d < en))
    (hall : ∀ d, st ≤ d → d < en → d ∈ days (items e lines)) :
    ∃ rows, parseC04 e (some lines) st en = .ret 0 rows :=
  run_complete st en _ [] [] rfl (by simpa [Chronological] using hc) (by simp) hgood
    (fun d h1 h2 => .inr (hall d h1 h2)) hse

/-- An empty or reversed interval never stores anything. -/
theorem empty_interval (e : Ext V) (lines : List Rinex.Line) (st en : Int) (h : en ≤ st) (n : Nat)
    (rows : List (Rec V)) (hr : parseC04 e (some lines) st en = .ret n rows) : rows = [] := by
  obtain ⟨ds', h1, _, h3, _⟩ := run_rows st en _ [] [] rfl n rows hr
  cases ds' with
  | nil => simpa using h1
  | cons p ds' =>
    have := h3 p List.mem_cons_self
    omega

/-! ### Counterexamples -/

/-- `from_chars` for the examples: one digit. -/
def exExt : Ext Int :=
  ⟨fun s => match s with
    | c :: r => if isDigit' c then some ((c.toNat : Int) - 48, r) else none
    | [] => none, fun d => d⟩
where isDigit' (c : Char) : Bool := Text.isDigit c

def exLine (s : String) : Rinex.Line := ⟨s.toList, true⟩

def day1 : Rinex.Line := exLine "1962   1   1  37665 1 2 3 4 5 6"
def day2 : Rinex.Line := exLine "1962   1   2  37666 2 3 4 5 6 7"
def header : Rinex.Line := exLine "   EOP (IERS) C04 series"

/-- A file with the first day twice and the second day missing is reported as complete. -/
theorem duplicate_counterexample :
    parseC04 exExt (some [header, day1, day1]) 37665 37667 =
      .ret 0 [⟨37665, 1, 2, 3, 4, 5, 6⟩, ⟨37665, 1, 2, 3, 4, 5, 6⟩] := by
  decide +kernel

/-- A repeated day in a one-day request is stored outside the table. -/
theorem outside_counterexample :
    parseC04 exExt (some [header, day1, day1]) 37665 37666 = .outside := by
  decide +kernel

/-- A short line makes the parser interpret bytes after the end of the line. -/
theorem stale_counterexample :
    parseC04 exExt (some [exLine "EOP C04", day1]) 37665 37666 = .stale := by
  decide +kernel

/-- Non-vacuity: a chronological file with both days. -/
example : Chronological (items exExt [header, day1, day2]) ∧
    parseC04 exExt (some [header, day1, day2]) 37665 37667 =
      .ret 0 [⟨37665, 1, 2, 3, 4, 5, 6⟩, ⟨37666, 2, 3, 4, 5, 6, 7⟩] := by
  constructor
  · unfold Chronological
    decide +kernel
  · decide +kernel

/-- Non-vacuity: a missing day is reported. -/
example : parseC04 exExt (some [header, day2]) 37665 37667 =
    .ret 1 [⟨37666, 2, 3, 4, 5, 6, 7⟩] := by
  decide +kernel

/-! ### From the text of a file -/

open Verif.Text

/-- A value in the file: blanks and the characters of the number. -/
structure Tok (V : Type) where
  gap : Nat
  body : List Char
  val : V

def Tok.text (k : Tok V) : List Char := List.replicate (k.gap + 1) ' ' ++ k.body

structure Tok.Ok (e : Ext V) (k : Tok V) : Prop where
  lead : ∀ c ∈ k.body.head?, c ≠ ' '
  ne : k.body ≠ []
  reads : ∀ rest : List Char, rest = [] ∨ rest.head? = some ' ' → e.fromCharsD (k.body ++ rest) = some (k.val, rest)

/-- A line with data: twelve columns with the date, the day number, six values and possibly more. -/
structure DayLine (V : Type) where
  date : List Char
  gap : Nat
  num : List Char
  day : Int
  x : Tok V
  y : Tok V
  dut : Tok V
  lod : Tok V
  dx : Tok V
  dy : Tok V
  more : List Char

def DayLine.values (l : DayLine V) : List Char :=
  l.x.text ++ (l.y.text ++ (l.dut.text ++ (l.lod.text ++ (l.dx.text ++ (l.dy.text ++ l.more)))))

def DayLine.text (l : DayLine V) : List Char :=
  l.date ++ (List.replicate l.gap ' ' ++ (l.num ++ l.values))

/-- What the line says. -/
def DayLine.record (e : Ext V) (l : DayLine V) : Rec V :=
  ⟨e.ttOf l.day, l.x.val, l.y.val, l.dut.val, l.lod.val, l.dx.val, l.dy.val⟩

structure DayLine.Ok (e : Ext V) (l : DayLine V) : Prop where
  date : l.date.length = 12
  first : ∀ c ∈ l.date.head?, c ≠ ' ' ∧ c ≠ '#'
  digits : l.num.all isDigit = true
  value : scanDigits l.num 0 0 = (l.day.toNat, l.num.length, [])
  someDigit : l.num ≠ []
  range : 0 ≤ l.day ∧ l.day ≤ longMax
  x : l.x.Ok e
  y : l.y.Ok e
  dut : l.dut.Ok e
  lod : l.lod.Ok e
  dx : l.dx.Ok e
  dy : l.dy.Ok e
  more : l.more = [] ∨ l.more.head? = some ' '

/-- A line of the file: a comment or data. -/
inductive Src (V : Type) where
  | comment (text : List Char)
  | data (l : DayLine V)

def Src.text : Src V → List Char
  | .comment t => t
  | .data l => l.text

structure Src.Ok (e : Ext V) (l : Src V) : Prop where
  length : l.text.length ≤ 255
  nul : '\x00' ∉ l.text
  comment : ∀ t, l = .comment t → ∀ c ∈ t.head?, c = ' ' ∨ c = '#'
  data : ∀ d, l = .data d → d.Ok e

/-- What the line is to the parser. -/
def Src.item (e : Ext V) : Src V → Item V
  | .comment _ => .skip
  | .data d => .day d.day (some (d.record e))

/-- The days of the data lines in file order. -/
def srcDays : List (Src V) → List Int
  | [] => []
  | .comment _ :: ls => srcDays ls
  | .data l :: ls => l.day :: srcDays ls

theorem nextNum_tok (k : Tok V) (e : Ext V) (hk : k.Ok e) (rest : List Char) :
    nextNum (k.text ++ rest) = k.body ++ rest := by
  obtain ⟨gap, body, val⟩ := k
  have h1 := hk.lead
  have h2 := hk.ne
  simp only at h1 h2
  have hb : nextNum (body ++ rest) = body ++ rest := by
    cases body with
    | nil => exact absurd rfl h2
    | cons c b =>
      have : c ≠ ' ' := h1 c (by simp)
      unfold nextNum
      rw [List.cons_append, List.dropWhile_cons_of_neg (by simpa using this)]
  have : ∀ n, nextNum (List.replicate n ' ' ++ body ++ rest) = body ++ rest := by
    intro n
    induction n with
    | zero => simpa using hb
    | succ n ih =>
      rw [List.replicate_succ, List.cons_append, List.cons_append, nextNum, List.dropWhile_cons_of_pos (by rfl)]
      exact ih
  exact this (gap + 1)

theorem Tok.text_head (k : Tok V) (rest : List Char) : (k.text ++ rest).head? = some ' ' := by
  simp [Tok.text, List.replicate_succ]

theorem values_step (e : Ext V) (k : Tok V) (hk : k.Ok e) (rest : List Char) (hr : rest = [] ∨ rest.head? = some ' ')
    (n : Nat) : values e (n + 1) (k.text ++ rest) = (values e n rest).map (k.val :: ·) := by
  rw [values, nextNum_tok k e hk, hk.reads rest hr]
  simp only
  cases values e n rest <;> rfl

theorem row_line (e : Ext V) (l : DayLine V) (h : l.Ok e) : row e l.day l.values = some (l.record e) := by
  unfold row DayLine.values
  rw [values_step e l.x h.x _ (.inr (Tok.text_head ..)), values_step e l.y h.y _ (.inr (Tok.text_head ..)),
    values_step e l.dut h.dut _ (.inr (Tok.text_head ..)), values_step e l.lod h.lod _ (.inr (Tok.text_head ..)),
    values_step e l.dx h.dx _ (.inr (Tok.text_head ..)), values_step e l.dy h.dy _ h.more]
  rfl

theorem scanDigits_append (num rest : List Char) (hd : num.all isDigit = true)
    (hr : ∀ c ∈ rest.head?, isDigit c = false) : ∀ acc n,
    scanDigits (num ++ rest) acc n = ((scanDigits num acc n).1, (scanDigits num acc n).2.1, rest) := by
  induction num with
  | nil =>
    intro acc n
    cases rest with
    | nil => rfl
    | cons c r => simp [scanDigits, hr c (by simp)]
  | cons c num ih =>
    intro acc n
    simp only [List.all_cons, Bool.and_eq_true] at hd
    simp only [List.cons_append, scanDigits, hd.1, if_true]
    exact ih hd.2 _ _

theorem fromCharsL_num (e : Ext V) (l : DayLine V) (h : l.Ok e) (rest : List Char) :
    fromCharsL (l.num ++ (l.x.text ++ rest)) = some (l.day, l.x.text ++ rest) := by
  have hs := scanDigits_append l.num (l.x.text ++ rest) h.digits (by
    rw [Tok.text_head]
    intro c hc
    simp only [Option.mem_def, Option.some.injEq] at hc
    subst hc
    rfl) 0 0
  rw [h.value] at hs
  have hne := h.someDigit
  have hlen : l.num.length ≠ 0 := fun hh => hne (List.eq_nil_of_length_eq_zero hh)
  have hneg : ∀ t, l.num ++ (l.x.text ++ rest) ≠ '-' :: t := by
    intro t ht
    have hd := h.digits
    cases hn : l.num with
    | nil => exact hne hn
    | cons c n =>
      rw [hn] at ht hd
      simp only [List.cons_append, List.cons.injEq] at ht
      rw [ht.1] at hd
      simp [isDigit] at hd
  obtain ⟨r0, r1⟩ := h.range
  unfold fromCharsL
  split
  rename_i neg s1 heq
  have : neg = false ∧ s1 = l.num ++ (l.x.text ++ rest) := by
    split at heq
    · rename_i t ht
      exact absurd ht (hneg t)
    · simp only [Prod.mk.injEq] at heq
      exact ⟨heq.1.symm, heq.2.symm⟩
  obtain ⟨rfl, rfl⟩ := this
  rw [hs]
  simp only [hlen, if_false, Bool.false_eq_true]
  rw [Int.toNat_of_nonneg r0, if_neg (by unfold longMax at *; omega)]

theorem takeWhile_noNul (t : List Char) (h : '\x00' ∉ t) : t.takeWhile (· != '\x00') = t := by
  induction t with
  | nil => rfl
  | cons c t ih =>
    have hc : c ≠ '\x00' := fun he => h (by simp [he])
    have hr : '\x00' ∉ t := fun hm => h (by simp [hm])
    simp [hc, ih hr]

/-- A line is classified as what it says. -/
theorem classify_src (e : Ext V) (l : Src V) (h : l.Ok e) : classify e l.text = l.item e := by
  unfold classify
  rw [takeWhile_noNul _ h.nul]
  cases l with
  | comment t =>
    have hc := h.comment t rfl
    simp only [Src.text]
    cases t with
    | nil => rfl
    | cons c t =>
      simp only
      rw [if_pos (by simpa using hc c (by simp))]
      rfl
  | data d =>
    have hd := h.data d rfl
    have h12 := hd.date
    have hf := hd.first
    cases hdate : d.date with
    | nil => rw [hdate] at h12; simp at h12
    | cons c dt =>
      rw [hdate] at hf
      obtain ⟨f1, f2⟩ := hf c (by simp)
      have hlen : ¬ (Src.text (.data d)).length < 12 := by
        simp only [Src.text, DayLine.text, List.length_append, h12]
        omega
      have hdrop : (Src.text (.data d)).drop 12 = List.replicate d.gap ' ' ++ (d.num ++ d.values) := by
        simp only [Src.text, DayLine.text]
        rw [← h12, List.drop_left]
      have hnn : nextNum ((Src.text (.data d)).drop 12) = d.num ++ d.values := by
        rw [hdrop]
        have hb : nextNum (d.num ++ d.values) = d.num ++ d.values := by
          have hs := hd.someDigit
          have hdg := hd.digits
          cases hn : d.num with
          | nil => exact absurd hn hs
          | cons c n =>
            rw [hn] at hdg
            simp only [List.all_cons, Bool.and_eq_true] at hdg
            have : c ≠ ' ' := by
              rintro rfl
              exact absurd hdg.1 (by decide)
            unfold nextNum
            rw [List.cons_append, List.dropWhile_cons_of_neg (by simpa using this)]
        generalize d.gap = n
        induction n with
        | zero => simpa using hb
        | succ n ih =>
          rw [List.replicate_succ, List.cons_append, nextNum, List.dropWhile_cons_of_pos (by rfl)]
          exact ih
      have hcons : ∃ r, Src.text (.data d) = c :: r := by
        simp only [Src.text, DayLine.text, hdate]
        exact ⟨_, rfl⟩
      obtain ⟨r, hr⟩ := hcons
      have hfin : fromCharsL (nextNum ((Src.text (.data d)).drop 12)) = some (d.day, d.values) := by
        rw [hnn]
        exact fromCharsL_num e d hd _
      rw [hr] at hlen hfin ⊢
      simp only [beq_iff_eq, f1, f2, Bool.or_eq_true, or_self, if_false, hlen, hfin, row_line e d hd, Src.item]

/-- **C25** Reading stops at the first line that does not fit the buffer of 256 bytes with its terminator, and after a line
without newline; all lines before are used. -/
theorem items_until (e : Ext V) (a : List Rinex.Line) (ha : ∀ l ∈ a, l.text.length < 256 ∧ l.eol = true) (b : List Rinex.Line) :
    items e (a ++ b) = a.map (fun l => classify e l.text) ++ items e b ∧
    (∀ l r, b = l :: r → (256 ≤ l.text.length → items e b = []) ∧
      (l.text.length < 256 → l.eol = false → items e b = [classify e l.text])) := by
  constructor
  · induction a with
    | nil => rfl
    | cons l a ih =>
      have hl := ha l (by simp)
      rw [List.cons_append, items, if_neg (by omega), if_pos hl.2, ih fun x hx => ha x (by simp [hx])]
      rfl
  · rintro l r rfl
    refine ⟨fun h => ?_, fun h he => ?_⟩
    · rw [items, if_pos (by omega)]
    · rw [items, if_neg (by omega), he, if_neg (by decide)]

theorem items_src (e : Ext V) : ∀ (ls : List (Src V)), (∀ l ∈ ls, l.Ok e) →
    items e (ls.map fun l => ⟨l.text, true⟩) = ls.map (Src.item e)
  | [], _ => rfl
  | l :: ls, h => by
    have hl := h l (by simp)
    simp only [List.map_cons, items]
    rw [if_neg (by have := hl.length; omega), classify_src e l hl, if_pos trivial,
      items_src e ls fun x hx => h x (by simp [hx])]

theorem days_src (e : Ext V) : ∀ (ls : List (Src V)), days (ls.map (Src.item e)) = srcDays ls
  | [] => rfl
  | .comment t :: ls => by simpa [days, srcDays, Src.item] using days_src e ls
  | .data d :: ls => by simpa [days, srcDays, Src.item] using days_src e ls

/-- **C25** (files whose data lines are in chronological order) Reading a file of comments and data
lines succeeds exactly when every day of the interval has its line; the table then holds, for
each day in order, the values of its line. -/
theorem file_read_partial (e : Ext V) (ls : List (Src V)) (hok : ∀ l ∈ ls, l.Ok e)
    (hinc : (srcDays ls).Pairwise (· < ·)) (st en : Int) (hse : st ≤ en) :
    ((∃ rows, parseC04 e (some (ls.map fun l => ⟨l.text, true⟩)) st en = .ret 0 rows) ↔
      ∀ d, st ≤ d → d < en → d ∈ srcDays ls) ∧
    ∀ rows, parseC04 e (some (ls.map fun l => ⟨l.text, true⟩)) st en = .ret 0 rows →
      (rows.length : Int) = en - st ∧
      ∀ (i : Nat) (hi : i < rows.length), ∃ l, Src.data l ∈ ls ∧ l.day = st + i ∧ rows[i] = l.record e := by
  have hit := items_src e ls hok
  have hdays : days (items e (ls.map fun l => ⟨l.text, true⟩)) = srcDays ls := by
    rw [hit]; exact days_src e ls
  have hc : Chronological (items e (ls.map fun l => ⟨l.text, true⟩)) := by
    unfold Chronological
    rw [hdays]
    exact hinc
  have hmem : ∀ (d : Int) (r : Rec V), Item.day d (some r) ∈ items e (ls.map fun l => ⟨l.text, true⟩) →
      ∃ l, Src.data l ∈ ls ∧ l.day = d ∧ r = l.record e := by
    intro d r h
    rw [hit, List.mem_map] at h
    obtain ⟨l, hl, he⟩ := h
    cases l with
    | comment t => simp [Src.item] at he
    | data x =>
      simp only [Src.item, Item.day.injEq, Option.some.injEq] at he
      exact ⟨x, hl, he.1, he.2.symm⟩
  have hsuc : ∀ rows, parseC04 e (some (ls.map fun l => ⟨l.text, true⟩)) st en = .ret 0 rows →
      (rows.length : Int) = en - st ∧
      ∀ (i : Nat) (hi : i < rows.length), ∃ l, Src.data l ∈ ls ∧ l.day = st + i ∧ rows[i] = l.record e := by
    intro rows h
    obtain ⟨h1, h2⟩ := success_complete_partial e _ st en rows hc h
    exact ⟨h1, fun i hi => hmem _ _ (h2 i hi)⟩
  refine ⟨⟨?_, ?_⟩, hsuc⟩
  · rintro ⟨rows, h⟩ d h1 h2
    obtain ⟨hl, hr⟩ := hsuc rows h
    obtain ⟨l, hm, hd, -⟩ := hr (d - st).toNat (by omega)
    have e1 : l.day = d := by rw [hd]; omega
    rw [← hdays, hit, ← e1]
    clear hinc hdays hc hmem hsuc h hr hit hok
    rw [days_src]
    induction ls with
    | nil => simp at hm
    | cons a ls ih =>
      rcases List.mem_cons.1 hm with rfl | hm
      · simp [srcDays]
      · have := ih hm
        cases a <;> simp [srcDays, this]
  · intro hall
    refine complete_succeeds_partial e _ st en hse hc ?_ (by rw [hdays]; exact hall)
    intro it hi
    rw [hit, List.mem_map] at hi
    obtain ⟨l, -, rfl⟩ := hi
    cases l <;> simp [Src.item]

/-- Non-vacuity: a line of the format. -/
example : (⟨"1962   1   1".toList, 2, "37665".toList, 37665, ⟨0, ['1'], 1⟩, ⟨0, ['2'], 2⟩, ⟨0, ['3'], 3⟩, ⟨0, ['4'], 4⟩,
    ⟨0, ['5'], 5⟩, ⟨0, ['6'], 6⟩, []⟩ : DayLine Int).Ok exExt where
  date := by decide +kernel
  first := by decide +kernel
  digits := by decide +kernel
  value := by decide +kernel
  someDigit := by decide +kernel
  range := by decide +kernel
  x := ⟨by simp, by simp, fun rest _ => rfl⟩
  y := ⟨by simp, by simp, fun rest _ => rfl⟩
  dut := ⟨by simp, by simp, fun rest _ => rfl⟩
  lod := ⟨by simp, by simp, fun rest _ => rfl⟩
  dx := ⟨by simp, by simp, fun rest _ => rfl⟩
  dy := ⟨by simp, by simp, fun rest _ => rfl⟩
  more := .inl rfl

end Verif.Eop.C04
