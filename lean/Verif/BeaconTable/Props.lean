import Verif.BeaconTable.Model
import Verif.Rinex.StreamLemmas

/-! C61: the beacon table returns exactly the records valid at the requested epoch. -/
namespace Verif.BeaconTable
open Verif.Rinex

/-! ### Specification -/

/-- A record line: it fits in the reader's buffer, reaches the height column and contains no NUL. -/
structure IsRecord (text : List Char) : Prop where
  short : text.length ≤ 255
  long : 45 ≤ text.length
  nonul : '\x00' ∉ text

/-- The record written on a line, by columns: name 0-3, start of validity from 5, end of validity
from 24, height from 45. -/
def record (e : Ext) (text : List Char) : Option Entry := do
  let f ← e.strptime (text.drop 5)
  let t ← e.strptime (text.drop 24)
  let h ← e.strtod (text.drop 45)
  if h.2 then none else some ⟨text.take 4, h.1, f, t⟩

/-- A record is valid from the start of its interval (included) to its end (excluded). -/
def validAt (t : Int) (r : Entry) : Bool := decide (r.from' ≤ t ∧ t < r.to')

/-! ### Lemmas -/

theorem takeWhile_append_nul (a : List Char) (h : '\x00' ∉ a) (r : List Char) :
    (a ++ '\x00' :: r).takeWhile (· != '\x00') = a := by
  induction a with
  | nil => simp
  | cons c a ih =>
    have hc : c ≠ '\x00' := by
      intro h0; exact h (by simp [h0])
    have ha : '\x00' ∉ a := fun h0 => h (by simp [h0])
    simp [List.takeWhile, hc, ih ha]

theorem cstr_fill (b : Buf) (text : List Char) (k : Nat) (hk : k ≤ text.length)
    (h : '\x00' ∉ text) : cstr (fill b text) k = text.drop k := by
  unfold cstr fill
  rw [List.drop_append_of_le_length hk]
  exact takeWhile_append_nul _ (fun hm => h (List.mem_of_mem_drop hm)) _

theorem parseLine_record (e : Ext) (b : Buf) (text : List Char) (h : IsRecord text) :
    parseLine e false (fill b text) = record e text := by
  have h45 := h.long
  unfold parseLine record
  rw [cstr_fill b text 5 (by omega) h.nonul, cstr_fill b text 24 (by omega) h.nonul,
    cstr_fill b text 45 h45 h.nonul]
  have ht : (fill b text).take 4 = text.take 4 := by
    unfold fill
    rw [List.take_append_of_le_length (by omega)]
  cases e.strptime (text.drop 5) with
  | none => rfl
  | some f =>
    cases e.strptime (text.drop 24) with
    | none => rfl
    | some t =>
      cases e.strtod (text.drop 45) with
      | none => rfl
      | some p => obtain ⟨v, er⟩ := p; cases er <;> simp [ht]

theorem loop_exact (e : Ext) (t : Int) (recs : List Line) (n : Nat) (hn : recs.length < n)
    (hr : ∀ l ∈ recs, IsRecord l.text) (hs : ∀ l ∈ recs.dropLast, l.eol = true)
    (eof : Bool) (heof : recs ≠ [] → eof = false) (b : Buf) (v : List Entry) :
    loop e false t n ⟨recs, false, eof⟩ b v =
      match recs.mapM (fun l => record e l.text) with
      | none => .throws
      | some es => .ok (v ++ es.filter (validAt t)) := by
  induction recs generalizing n b v eof with
  | nil =>
    obtain ⟨m, rfl⟩ : ∃ m, n = m + 1 := ⟨n - 1, by simp at hn; omega⟩
    cases eof <;> simp [loop, getline, Stream.good]
  | cons l rest ih =>
    obtain ⟨m, rfl⟩ : ∃ m, n = m + 1 := ⟨n - 1, by simp at hn; omega⟩
    have he : eof = false := heof (by simp)
    subst he
    have hl : IsRecord l.text := hr l (by simp)
    have hg : getline 256 ⟨l :: rest, false, false⟩ b = (⟨rest, false, !l.eol⟩, fill b l.text) :=
      getline_good b rfl rfl (by have := hl.short; omega)
    rw [loop, hg]
    simp only [Bool.false_eq_true, if_false, List.mapM_cons]
    rw [parseLine_record e b l.text hl]
    cases hrec : record e l.text with
    | none => rfl
    | some r =>
      have := ih m (by simp at hn; omega) (fun x hx => hr x (by simp [hx]))
        (fun x hx => hs x (by
          cases rest with
          | nil => simp at hx
          | cons y ys => rw [List.dropLast_cons₂]; simp [hx]))
        (!l.eol) (fun hne => by
          cases rest with
          | nil => exact absurd rfl hne
          | cons y ys =>
            have := hs l (by rw [List.dropLast_cons₂]; simp)
            simp [this])
        (fill b l.text) (if t ≥ r.from' ∧ t < r.to' then v ++ [r] else v)
      simp only [this]
      cases rest.mapM (fun l => record e l.text) with
      | none => rfl
      | some es =>
        by_cases hv : r.from' ≤ t ∧ t < r.to'
        · simp [hv, validAt]
        · have hd : validAt t r = false := by simp only [validAt, decide_eq_false_iff_not]; exact hv
          simp [hv, hd]

/-! ### C61 -/

/-- **C61 (exact result).**  For a file made of a header line and any number of record lines, when
`errno` is clear: the reader throws exactly when some record cannot be read, and otherwise returns
precisely the records whose validity interval contains the epoch, in file order. -/
theorem load_exact (e : Ext) (t : Int) (header : Line) (recs : List Line)
    (hh : header.text.length ≤ 255) (hr : ∀ l ∈ recs, IsRecord l.text)
    (hs : ∀ l ∈ (header :: recs).dropLast, l.eol = true) :
    load e false t (some (header :: recs)) =
      match recs.mapM (fun l => record e l.text) with
      | none => .throws
      | some es => .ok (es.filter (validAt t)) := by
  have hg : getline 256 (Stream.open (header :: recs)) e.junk =
      (⟨recs, false, !header.eol⟩, fill e.junk header.text) :=
    getline_good e.junk rfl rfl (by omega)
  simp only [load, hg]
  rw [loop_exact e t recs _ (by simp; omega) hr
    (fun x hx => hs x (by
      cases recs with
      | nil => simp at hx
      | cons y ys => rw [List.dropLast_cons₂]; simp [hx]))
    (!header.eol) (fun hne => by
      cases recs with
      | nil => exact absurd rfl hne
      | cons y ys =>
        have := hs header (by rw [List.dropLast_cons₂]; simp)
        simp [this])]
  cases recs.mapM (fun l => record e l.text) <;> simp

theorem loop_valid (e : Ext) (errno : Bool) (t : Int) (n : Nat) (s : Stream) (b : Buf)
    (v w : List Entry) (hv : ∀ r ∈ v, validAt t r = true) (h : loop e errno t n s b v = .ok w) :
    ∀ r ∈ w, validAt t r = true := by
  induction n generalizing s b v with
  | zero => simp only [loop, Outcome.ok.injEq] at h; subst h; exact hv
  | succ n ih =>
    rw [loop] at h
    split at h
    · simp only [Outcome.ok.injEq] at h; subst h; exact hv
    · split at h
      · simp at h
      · rename_i r _
        refine ih _ _ _ ?_ h
        intro x hx
        split at hx
        · rename_i hc
          simp only [List.mem_append, List.mem_singleton] at hx
          rcases hx with hx | rfl
          · exact hv x hx
          · simpa [validAt] using hc
        · exact hv x hx

/-- **C61 (soundness, any file).**  Whatever the file contains, every returned record is valid at
the epoch. -/
theorem load_valid (e : Ext) (errno : Bool) (t : Int) (file : Option (List Line))
    (w : List Entry) (h : load e errno t file = .ok w) : ∀ r ∈ w, r.from' ≤ t ∧ t < r.to' := by
  cases file with
  | none => simp [load] at h
  | some lines =>
    intro r hr
    have := loop_valid e errno t _ _ _ [] w (by simp) h r hr
    simpa [validAt] using this

/-- **C61 (one record per site).**  When the validity intervals of each site are disjoint, at most
one record per site is returned. -/
theorem load_one_per_site (e : Ext) (t : Int) (header : Line) (recs : List Line)
    (hh : header.text.length ≤ 255) (hr : ∀ l ∈ recs, IsRecord l.text)
    (hs : ∀ l ∈ (header :: recs).dropLast, l.eol = true) (es w : List Entry)
    (hes : recs.mapM (fun l => record e l.text) = some es)
    (hdis : es.Pairwise fun a b => a.name = b.name → a.to' ≤ b.from' ∨ b.to' ≤ a.from')
    (h : load e false t (some (header :: recs)) = .ok w) : (w.map Entry.name).Nodup := by
  rw [load_exact e t header recs hh hr hs, hes] at h
  simp only [Outcome.ok.injEq] at h
  subst h
  rw [List.Nodup, List.pairwise_map]
  refine (hdis.filter _).imp_of_mem ?_
  intro a b ha hb hab hn
  have ha' := (List.mem_filter.mp ha).2
  have hb' := (List.mem_filter.mp hb).2
  simp only [validAt, decide_eq_true_eq] at ha' hb'
  have := hab hn
  omega

/-- A toy parser: the first character decides. -/
def toyExt : Ext where
  strptime s := match s with
    | 'a' :: _ => some 10
    | 'b' :: _ => some 20
    | 'c' :: _ => some 30
    | _ => none
  strtod s := match s with
    | '5' :: _ => some (5, false)
    | '7' :: _ => some (7, false)
    | _ => none
  junk := List.replicate 256 '?'

/-- A line with the given one-character fields. -/
def toyLine (name : List Char) (f t h : Char) : List Char :=
  name ++ ' ' :: f :: (List.replicate 18 ' ' ++ t :: (List.replicate 20 ' ' ++ [h]))

example : IsRecord (toyLine "DIOA".toList 'a' 'b' '5') :=
  ⟨by decide, by decide, by decide⟩

example : load toyExt false 10 (some [⟨"h".toList, true⟩,
    ⟨toyLine "DIOA".toList 'a' 'b' '5', true⟩, ⟨toyLine "DIOB".toList 'b' 'c' '7', false⟩]) =
    .ok [⟨"DIOA".toList, 5, 10, 20⟩] := by decide +kernel

/-- At the common end point only the later record is returned. -/
example : load toyExt false 20 (some [⟨"h".toList, true⟩,
    ⟨toyLine "DIOA".toList 'a' 'b' '5', true⟩, ⟨toyLine "DIOB".toList 'b' 'c' '7', false⟩]) =
    .ok [⟨"DIOB".toList, 7, 20, 30⟩] := by decide +kernel

/-- **C61 fails for files with blank lines**: the blank line is read as a second copy of the line
before it, under a damaged name. -/
theorem load_blank_counterexample :
    load toyExt false 10 (some [⟨"h".toList, true⟩,
      ⟨toyLine "DIOA".toList 'a' 'b' '5', true⟩, ⟨[], true⟩]) =
      .ok [⟨"DIOA".toList, 5, 10, 20⟩, ⟨"\x00IOA".toList, 5, 10, 20⟩] := by decide +kernel

/-- **C61 fails for over-long lines**: they silently end the table. -/
theorem load_long_counterexample :
    load toyExt false 10 (some [⟨"h".toList, true⟩, ⟨List.replicate 256 '#', true⟩,
      ⟨toyLine "DIOA".toList 'a' 'b' '5', true⟩]) = .ok [] := by decide +kernel

/-- **C61 fails when `errno` is set by earlier code**: a perfectly good table is refused.  This
holds for every file with at least one record line. -/
theorem load_stale_errno (e : Ext) (t : Int) (header l : Line) (rest : List Line)
    (hh : header.text.length ≤ 255) (he : header.eol = true) (hl : l.text.length ≤ 255) :
    load e true t (some (header :: l :: rest)) = .throws := by
  have hg : getline 256 (Stream.open (header :: l :: rest)) e.junk =
      (⟨l :: rest, false, !header.eol⟩, fill e.junk header.text) :=
    getline_good e.junk rfl rfl (by omega)
  have hg2 : getline 256 ⟨l :: rest, false, false⟩ (fill e.junk header.text) =
      (⟨rest, false, !l.eol⟩, fill (fill e.junk header.text) l.text) :=
    getline_good _ rfl rfl (by omega)
  have hp : ∀ b, parseLine e true b = none := by
    intro b
    unfold parseLine
    split
    · rfl
    · split
      · rfl
      · split <;> simp
  simp only [load, hg, he, Bool.not_true, List.length_cons]
  rw [loop, hg2]
  simp [hp]

end Verif.BeaconTable
