import Verif.SpaceWeather.WriteSpec
import Verif.SpaceWeather.Props
import Verif.Rinex.WriteLemmas

/-! Columns of written space weather lines (C148). -/
namespace Verif.SpaceWeather.Write

open Verif.Rinex Verif.Rinex.Write Verif.Text Verif.SpaceWeather

/-- A comma or the end. -/
def Ends (r : List Char) : Prop := r = [] ∨ r.head? = some ','

theorem Ends.digit {r : List Char} (h : Ends r) : ∀ c, r.head? = some c → ¬ DigitCode c.toNat := by
  intro c hc
  rcases h with rfl | h
  · simp at hc
  · rw [h] at hc
    cases hc
    unfold DigitCode; decide

theorem fromCharsI_plain (c : Char) (t : List Char) (hc : c ≠ '-') : fromCharsI (c :: t) =
    if (scanDigits (c :: t) 0 0).2.1 = 0 then none
    else if ((scanDigits (c :: t) 0 0).1 : Int) > 2147483647 ∨ ((scanDigits (c :: t) 0 0).1 : Int) < -2147483648 then none
    else some (((scanDigits (c :: t) 0 0).1 : Int), (scanDigits (c :: t) 0 0).2.1) := by
  unfold fromCharsI
  split
  rename_i neg s1 heq
  split at heq
  · rename_i h
    exact absurd (List.cons.inj h).1 hc
  · cases heq
    rfl

theorem fromCharsI_digits (ds r : List Char) (hd : ∀ c ∈ ds, DigitCode c.toNat) (hn : ds ≠ [])
    (hr : ∀ c, r.head? = some c → ¬ DigitCode c.toNat) (hb : decimal ds ≤ 2147483647) :
    fromCharsI (ds ++ r) = some ((decimal ds : Int), ds.length) := by
  have hs := scanDigits_append r hr ds 0 0 hd
  obtain ⟨c, t, rfl⟩ := List.exists_cons_of_ne_nil hn
  have hc : c ≠ '-' := by
    intro h
    have := hd c (by simp)
    rw [h] at this
    unfold DigitCode at this
    revert this; decide
  rw [List.cons_append] at hs ⊢
  rw [fromCharsI_plain c _ hc, hs]
  have e : List.foldl (fun a (c : Char) => 10 * a + (c.toNat - 48)) 0 (c :: t) = decimal (c :: t) := rfl
  rw [e]
  simp only
  rw [if_neg (by simp), if_neg (by omega)]
  simp

theorem fromCharsI_int (z : Int) (r : List Char) (hr : Ends r) (h1 : -2147483648 ≤ z) (h2 : z ≤ 2147483647) :
    fromCharsI (intText z ++ r) = some (z, (intText z).length) := by
  obtain ⟨a1, a2, a3⟩ := natText_spec z.natAbs
  by_cases hz : z < 0
  · have hs := scanDigits_append r hr.digit (natText z.natAbs) 0 0 a2
    have e : List.foldl (fun a (c : Char) => 10 * a + (c.toNat - 48)) 0 (natText z.natAbs) = z.natAbs := a1
    rw [e] at hs
    have ht : intText z ++ r = '-' :: (natText z.natAbs ++ r) := by simp [intText, signText, hz]
    have hl : (intText z).length = (natText z.natAbs).length + 1 := by simp [intText, signText, hz]
    rw [ht, hl]
    unfold fromCharsI
    simp only [hs]
    rw [if_neg (by have := List.length_pos_of_ne_nil a3; omega)]
    simp only [if_true]
    rw [if_neg (by omega)]
    congr 1
    ext
    · simp only; omega
    · simp
  · have ht : intText z = natText z.natAbs := by simp [intText, signText, hz]
    rw [ht, fromCharsI_digits _ r a2 a3 hr.digit (by rw [a1]; omega), a1]
    congr 2
    omega

theorem fromCharsI_frac (k n : Nat) (h : n < 10 ^ (k + 1)) (hb : n ≤ 2147483647) :
    fromCharsI (fracText (k + 1) n) = some ((n : Int), k + 1) := by
  obtain ⟨a1, a2, a3⟩ := fracText_spec (k + 1) n h
  have := fromCharsI_digits (fracText (k + 1) n) [] a2 (by intro h; rw [h] at a3; simp at a3) (by simp) (by rw [a1]; omega)
  rw [List.append_nil, a1, a3] at this
  exact this

theorem dropLast_append_cons (a : List Char) (c : Char) (r : List Char) : ∃ r', (a ++ c :: r).dropLast = a ++ r' ∧
    (r' = [] ∨ r'.head? = some c) ∧ (a ++ c :: r).dropLast.length - r'.length = a.length := by
  refine ⟨(c :: r).dropLast, by rw [List.dropLast_append_of_ne_nil (by simp)], ?_, ?_⟩
  · cases r with
    | nil => left; rfl
    | cons x r => right; rfl
  · rw [List.dropLast_append_of_ne_nil (by simp)]
    simp

theorem intComma_written (z : Int) (r : List Char) (h1 : -2147483648 ≤ z) (h2 : z ≤ 2147483647) :
    intComma (intText z ++ ',' :: r) = some (z, r) := by
  obtain ⟨r', e1, e2, -⟩ := dropLast_append_cons (intText z) ',' r
  unfold intComma
  rw [e1, fromCharsI_int z r' e2 h1 h2]
  simp only [List.drop_left]

theorem dblComma_written (e : Ext) (x : Num) (h : x.Ok e) (r : List Char) :
    dblComma e (x.text ++ ',' :: r) = some (x.value, r) := by
  obtain ⟨r', e1, e2, e3⟩ := dropLast_append_cons x.text ',' r
  unfold dblComma
  rw [e1] at e3
  rw [e1, h.reads r' e2]
  simp only [e3, List.drop_left]

theorem aps_written : ∀ (l : List Int) (r : List Char), (∀ a ∈ l, -2147483648 ≤ a ∧ a ≤ 2147483647) →
    aps l.length (l.flatMap (fun a => intText a ++ [',']) ++ r) = some (l, r)
  | [], r, _ => rfl
  | a :: l, r, h => by
    rw [List.flatMap_cons, List.length_cons, aps]
    have e : intText a ++ [','] ++ l.flatMap (fun a => intText a ++ [',']) ++ r =
        intText a ++ ',' :: (l.flatMap (fun a => intText a ++ [',']) ++ r) := by simp
    rw [e, intComma_written a _ (h a (by simp)).1 (h a (by simp)).2]
    simp only
    rw [aps_written l r (fun x hx => h x (by simp [hx]))]

theorem skip_word (n : Nat) (c : Char) : ∀ (w r : List Char), ',' ∉ w →
    skipCommas (n + 1) (c :: (w ++ ',' :: r)) = skipCommas n (',' :: r)
  | [], r, _ => by rw [List.nil_append, skipCommas]
  | x :: w, r, h => by
    have hx : x ≠ ',' := fun hx => h (by simp [hx])
    have ih := skip_word n x w r (fun hm => h (by simp [hm]))
    rw [List.cons_append, skipCommas]
    · exact ih
    · exact hx

theorem skip_columns (r : List Char) : ∀ (cols : List (List Char)) (c : Char) (w : List Char), ',' ∉ w →
    (∀ t ∈ cols, ',' ∉ t) →
    skipCommas (cols.length + 1) (c :: (w ++ (cols.flatMap (fun t => ',' :: t) ++ ',' :: r))) = some r
  | [], c, w, hw, _ => by
    rw [List.flatMap_nil, List.nil_append, List.length_nil, skip_word 0 c w r hw, skipCommas]
  | t :: cols, c, w, hw, h => by
    have e : (t :: cols).flatMap (fun t => ',' :: t) ++ ',' :: r =
        ',' :: (t ++ (cols.flatMap (fun t => ',' :: t) ++ ',' :: r)) := by simp
    rw [e, List.length_cons, skip_word _ c w _ hw]
    exact skip_columns r cols ',' t (h t (by simp)) (fun x hx => h x (by simp [hx]))

/-! ### The line -/

theorem csv_append : ∀ (a : List Char) (b c : List (List Char)), c ≠ [] →
    csv (a :: (b ++ c)) = a ++ (b.flatMap (fun t => ',' :: t) ++ ',' :: csv c)
  | a, [], c, h => by
    obtain ⟨x, l, rfl⟩ := List.exists_cons_of_ne_nil h
    rfl
  | a, x :: b, c, h => by
    rw [List.cons_append, csv, csv_append x b c h]
    · simp
    · simp

theorem csv_columns (b c : List (List Char)) (h : c ≠ []) : csv (b ++ c) = b.flatMap (fun t => t ++ [',']) ++ csv c := by
  induction b with
  | nil => rfl
  | cons x b ih =>
    rw [List.cons_append, csv, ih]
    · simp
    · simp [h]

/-- The columns behind those of the 3-hour values. -/
def Day.late (d : Day) : List Char :=
  d.apAvg.text ++ ',' :: (d.cp ++ ([d.c9, d.isn].flatMap (fun t => ',' :: t) ++ ',' :: (d.obs.text ++ ',' ::
    (d.adj.text ++ ',' :: (d.type ++ ',' :: (d.obsC81.text ++ ',' :: (d.obsL81.text ++ ',' ::
      (d.adjC81.text ++ ',' :: d.adjL81))))))))

theorem line_text (d : Day) : d.line.text = d.date ++ (d.early.flatMap (fun t => ',' :: t) ++ ',' ::
    (d.ap.flatMap (fun a => intText a ++ [',']) ++ d.late)) := by
  unfold Day.line Day.columns
  simp only
  rw [csv_append _ _ _ (by simp), csv_columns _ _ (by simp), List.flatMap_map]
  simp [csv, Day.late]

theorem date_length (e : Ext) (d : Day) (h : d.Ok e) : d.date.length = 10 := by
  obtain ⟨-, -, h1⟩ := fracText_spec 4 d.year (by have := h.year; omega)
  obtain ⟨-, -, h2⟩ := fracText_spec 2 d.month (by have := h.month; omega)
  obtain ⟨-, -, h3⟩ := fracText_spec 2 d.day (by have := h.day; omega)
  simp [Day.date, h1, h2, h3]

theorem dateOf_line (e : Ext) (d : Day) (h : d.Ok e) : dateOf e d.line.text = some (d.mjd e) := by
  obtain ⟨-, -, h1⟩ := fracText_spec 4 d.year (by have := h.year; omega)
  obtain ⟨-, -, h2⟩ := fracText_spec 2 d.month (by have := h.month; omega)
  obtain ⟨-, -, h3⟩ := fracText_spec 2 d.day (by have := h.day; omega)
  rw [line_text, Day.date]
  generalize d.early.flatMap (fun t => ',' :: t) ++ ',' :: (d.ap.flatMap (fun a => intText a ++ [',']) ++ d.late) = r
  have f1 : field (fracText 4 d.year ++ '-' :: (fracText 2 d.month ++ '-' :: fracText 2 d.day) ++ r) 0 4 =
      fracText 4 d.year := by
    unfold field
    rw [List.drop_zero, List.append_assoc, List.take_left' h1]
  have f2 : field (fracText 4 d.year ++ '-' :: (fracText 2 d.month ++ '-' :: fracText 2 d.day) ++ r) 5 2 =
      fracText 2 d.month := by
    unfold field
    have : fracText 4 d.year ++ '-' :: (fracText 2 d.month ++ '-' :: fracText 2 d.day) ++ r =
      (fracText 4 d.year ++ ['-']) ++ (fracText 2 d.month ++ ('-' :: fracText 2 d.day ++ r)) := by simp
    rw [this, List.drop_left' (by simp [h1]), List.take_left' h2]
  have f3 : field (fracText 4 d.year ++ '-' :: (fracText 2 d.month ++ '-' :: fracText 2 d.day) ++ r) 8 2 =
      fracText 2 d.day := by
    unfold field
    have : fracText 4 d.year ++ '-' :: (fracText 2 d.month ++ '-' :: fracText 2 d.day) ++ r =
      (fracText 4 d.year ++ '-' :: (fracText 2 d.month ++ ['-'])) ++ (fracText 2 d.day ++ r) := by simp
    rw [this, List.drop_left' (by simp [h1, h2]), List.take_left' h3]
  unfold dateOf
  rw [f1, f2, f3, fromCharsI_frac 3 d.year (by have := h.year; omega) (by have := h.year; omega),
    fromCharsI_frac 1 d.month (by have := h.month; omega) (by have := h.month; omega),
    fromCharsI_frac 1 d.day (by have := h.day; omega) (by have := h.day; omega)]
  rfl

theorem digits_comma (ds : List Char) (h : ∀ c ∈ ds, DigitCode c.toNat) : ',' ∉ ds := by
  intro hm
  have := h _ hm
  unfold DigitCode at this
  revert this; decide

theorem digits_nul' (ds : List Char) (h : ∀ c ∈ ds, DigitCode c.toNat) : '\x00' ∉ ds := by
  intro hm
  have := h _ hm
  unfold DigitCode at this
  revert this; decide

theorem date_free (e : Ext) (d : Day) (h : d.Ok e) : Free d.date := by
  obtain ⟨-, h1, -⟩ := fracText_spec 4 d.year (by have := h.year; omega)
  obtain ⟨-, h2, -⟩ := fracText_spec 2 d.month (by have := h.month; omega)
  obtain ⟨-, h3, -⟩ := fracText_spec 2 d.day (by have := h.day; omega)
  constructor
  · simp only [Day.date, List.mem_append, List.mem_cons, not_or]
    exact ⟨digits_comma _ h1, by decide, digits_comma _ h2, by decide, digits_comma _ h3⟩
  · simp only [Day.date, List.mem_append, List.mem_cons, not_or]
    exact ⟨digits_nul' _ h1, by decide, digits_nul' _ h2, by decide, digits_nul' _ h3⟩

theorem line_nul (e : Ext) (d : Day) (h : d.Ok e) : '\x00' ∉ d.line.text := by
  rw [line_text]
  simp only [Day.late, List.mem_append, List.mem_cons, List.mem_flatMap, not_or, List.not_mem_nil, not_exists, not_and,
    forall_eq_or_imp, or_false, forall_eq]
  have z : ('\x00' : Char) ≠ ',' := by decide
  refine ⟨(date_free e d h).2, fun t ht => ⟨z, (h.early.2 t ht).2⟩, z, fun a _ => ⟨intText_nul a, z⟩, h.apAvg.nul, z,
    h.cp.1.2, ⟨⟨z, h.c9.2⟩, ⟨z, h.isn.2⟩⟩, z, h.obs.nul, z, h.adj.nul, z, h.type.1, z, h.obsC81.nul, z, h.obsL81.nul, z,
    h.adjC81.nul, z, h.adjL81⟩

end Verif.SpaceWeather.Write
