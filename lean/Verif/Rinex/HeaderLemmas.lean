import Verif.Rinex.HeaderModel

namespace Verif.Rinex
open Verif.Text Verif.SystemInfo

theorem getD_fill (st line : List Char) (k : Nat) (hk : k < line.length) :
    at' (fill st line) k = at' (fill [] line) k := by
  unfold at' fill
  simp [List.getD_eq_getElem?_getD, List.getElem?_append_left hk]

theorem takeWhile_append_nul (l st : List Char) :
    (l ++ '\x00' :: st).takeWhile (· != '\x00') = l.takeWhile (· != '\x00') := by
  induction l with
  | nil => simp
  | cons c l ih =>
    rw [List.cons_append, List.takeWhile_cons, List.takeWhile_cons, ih]

theorem cstr_fill (st line : List Char) (k : Nat) (hk : k ≤ line.length) :
    cstr (fill st line) k = (line.drop k).takeWhile (· != '\x00') := by
  unfold cstr fill
  rw [List.drop_append_of_le_length hk, takeWhile_append_nul]

theorem cstr_fill' (st line : List Char) (k : Nat) (hk : k ≤ line.length) :
    cstr (fill st line) k = cstr (fill [] line) k := by
  rw [cstr_fill st line k hk, cstr_fill [] line k hk]

theorem take_drop_fill (st line : List Char) (k n : Nat) (h : k + n ≤ line.length) :
    ((fill st line).drop k).take n = ((fill [] line).drop k).take n := by
  unfold fill
  rw [List.drop_append_of_le_length (by omega), List.drop_append_of_le_length (by omega),
    List.take_append_of_le_length (by simp; omega), List.take_append_of_le_length (by simp; omega)]

theorem take_fill (st line : List Char) (n : Nat) (h : n ≤ line.length) :
    (fill st line).take n = (fill [] line).take n := by
  simpa using take_drop_fill st line 0 n (by omega)

/-- A label without NULs is found exactly when it is a prefix of the line from column 60. -/
theorem prefix_append_nul (t l st : List Char) (hn : '\x00' ∉ t) :
    (l ++ '\x00' :: st).take t.length = t ↔ t <+: l := by
  induction t generalizing l with
  | nil => simp
  | cons c t ih =>
    simp only [List.mem_cons, not_or] at hn
    cases l with
    | nil =>
      simp only [List.nil_append, List.length_cons, List.take_succ_cons, List.cons.injEq,
        List.prefix_nil, reduceCtorEq, iff_false, not_and]
      intro h; exact absurd h hn.1
    | cons d l =>
      simp only [List.cons_append, List.length_cons, List.take_succ_cons, List.cons.injEq,
        List.cons_prefix_cons, ih l hn.2]
      constructor
      · rintro ⟨h, h'⟩; exact ⟨h.symm, h'⟩
      · rintro ⟨h, h'⟩; exact ⟨h.symm, h'⟩

theorem labelAt_fill (st line t : List Char) (hn : '\x00' ∉ t) (h : 60 ≤ line.length) :
    labelAt (fill st line) t = true ↔ t <+: line.drop 60 := by
  unfold labelAt fill
  rw [List.drop_append_of_le_length h, beq_iff_eq, prefix_append_nul _ _ _ hn]

theorem labelAt_fill' (st line t : List Char) (hn : '\x00' ∉ t) (h : 60 ≤ line.length) :
    labelAt (fill st line) t = labelAt (fill [] line) t := by
  rw [Bool.eq_iff_iff, labelAt_fill st line t hn h, labelAt_fill [] line t hn h]

theorem Label.text_no_nul (l : Label) : '\x00' ∉ l.text := by
  cases l <;> decide

theorem dispatch_fill (ls : List Label) (st line : List Char) (h : 60 ≤ line.length) :
    dispatch ls (fill st line) = dispatch ls (fill [] line) := by
  unfold dispatch
  congr 1
  funext l
  exact labelAt_fill' st line _ l.text_no_nul h

theorem countLengthReverse_fill (st line : List Char) (off n : Nat) (h : off + n < line.length) :
    countLengthReverse (fill st line) off n = countLengthReverse (fill [] line) off n := by
  induction n with
  | zero => simp only [countLengthReverse, getD_fill st line off (by omega)]
  | succ n ih =>
    simp only [countLengthReverse, getD_fill st line (off + n + 1) (by omega), ih (by omega)]

theorem countLengthReverse_le (b : Buf) (off n k : Nat) (h : countLengthReverse b off n = some k) :
    k ≤ n + 1 := by
  induction n with
  | zero =>
    simp only [countLengthReverse] at h
    split at h
    · split at h <;> simp at h; omega
    · simp at h; omega
  | succ n ih =>
    simp only [countLengthReverse] at h
    split at h
    · have := ih h; omega
    · simp at h; omega

/-- The out-of-array read happens exactly when the whole field (starting at column 0) is
blank. -/
theorem countLengthReverse_none (b : Buf) (off n : Nat) :
    countLengthReverse b off n = none ↔ off = 0 ∧ ∀ i ≤ n, at' b i = ' ' := by
  induction n with
  | zero =>
    simp only [countLengthReverse, Nat.le_zero]
    by_cases h : at' b off == ' '
    · simp only [h, if_true]
      by_cases ho : off = 0
      · subst ho
        simp at h
        simp [h]
      · simp [ho]
    · simp only [h]
      simp at h
      simp only [Bool.false_eq_true, if_false, reduceCtorEq, false_iff, not_and]
      rintro rfl hh
      exact h (hh 0 rfl)
  | succ n ih =>
    simp only [countLengthReverse]
    by_cases h : at' b (off + n + 1) == ' '
    · simp only [h, if_true, ih]
      simp at h
      constructor
      · rintro ⟨rfl, hh⟩
        refine ⟨rfl, fun i hi => ?_⟩
        rcases Nat.lt_or_ge i (n + 1) with h' | h'
        · exact hh i (by omega)
        · have : i = n + 1 := by omega
          subst this
          simpa using h
      · rintro ⟨rfl, hh⟩
        exact ⟨rfl, fun i hi => hh i (by omega)⟩
    · simp only [h, Bool.false_eq_true, if_false, reduceCtorEq, false_iff, not_and]
      rintro rfl hh
      apply h
      simpa using hh (n + 1) (Nat.le_refl _)

theorem textField_fill (st line : List Char) (off n lim : Nat) (err : Int)
    (h : off + n < line.length) :
    textField (fill st line) off n lim err = textField (fill [] line) off n lim err := by
  unfold textField
  rw [countLengthReverse_fill st line off n h]
  cases hc : countLengthReverse (fill [] line) off n with
  | none => rfl
  | some k =>
    have := countLengthReverse_le _ _ _ _ hc
    simp only
    split
    · rfl
    · rw [take_drop_fill st line off k (by omega)]

theorem intAt_fill (st line : List Char) (k : Nat) (h : k ≤ line.length) :
    intAt (fill st line) k = intAt (fill [] line) k := by
  unfold intAt
  rw [cstr_fill' st line k h]

theorem dropWhile_append_nul (l st : List Char) :
    (l ++ '\x00' :: st).dropWhile (· == ' ') =
      match l.dropWhile (· == ' ') with
      | [] => '\x00' :: st
      | c :: r => c :: (r ++ '\x00' :: st) := by
  induction l with
  | nil => simp
  | cons c l ih =>
    rw [List.cons_append, List.dropWhile_cons, List.dropWhile_cons]
    split
    · exact ih
    · rfl

theorem parseCode_fill (st line : List Char) (pos : Nat) (z : Bool) (e1 e2 : Int)
    (h : pos ≤ line.length) :
    parseCode (fill st line) pos z e1 e2 = parseCode (fill [] line) pos z e1 e2 := by
  unfold parseCode fill
  rw [List.drop_append_of_le_length h, List.drop_append_of_le_length h,
    dropWhile_append_nul, dropWhile_append_nul]
  cases (line.drop pos).dropWhile (· == ' ') with
  | nil =>
    have : ofChar '\x00' = none := by decide
    simp only [this]
  | cons c r => simp only [takeWhile_append_nul]

/-- Inside a line the code reader never leaves the buffer. -/
theorem parseCode_no_ub (st line : List Char) (pos : Nat) (z : Bool) (e1 e2 : Int)
    (h : pos ≤ line.length) : parseCode (fill st line) pos z e1 e2 ≠ .error .ub := by
  have hne : ((fill st line).drop pos).dropWhile (· == ' ') ≠ [] := by
    unfold fill
    rw [List.drop_append_of_le_length h, dropWhile_append_nul]
    split <;> simp
  intro hub
  unfold parseCode at hub
  split at hub
  · rename_i h0
    exact hne h0
  · split at hub
    · simp at hub
    · split at hub
      · split at hub
        · simp at hub
        · split at hub
          · simp at hub
          · simp only at hub
            split at hub
            · simp at hub
            · split at hub <;> simp at hub
      · split at hub <;> simp at hub

theorem parseCode_ok {b : Buf} {pos : Nat} {z : Bool} {e1 e2 : Int} {a : ObsCode}
    (h : parseCode b pos z e1 e2 = .ok a) : ∃ t f, ObsCode.make t f = some a := by
  unfold parseCode at h
  split at h
  · simp at h
  · split at h
    · simp at h
    · split at h
      · split at h
        · simp at h
        · split at h
          · simp at h
          · simp only at h
            split at h
            · simp at h
            · split at h
              · simp at h
              · rename_i a' ha
                simp at h; subst h
                exact ⟨_, _, ha⟩
      · split at h
        · simp at h
        · rename_i a' ha
          simp at h; subst h
          exact ⟨_, _, ha⟩

theorem parseCodes_fill (st line : List Char) (h60 : 60 ≤ line.length) (n : Nat) :
    ∀ code, code + n ≤ 12 →
      parseCodes (fill st line) code n = parseCodes (fill [] line) code n := by
  induction n with
  | zero => intro code _; rfl
  | succ n ih =>
    intro code h
    simp only [parseCodes, parseCode_fill st line (6 + code * 4) false 113 114 (by omega),
      ih (code + 1) (by omega)]

theorem parseCodes_no_ub (st line : List Char) (h60 : 60 ≤ line.length) (n : Nat) :
    ∀ code, code + n ≤ 12 → parseCodes (fill st line) code n ≠ .error .ub := by
  induction n with
  | zero => intro code _; simp [parseCodes]
  | succ n ih =>
    intro code h
    have h1 := parseCode_no_ub st line (6 + code * 4) false 113 114 (by omega)
    have h2 := ih (code + 1) (by omega)
    simp only [parseCodes]
    cases hp : parseCode (fill st line) (6 + code * 4) false 113 114 with
    | error x => rw [hp] at h1; simpa using h1
    | ok a =>
      simp only
      cases hq : parseCodes (fill st line) (code + 1) n with
      | error x => rw [hq] at h2; simpa using h2
      | ok l => simp

theorem parseCodes_length {b : Buf} (n : Nat) :
    ∀ {code : Nat} {l : List ObsCode}, parseCodes b code n = .ok l → l.length = n := by
  induction n with
  | zero => intro code l h; simp [parseCodes] at h; subst h; rfl
  | succ n ih =>
    intro code l h
    simp only [parseCodes] at h
    split at h
    · simp at h
    · split at h
      · simp at h
      · rename_i l' hl
        simp at h; subst h
        simp [ih hl]

theorem parseCodes_valid {b : Buf} (n : Nat) :
    ∀ {code : Nat} {l : List ObsCode}, parseCodes b code n = .ok l →
      ∀ a ∈ l, ∃ t f, ObsCode.make t f = some a := by
  induction n with
  | zero => intro code l h; simp [parseCodes] at h; subst h; simp
  | succ n ih =>
    intro code l h
    simp only [parseCodes] at h
    split at h
    · simp at h
    · rename_i a ha
      split at h
      · simp at h
      · rename_i l' hl
        simp at h; subst h
        intro x hx
        rcases List.mem_cons.1 hx with rfl | hx
        · exact parseCode_ok ha
        · exact ih hl x hx

theorem applyFactors_fill (st line : List Char) (h60 : 60 ≤ line.length) (codes : List ObsCode)
    (factor : Int) (n : Nat) :
    ∀ code sf, code + n ≤ 12 →
      applyFactors (fill st line) codes factor code n sf =
        applyFactors (fill [] line) codes factor code n sf := by
  induction n with
  | zero => intro code sf _; rfl
  | succ n ih =>
    intro code sf h
    simp only [applyFactors, parseCode_fill st line (10 + code * 4) true 144 146 (by omega),
      ih (code + 1) _ (by omega)]

theorem applyFactors_no_ub (st line : List Char) (h60 : 60 ≤ line.length) (codes : List ObsCode)
    (factor : Int) (n : Nat) :
    ∀ code sf, code + n ≤ 12 →
      applyFactors (fill st line) codes factor code n sf ≠ .error .ub := by
  induction n with
  | zero => intro code sf _; simp [applyFactors]
  | succ n ih =>
    intro code sf h
    have h1 := parseCode_no_ub st line (10 + code * 4) true 144 146 (by omega)
    simp only [applyFactors]
    cases hp : parseCode (fill st line) (10 + code * 4) true 144 146 with
    | error x => rw [hp] at h1; simpa using h1
    | ok a =>
      simp only
      split
      · exact ih (code + 1) _ (by omega)
      · simp

/-- Factors keep their number, and each is either unchanged or the line's factor. -/
theorem applyFactors_spec {b : Buf} {codes : List ObsCode} {factor : Int} (n : Nat) :
    ∀ {code : Nat} {sf sf' : List Int}, applyFactors b codes factor code n sf = .ok sf' →
      sf'.length = sf.length ∧ ∀ x ∈ sf', x ∈ sf ∨ x = factor := by
  induction n with
  | zero => intro code sf sf' h; simp [applyFactors] at h; subst h; simp; intro x hx; simp [hx]
  | succ n ih =>
    intro code sf sf' h
    simp only [applyFactors] at h
    split at h
    · simp at h
    · split at h
      · obtain ⟨h1, h2⟩ := ih h
        refine ⟨by simpa using h1, fun x hx => ?_⟩
        rcases h2 x hx with h3 | h3
        · rcases List.mem_or_eq_of_mem_set h3 with h4 | h4
          · exact Or.inl h4
          · exact Or.inr h4
        · exact Or.inr h3
      · simp at h

end Verif.Rinex
