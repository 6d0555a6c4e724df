import Verif.Script.GfcModel
import Verif.Script.BulletinProps
import Verif.Icgem.Model
import Mathlib.Data.List.Forall2
import Mathlib.Data.List.TakeWhile
import Mathlib.Tactic.NormNum
import Mathlib.Tactic.ByContra

/-!
C130: after the conversion the reader of gravity field files gets from a file in Fortran notation the numbers
that are written there.

This holds for the coefficients (`coefficients_read`); without the conversion they are refused.  It does not
hold for the constants of the header, which are not converted and whose exponent is then ignored without a
message (`constant_counterexample`), nor for numbers without decimals, and a file without the end of a header
keeps the script running for ever.
-/
namespace Verif.Script.Gfc

open Verif.Text
open Verif.Script.Bulletin (strip words wordsAux Solid wordsAux_solid dec dec_scan dec_digits dec_ne solid_digits)

/-! ### Fortran numbers -/

/-- An optional sign. -/
def Sign (s : List Char) : Prop := s = [] ∨ s = ['+'] ∨ s = ['-']

/-- Digits, at least one. -/
def Digits (s : List Char) : Prop := s ≠ [] ∧ ∀ c ∈ s, isDigit c = true

/-- Does not begin with a digit. -/
def NoDigit (s : List Char) : Prop := ∀ c, s.head? = some c → isDigit c = false

/-- A mantissa with decimals. -/
def Mant (m : List Char) : Prop :=
  ∃ sg a b, m = sg ++ (a ++ '.' :: b) ∧ Sign sg ∧ (∀ c ∈ a, isDigit c = true) ∧ Digits b

/-- A mantissa with at most one digit before the point. -/
def Short (m : List Char) : Prop :=
  ∃ sg a b, m = sg ++ (a ++ '.' :: b) ∧ Sign sg ∧ (∀ c ∈ a, isDigit c = true) ∧ a.length ≤ 1 ∧ Digits b

/-- An exponent. -/
def Expo (x : List Char) : Prop := ∃ sg e, x = sg ++ e ∧ Sign sg ∧ Digits e

/-- The letter of the exponent. -/
def Letter (c : Char) : Prop := c = 'D' ∨ c = 'd'

theorem takeDrop_digits (e r : List Char) (he : ∀ c ∈ e, isDigit c = true) (hr : NoDigit r) :
    (e ++ r).takeWhile isDigit = e ∧ (e ++ r).dropWhile isDigit = r := by
  rw [List.takeWhile_append_of_pos he, List.dropWhile_append_of_pos he]
  cases r with
  | nil => simp
  | cons c r =>
    have := hr c rfl
    rw [List.takeWhile_cons_of_neg (by simp [this]), List.dropWhile_cons_of_neg (by simp [this])]
    simp

theorem digits_take (s : List Char) : (∀ c ∈ s.takeWhile isDigit, isDigit c = true) ∧
    NoDigit (s.dropWhile isDigit) ∧ s = s.takeWhile isDigit ++ s.dropWhile isDigit := by
  refine ⟨fun c hc => List.mem_takeWhile_imp hc, ?_, List.takeWhile_append_dropWhile.symm⟩
  intro c hc
  have := List.head?_dropWhile_not isDigit s
  rw [hc] at this
  simpa using this

theorem optSign_spec (s : List Char) : Sign (optSign s).1 ∧ s = (optSign s).1 ++ (optSign s).2 := by
  cases s with
  | nil => exact ⟨.inl rfl, rfl⟩
  | cons c s =>
    by_cases h : c = '+' ∨ c = '-'
    · rw [optSign, if_pos h]
      rcases h with rfl | rfl
      · exact ⟨.inr (.inl rfl), rfl⟩
      · exact ⟨.inr (.inr rfl), rfl⟩
    · rw [optSign, if_neg h]
      exact ⟨.inl rfl, rfl⟩

/-- A sign is recognised when no other sign follows. -/
theorem optSign_eq (sg s : List Char) (h : Sign sg) (hs : ∀ c, s.head? = some c → c ≠ '+' ∧ c ≠ '-') :
    optSign (sg ++ s) = (sg, s) := by
  rcases h with rfl | rfl | rfl
  · cases s with
    | nil => rfl
    | cons c s =>
      have := hs c rfl
      rw [List.nil_append, optSign, if_neg (by simp [this])]
  · rfl
  · rfl

theorem digit_not_sign {c : Char} (h : isDigit c = true) : c ≠ '+' ∧ c ≠ '-' ∧ c ≠ '.' ∧ c ≠ 'D' ∧ c ≠ 'd' := by
  refine ⟨?_, ?_, ?_, ?_, ?_⟩ <;> (rintro rfl; revert h; decide)

theorem exponent_iff (s x r : List Char) : exponent s = some (x, r) ↔
    ∃ d, s = d :: (x ++ r) ∧ Letter d ∧ Expo x ∧ NoDigit r := by
  cases s with
  | nil => simp [exponent]
  | cons c s =>
    rw [exponent]
    constructor
    · intro h
      split at h
      · rename_i hc
        obtain ⟨h1, h2⟩ := optSign_spec s
        obtain ⟨h3, h4, h5⟩ := digits_take (optSign s).2
        simp only at h
        split at h
        · simp at h
        · rename_i hne
          simp only [Option.some.injEq, Prod.mk.injEq] at h
          obtain ⟨rfl, rfl⟩ := h
          refine ⟨c, ?_, hc, ⟨_, _, rfl, h1, hne, h3⟩, h4⟩
          rw [List.append_assoc, ← h5, ← h2]
      · simp at h
    · rintro ⟨d, h1, h2, ⟨sg, e, rfl, h3, h4⟩, h5⟩
      rw [List.cons.injEq] at h1
      obtain ⟨rfl, rfl⟩ := h1
      rw [if_pos (show c = 'D' ∨ c = 'd' from h2)]
      have hs : optSign (sg ++ e ++ r) = (sg, e ++ r) := by
        rw [List.append_assoc]
        refine optSign_eq sg _ h3 ?_
        intro c hc
        cases e with
        | nil => exact absurd rfl h4.1
        | cons a e =>
          have : a = c := by simpa using hc
          subst this
          have := digit_not_sign (h4.2 a List.mem_cons_self)
          exact ⟨this.1, this.2.1⟩
      simp only [hs, (takeDrop_digits e r h4.2 h5).1, (takeDrop_digits e r h4.2 h5).2, if_neg h4.1]

theorem fraction_iff (pre s m x r : List Char) : fraction pre s = some (m, x, r) ↔
    ∃ b d, s = '.' :: (b ++ d :: (x ++ r)) ∧ m = pre ++ '.' :: b ∧ Digits b ∧ Letter d ∧ Expo x ∧ NoDigit r := by
  cases s with
  | nil => simp [fraction]
  | cons c s =>
    rw [fraction]
    constructor
    · intro h
      split at h
      · rename_i hc
        obtain ⟨h3, h4, h5⟩ := digits_take s
        rw [Option.map_eq_some_iff] at h
        obtain ⟨⟨x', r'⟩, h1, h2⟩ := h
        simp only [Prod.mk.injEq] at h2
        obtain ⟨h6, rfl, rfl⟩ := h2
        obtain ⟨d, h7, h8, h9, h10⟩ := (exponent_iff _ _ _).mp h1
        refine ⟨s.takeWhile isDigit, d, ?_, h6.symm, ⟨hc.2, h3⟩, h8, h9, h10⟩
        rw [hc.1, ← h7, ← h5]
      · simp at h
    · rintro ⟨b, d, h1, h2, h3, h4, h5, h6⟩
      rw [List.cons.injEq] at h1
      obtain ⟨rfl, rfl⟩ := h1
      have hnd : NoDigit (d :: (x ++ r)) := by
        intro c hc
        have : d = c := by simpa using hc
        rw [← this]
        rcases h4 with rfl | rfl <;> decide
      obtain ⟨e1, e2⟩ := takeDrop_digits b _ h3.2 hnd
      rw [e1, e2, if_pos ⟨rfl, h3.1⟩, (exponent_iff _ _ _).mpr ⟨d, rfl, h4, h5, h6⟩, h2]
      rfl

/-- What the pattern matches, in words: a mantissa with at most one digit before the point, a letter, an
exponent, and no further digit. -/
theorem matchAt_iff (s m x r : List Char) : matchAt s = some (m, x, r) ↔
    ∃ d, s = m ++ d :: (x ++ r) ∧ Short m ∧ Letter d ∧ Expo x ∧ NoDigit r := by
  unfold matchAt
  constructor
  · intro h
    obtain ⟨h1, h2⟩ := optSign_spec s
    simp only at h
    obtain ⟨b, d, h3, h4, h5, h6, h7, h8⟩ := (fraction_iff _ _ _ _ _).mp h
    have hd : (∀ c ∈ (optDigit (optSign s).2).1, isDigit c = true) ∧ (optDigit (optSign s).2).1.length ≤ 1 ∧
        (optSign s).2 = (optDigit (optSign s).2).1 ++ (optDigit (optSign s).2).2 := by
      cases (optSign s).2 with
      | nil => simp [optDigit]
      | cons c t =>
        by_cases hc : isDigit c = true
        · rw [optDigit, if_pos hc]
          simp [hc]
        · rw [optDigit, if_neg hc]
          simp
    refine ⟨d, ?_, ⟨_, _, b, ?_, h1, hd.1, hd.2.1, h5⟩, h6, h7, h8⟩
    · rw [h4, List.append_assoc, List.append_assoc, List.cons_append, ← h3, ← hd.2.2, ← h2]
    · rw [h4, List.append_assoc]
  · rintro ⟨d, rfl, ⟨sg, a, b, rfl, h1, h2, h3, h4⟩, h5, h6, h7⟩
    have e1 : sg ++ (a ++ '.' :: b) ++ d :: (x ++ r) = sg ++ (a ++ '.' :: (b ++ d :: (x ++ r))) := by simp
    have hs : optSign (sg ++ (a ++ '.' :: (b ++ d :: (x ++ r)))) = (sg, a ++ '.' :: (b ++ d :: (x ++ r))) := by
      refine optSign_eq sg _ h1 ?_
      intro c hc
      cases a with
      | nil =>
        have : '.' = c := by simpa using hc
        rw [← this]
        decide
      | cons y a =>
        have : y = c := by simpa using hc
        rw [← this]
        have := digit_not_sign (h2 y List.mem_cons_self)
        exact ⟨this.1, this.2.1⟩
    have hdg : optDigit (a ++ '.' :: (b ++ d :: (x ++ r))) = (a, '.' :: (b ++ d :: (x ++ r))) := by
      rcases a with _ | ⟨y, _ | ⟨z, a⟩⟩
      · rfl
      · have := h2 y (by simp)
        simp [optDigit, this]
      · simp at h3
    rw [e1, hs]
    simp only [hdg]
    exact (fraction_iff _ _ _ _ _).mpr ⟨b, d, rfl, by simp, h4, h5, h6, h7⟩

/-! ### Substitution -/

theorem match_length {s m x r : List Char} (h : matchAt s = some (m, x, r)) :
    s.length = m.length + 1 + x.length + r.length ∧ m ≠ [] ∧ x ≠ [] := by
  obtain ⟨d, h1, ⟨sg, a, b, h2, -⟩, -, ⟨sg', e, h3, -, h4⟩, -⟩ := (matchAt_iff s m x r).mp h
  refine ⟨?_, ?_, ?_⟩
  · rw [h1]
    simp
    omega
  · rw [h2]
    simp
  · rw [h3]
    have := h4.1
    simp [this]

theorem subF_enough (k j : Nat) (s : List Char) (hk : s.length ≤ k) (hj : s.length ≤ j) :
    subF k s = subF j s := by
  induction k generalizing j s with
  | zero =>
    have : s = [] := by simpa using hk
    subst this
    cases j <;> rfl
  | succ k ih =>
    cases s with
    | nil => cases j <;> rfl
    | cons c t =>
      cases j with
      | zero => simp at hj
      | succ j =>
        rw [subF, subF]
        cases h : matchAt (c :: t) with
        | none =>
          simp only
          rw [ih j t (by simpa using hk) (by simpa using hj)]
        | some p =>
          obtain ⟨m, x, r⟩ := p
          simp only
          have hl := (match_length h).1
          rw [List.length_cons] at hl hk hj
          rw [ih j r (by omega) (by omega)]

theorem sub_nil : sub [] = [] := rfl

theorem sub_cons_none {c : Char} {t : List Char} (h : matchAt (c :: t) = none) : sub (c :: t) = c :: sub t := by
  unfold sub
  rw [List.length_cons, subF, h]

theorem sub_some {s m x r : List Char} (h : matchAt s = some (m, x, r)) :
    sub s = m ++ 'e' :: (x ++ sub r) := by
  cases s with
  | nil => simp [matchAt, optSign, optDigit, fraction] at h
  | cons c t =>
    have hl := (match_length h).1
    unfold sub
    rw [List.length_cons, subF, h]
    simp only
    rw [List.length_cons] at hl
    rw [subF_enough t.length r.length r (by omega) le_rfl]

/-- Induction along the substitution. -/
theorem sub_induction {P : List Char → Prop} (h0 : P [])
    (h1 : ∀ c t, matchAt (c :: t) = none → P t → P (c :: t))
    (h2 : ∀ s m x r, matchAt s = some (m, x, r) → P r → P s) (s : List Char) : P s := by
  suffices h : ∀ n, ∀ s : List Char, s.length ≤ n → P s from h s.length s le_rfl
  intro n
  induction n with
  | zero =>
    intro s hs
    have : s = [] := by simpa using hs
    rw [this]
    exact h0
  | succ n ih =>
    intro s hs
    cases s with
    | nil => exact h0
    | cons c t =>
      cases h : matchAt (c :: t) with
      | none => exact h1 c t h (ih t (by simpa using hs))
      | some p =>
        obtain ⟨m, x, r⟩ := p
        have hl := (match_length h).1
        exact h2 _ m x r h (ih r (by omega))

/-- Only letters of exponents are changed, each into an e. -/
theorem sub_chars (s : List Char) : List.Forall₂ (fun a b => a = b ∨ (Letter a ∧ b = 'e')) s (sub s) := by
  have hrefl : ∀ t : List Char, List.Forall₂ (fun a b => a = b ∨ (Letter a ∧ b = 'e')) t t := by
    intro t
    induction t with
    | nil => exact .nil
    | cons c t ih => exact .cons (.inl rfl) ih
  induction s using sub_induction with
  | h0 => exact .nil
  | h1 c t h ih =>
    rw [sub_cons_none h]
    exact .cons (.inl rfl) ih
  | h2 s m x r h ih =>
    rw [sub_some h]
    obtain ⟨d, rfl, -, hd, -⟩ := (matchAt_iff s m x r).mp h
    exact List.rel_append (hrefl m) (.cons (.inr ⟨hd, rfl⟩) (List.rel_append (hrefl x) ih))

/-- Nothing is changed exactly when there is no such number. -/
theorem sub_eq_iff (s : List Char) : sub s = s ↔
    ∀ a m d x b, s = a ++ (m ++ d :: (x ++ b)) → Short m → Letter d → ¬ Expo x := by
  constructor
  · intro h a
    induction a generalizing s with
    | nil =>
      rintro m d x b h1 h2 h3 ⟨sg, e, rfl, h5, h6⟩
      obtain ⟨g1, g2, g3⟩ := digits_take b
      have hm : matchAt s = some (m, sg ++ (e ++ b.takeWhile isDigit), b.dropWhile isDigit) := by
        rw [matchAt_iff]
        refine ⟨d, ?_, h2, h3, ⟨sg, _, rfl, h5, ?_, ?_⟩, g2⟩
        · rw [h1]
          simp only [List.nil_append, List.append_assoc]
          rw [← g3]
        · have := h6.1
          simp [this]
        · intro c hc
          rcases List.mem_append.mp hc with hc | hc
          · exact h6.2 c hc
          · exact g1 c hc
      rw [sub_some hm] at h
      obtain ⟨d', e1, -, hd', -⟩ := (matchAt_iff _ _ _ _).mp hm
      rw [e1] at h
      have := (List.append_cancel_left h)
      rw [List.cons.injEq] at this
      rw [← this.1] at hd'
      rcases hd' with hd' | hd' <;> revert hd' <;> decide
    | cons c a ih =>
      rintro m d x b rfl h2 h3 h4
      rw [List.cons_append] at h
      cases hm : matchAt (c :: (a ++ (m ++ d :: (x ++ b)))) with
      | none =>
        rw [sub_cons_none hm, List.cons.injEq] at h
        exact ih _ h.2 m d x b rfl h2 h3 h4
      | some p =>
        obtain ⟨m', x', r'⟩ := p
        rw [sub_some hm] at h
        obtain ⟨d', e1, -, hd', -⟩ := (matchAt_iff _ _ _ _).mp hm
        rw [e1] at h
        have := (List.append_cancel_left h)
        rw [List.cons.injEq] at this
        rw [← this.1] at hd'
        rcases hd' with hd' | hd' <;> revert hd' <;> decide
  · intro h
    induction s using sub_induction with
    | h0 => rfl
    | h1 c t hm ih =>
      rw [sub_cons_none hm, ih]
      intro a m d x b ht
      exact h (c :: a) m d x b (by rw [ht]; rfl)
    | h2 s m x r hm ih =>
      obtain ⟨d, rfl, h1, h2, h3, -⟩ := (matchAt_iff s m x r).mp hm
      exact absurd h3 (h [] m d x r rfl h1 h2)

/-! ### Words -/

/-- Empty, or white space first. -/
def Break (s : List Char) : Prop := ∀ c, s.head? = some c → isSpace c = true

theorem space_not_digit {c : Char} (h : isSpace c = true) :
    isDigit c = false ∧ c ≠ '+' ∧ c ≠ '-' ∧ c ≠ '.' ∧ c ≠ 'D' ∧ c ≠ 'd' := by
  unfold isSpace at h
  simp only [Bool.or_eq_true, beq_iff_eq] at h
  rcases h with ((((rfl | rfl) | rfl) | rfl) | rfl) | rfl <;> decide

theorem match_solid {m x : List Char} {d : Char} (h : Short m) (hd : Letter d) (hx : Expo x) :
    Solid (m ++ d :: x) := by
  have hsg : ∀ sg, Sign sg → Solid sg := by
    rintro sg (rfl | rfl | rfl)
    · intro c hc
      simp at hc
    · intro c hc
      rw [List.mem_singleton] at hc
      rw [hc]
      decide
    · intro c hc
      rw [List.mem_singleton] at hc
      rw [hc]
      decide
  obtain ⟨sg, a, b, rfl, h1, h2, -, h3⟩ := h
  obtain ⟨sg', e, rfl, h4, h5⟩ := hx
  intro c hc
  simp only [List.mem_append, List.mem_cons] at hc
  rcases hc with (hc | hc | rfl | hc) | rfl | hc | hc
  · exact hsg sg h1 c hc
  · exact solid_digits h2 c hc
  · decide
  · exact solid_digits h3.2 c hc
  · rcases hd with rfl | rfl <;> decide
  · exact hsg sg' h4 c hc
  · exact solid_digits h5.2 c hc

theorem noDigit_append {r b : List Char} (hr : NoDigit r) (hb : Break b) : NoDigit (r ++ b) := by
  intro c hc
  cases r with
  | nil => exact (space_not_digit (hb c hc)).1
  | cons a r => exact hr c hc

/-- White space ends a number. -/
theorem matchAt_append (a b : List Char) (hb : Break b) :
    matchAt (a ++ b) = (matchAt a).map fun p => (p.1, p.2.1, p.2.2 ++ b) := by
  cases h : matchAt a with
  | some p =>
    obtain ⟨m, x, r⟩ := p
    obtain ⟨d, rfl, h1, h2, h3, h4⟩ := (matchAt_iff a m x r).mp h
    rw [Option.map_some, matchAt_iff]
    exact ⟨d, by simp, h1, h2, h3, noDigit_append h4 hb⟩
  | none =>
    rw [Option.map_none]
    by_contra hne
    obtain ⟨⟨m, x, r⟩, hp⟩ := Option.ne_none_iff_exists'.mp hne
    obtain ⟨d, h1, h2, h3, h4, h5⟩ := (matchAt_iff _ m x r).mp hp
    have h1' : a ++ b = (m ++ d :: x) ++ r := by rw [h1]; simp
    rcases List.append_eq_append_iff.mp h1' with ⟨c, h6, h7⟩ | ⟨c, h6, h7⟩
    · cases c with
      | nil =>
        rw [List.append_nil] at h6
        have : matchAt a = some (m, x, []) := by
          rw [matchAt_iff]
          exact ⟨d, by rw [← h6]; simp, h2, h3, h4, by simp [NoDigit]⟩
        rw [h] at this
        simp at this
      | cons y c =>
        have hy := hb y (by rw [h7]; rfl)
        have := match_solid h2 h3 h4 y (by rw [h6]; simp)
        rw [hy] at this
        simp at this
    · have : matchAt a = some (m, x, c) := by
        rw [matchAt_iff]
        refine ⟨d, by rw [h6]; simp, h2, h3, h4, ?_⟩
        intro y hy
        refine h5 y ?_
        rw [h7]
        cases c with
        | nil => simp at hy
        | cons z c => exact hy
      rw [h] at this
      simp at this

theorem sub_append (a b : List Char) (hb : Break b) : sub (a ++ b) = sub a ++ sub b := by
  induction a using sub_induction with
  | h0 => rfl
  | h1 c t h ih =>
    have : matchAt (c :: t ++ b) = none := by rw [matchAt_append _ b hb, h]; rfl
    rw [sub_cons_none h, List.cons_append, List.cons_append, ← ih]
    exact sub_cons_none this
  | h2 s m x r h ih =>
    have : matchAt (s ++ b) = some (m, x, r ++ b) := by rw [matchAt_append _ b hb, h]; rfl
    rw [sub_some h, sub_some this, ih]
    simp

theorem sub_space (c : Char) (t : List Char) (h : isSpace c = true) : sub (c :: t) = c :: sub t := by
  refine sub_cons_none ?_
  have hs := space_not_digit h
  unfold matchAt
  rw [optSign, if_neg (by simp [hs.2.1, hs.2.2.1])]
  simp only
  rw [optDigit, if_neg (by simp [hs.1])]
  simp only
  rw [fraction, if_neg (by simp [hs.2.2.2.1])]

theorem sub_solid {w : List Char} (h : Solid w) : Solid (sub w) := by
  have := sub_chars w
  revert h
  generalize sub w = v at this
  induction this with
  | nil => exact id
  | @cons a b l1 l2 hab _ ih =>
    intro h c hc
    rcases List.mem_cons.mp hc with rfl | hc
    · rcases hab with rfl | ⟨-, rfl⟩
      · exact h a List.mem_cons_self
      · decide
    · exact ih (fun y hy => h y (List.mem_cons_of_mem _ hy)) c hc

theorem sub_ne {w : List Char} (h : w ≠ []) : sub w ≠ [] := by
  intro he
  have := (sub_chars w).length_eq
  rw [he] at this
  exact h (by simpa using this)

theorem words_space (c : Char) (s : List Char) (h : isSpace c = true) : words (c :: s) = words s := by
  unfold words
  rw [wordsAux, if_pos h]
  rfl

theorem words_solid (w s : List Char) (h : Solid w) (hne : w ≠ []) (hs : Break s) :
    words (w ++ s) = w :: words s := by
  unfold words
  rw [wordsAux_solid w s [] h, List.append_nil]
  have hr : w.reverse.isEmpty = false := by
    cases w with
    | nil => exact absurd rfl hne
    | cons c w => simp
  cases s with
  | nil =>
    simp only [wordsAux, hr, if_neg Bool.false_ne_true, List.reverse_reverse]
    rfl
  | cons c s =>
    have hc := hs c rfl
    rw [wordsAux, if_pos hc, hr, if_neg Bool.false_ne_true, List.reverse_reverse, wordsAux, if_pos hc]
    rfl

/-- The words of a line are converted one by one. -/
theorem words_sub (s : List Char) : words (sub s) = (words s).map sub := by
  suffices h : ∀ n, ∀ s : List Char, s.length ≤ n → words (sub s) = (words s).map sub from h _ s le_rfl
  intro n
  induction n with
  | zero =>
    intro s hs
    have : s = [] := by simpa using hs
    rw [this]
    rfl
  | succ n ih =>
    intro s hs
    cases s with
    | nil => rfl
    | cons c t =>
      by_cases hc : isSpace c = true
      · rw [sub_space c t hc, words_space c _ hc, words_space c _ hc]
        exact ih t (by simpa using hs)
      · have hc' : (!isSpace c) = true := by simpa using hc
        have hsplit : c :: t = (c :: t).takeWhile (fun x => !isSpace x) ++ (c :: t).dropWhile (fun x => !isSpace x) :=
          List.takeWhile_append_dropWhile.symm
        have hb : Break ((c :: t).dropWhile (fun x => !isSpace x)) := by
          intro y hy
          have := List.head?_dropWhile_not (fun x => !isSpace x) (c :: t)
          rw [hy] at this
          simpa using this
        have hw : Solid ((c :: t).takeWhile (fun x => !isSpace x)) := by
          intro y hy
          have := List.mem_takeWhile_imp hy
          simpa using this
        have hne : (c :: t).takeWhile (fun x => !isSpace x) ≠ [] := by
          rw [List.takeWhile_cons_of_pos (p := fun x => !isSpace x) hc']
          simp
        have hlen : ((c :: t).dropWhile (fun x => !isSpace x)).length ≤ n := by
          have h1 := congrArg List.length hsplit
          rw [List.length_append] at h1
          have h2 : 0 < ((c :: t).takeWhile (fun x => !isSpace x)).length := List.length_pos_of_ne_nil hne
          omega
        have hb2 : Break (sub ((c :: t).dropWhile (fun x => !isSpace x))) := by
          cases hd : (c :: t).dropWhile (fun x => !isSpace x) with
          | nil => simp [Break, sub_nil]
          | cons y u =>
            have hy := hb y (by rw [hd]; rfl)
            rw [sub_space y u hy]
            intro z hz
            have : y = z := by simpa using hz
            rw [← this]
            exact hy
        rw [hsplit, sub_append _ _ hb, words_solid _ _ (sub_solid hw) (sub_ne hne) hb2,
          words_solid _ _ hw hne hb, List.map_cons, ih _ hlen]

/-- A number in Fortran notation is converted, with any number of digits before the point. -/
theorem sub_number (m x : List Char) (d : Char) (hm : Mant m) (hd : Letter d) (hx : Expo x) :
    sub (m ++ d :: x) = m ++ 'e' :: x := by
  obtain ⟨sg, a, b, rfl, h1, h2, h3⟩ := hm
  -- short mantissas
  have hshort : ∀ sg a : List Char, Sign sg → (∀ c ∈ a, isDigit c = true) → a.length ≤ 1 →
      sub (sg ++ (a ++ '.' :: b) ++ d :: x) = sg ++ (a ++ '.' :: b) ++ 'e' :: x := by
    intro sg a h1 h2 hl
    have : matchAt (sg ++ (a ++ '.' :: b) ++ d :: x) = some (sg ++ (a ++ '.' :: b), x, []) := by
      rw [matchAt_iff]
      exact ⟨d, by simp, ⟨sg, a, b, rfl, h1, h2, hl, h3⟩, hd, hx, by simp [NoDigit]⟩
    rw [sub_some this, sub_nil, List.append_nil]
  -- a digit before another digit does not begin a match
  have hnone : ∀ sg y z a, Sign sg → isDigit y = true → isDigit z = true →
      matchAt (sg ++ (y :: z :: a)) = none := by
    intro sg y z a h1 hy hz
    unfold matchAt
    have hny := digit_not_sign hy
    have hnz := digit_not_sign hz
    rw [optSign_eq sg _ h1 (by
      intro c hc
      have : y = c := by simpa using hc
      rw [← this]
      exact ⟨hny.1, hny.2.1⟩)]
    simp only
    rw [optDigit, if_pos hy]
    simp only
    rw [fraction, if_neg (by simp [hnz.2.2.1])]
  have hlong : ∀ a : List Char, (∀ c ∈ a, isDigit c = true) →
      sub (a ++ '.' :: b ++ d :: x) = a ++ '.' :: b ++ 'e' :: x := by
    intro a
    induction a with
    | nil =>
      intro _
      exact hshort [] [] (.inl rfl) (by simp) (by simp)
    | cons y a ih =>
      intro ha
      cases a with
      | nil => exact hshort [] [y] (.inl rfl) ha (by simp)
      | cons z a =>
        have hn := hnone [] y z (a ++ '.' :: b ++ d :: x) (.inl rfl) (ha y (by simp)) (ha z (by simp))
        have := ih (fun c hc => ha c (List.mem_cons_of_mem _ hc))
        simp only [List.cons_append, List.nil_append, List.append_assoc] at this hn ⊢
        rw [sub_cons_none hn, this]
  rcases a with _ | ⟨y, _ | ⟨z, a⟩⟩
  · exact hshort sg [] h1 h2 (by simp)
  · exact hshort sg [y] h1 h2 (by simp)
  · have hl := hlong (y :: z :: a) h2
    rcases h1 with rfl | h1
    · simpa using hl
    · have hn := hnone sg y z (a ++ '.' :: b ++ d :: x) (.inr h1) (h2 y (by simp)) (h2 z (by simp))
      simp only [List.cons_append, List.append_assoc] at hl hn ⊢
      rcases h1 with rfl | rfl
      · simp only [List.cons_append, List.nil_append] at hn ⊢
        rw [sub_cons_none hn, hl]
      · simp only [List.cons_append, List.nil_append] at hn ⊢
        rw [sub_cons_none hn, hl]

/-- Numbers without decimals are left as they are, whatever their digits. -/
theorem whole_counterexample (a x : List Char) (d : Char) (ha : Digits a) (hd : Letter d) (hx : Expo x)
    (point : Bool) : sub (a ++ ((if point then ['.'] else []) ++ d :: x)) =
      a ++ ((if point then ['.'] else []) ++ d :: x) := by
  rw [sub_eq_iff]
  rintro p m d' x' b h ⟨sg, a', b', rfl, -, -, -, hb'⟩ - -
  -- the point of the mantissa is followed by a digit
  obtain ⟨y, b'', rfl⟩ : ∃ y b'', b' = y :: b'' := by
    cases b' with
    | nil => exact absurd rfl hb'.1
    | cons y b'' => exact ⟨y, b'', rfl⟩
  have hy := hb'.2 y List.mem_cons_self
  have hnp : ∀ c ∈ a, c ≠ '.' := fun c hc => (digit_not_sign (ha.2 c hc)).2.2.1
  have hxp : ∀ c ∈ d :: x, c ≠ '.' := by
    intro c hc
    rcases List.mem_cons.mp hc with rfl | hc
    · rcases hd with rfl | rfl <;> decide
    · obtain ⟨sg', e, rfl, h4, h5⟩ := hx
      rcases List.mem_append.mp hc with hc | hc
      · rcases h4 with rfl | rfl | rfl
        · simp at hc
        · rw [List.mem_singleton] at hc
          rw [hc]
          decide
        · rw [List.mem_singleton] at hc
          rw [hc]
          decide
      · exact (digit_not_sign (h5.2 c hc)).2.2.1
  have h' : a ++ ((if point then ['.'] else []) ++ d :: x) =
      (p ++ sg ++ a') ++ '.' :: (y :: b'' ++ d' :: (x' ++ b)) := by
    rw [h]
    simp
  cases point with
  | false =>
    have hmem : '.' ∈ a ++ ((if false then ['.'] else []) ++ d :: x) := by
      rw [h']
      simp
    simp only [Bool.false_eq_true, if_false, List.nil_append] at hmem
    rcases List.mem_append.mp hmem with hm | hm
    · exact hnp _ hm rfl
    · exact hxp _ hm rfl
  | true =>
    simp only [if_true, List.singleton_append] at h'
    rcases List.append_eq_append_iff.mp h' with ⟨c, h6, h7⟩ | ⟨c, h6, h7⟩
    · cases c with
      | nil =>
        rw [List.nil_append, List.cons.injEq, List.cons_append, List.cons.injEq] at h7
        rw [← h7.2.1] at hy
        rcases hd with rfl | rfl <;> revert hy <;> decide
      | cons z c =>
        rw [List.cons_append, List.cons.injEq] at h7
        have : '.' ∈ d :: x := by
          rw [h7.2]
          simp
        exact hxp _ this rfl
    · cases c with
      | nil =>
        rw [List.nil_append, List.cons.injEq, List.cons_append, List.cons.injEq] at h7
        rw [h7.2.1] at hy
        rcases hd with rfl | rfl <;> revert hy <;> decide
      | cons z c =>
        rw [List.cons_append (a := z), List.cons.injEq] at h7
        have : '.' ∈ a := by
          rw [h6, h7.1]
          simp
        exact hnp _ this rfl

/-! ### The file -/

/-- The line that ends the header. -/
def IsEnd (l : List Char) : Prop := ∃ t, l.dropWhile isSpace = "end_of_head".toList ++ t

theorem isEnd_iff (l : List Char) : "end_of_head".toList.isPrefixOf (l.dropWhile isSpace) = true ↔ IsEnd l := by
  rw [List.isPrefixOf_iff_prefix]
  constructor
  · rintro ⟨t, h⟩
    exact ⟨t, h.symm⟩
  · rintro ⟨t, h⟩
    exact ⟨t, h.symm⟩

/-- C130, the file: header lines are copied, data lines converted, both without surrounding blanks. -/
theorem convert_file (pre : List (List Char)) (l : List Char) (rest : List (List Char))
    (hp : ∀ x ∈ pre, ¬ IsEnd x) (hl : IsEnd l) (k : Nat) (hk : pre.length < k) :
    convert k (pre ++ l :: rest) = some (pre.map strip ++ strip l :: rest.map fun x => strip (sub x)) := by
  have h : ∀ (pre : List (List Char)) (k : Nat) (out : List (List Char)), (∀ x ∈ pre, ¬ IsEnd x) →
      pre.length < k → header k (pre ++ l :: rest) out = (out ++ pre.map strip ++ [strip l], some rest) := by
    intro pre
    induction pre with
    | nil =>
      intro k out _ hk
      obtain ⟨k, rfl⟩ : ∃ j, k = j + 1 := ⟨k - 1, by simp at hk; omega⟩
      rw [List.nil_append, header, if_pos ((isEnd_iff l).mpr hl)]
      simp
    | cons p pre ih =>
      intro k out hp hk
      obtain ⟨k, rfl⟩ : ∃ j, k = j + 1 := ⟨k - 1, by simp at hk; omega⟩
      rw [List.cons_append, header, if_neg]
      · rw [ih k _ (fun x hx => hp x (List.mem_cons_of_mem _ hx)) (by simpa using hk)]
        simp
      · rw [isEnd_iff]
        exact hp p List.mem_cons_self
  unfold convert
  rw [h pre k [] hp hk]
  simp [data]

/-- A file without the end of a header is never finished: after its last line the script prints empty lines
for ever. -/
theorem endless_counterexample (file : List (List Char)) (h : ∀ l ∈ file, ¬ IsEnd l) (k : Nat) :
    convert k file = none ∧ (header k file []).1.length = k := by
  have key : ∀ (k : Nat) (file out : List (List Char)), (∀ l ∈ file, ¬ IsEnd l) →
      (header k file out).2 = none ∧ (header k file out).1.length = out.length + k := by
    intro k
    induction k with
    | zero => intro file out _; exact ⟨rfl, rfl⟩
    | succ k ih =>
      intro file out h
      cases file with
      | nil =>
        rw [header]
        obtain ⟨h1, h2⟩ := ih [] (out ++ [[]]) (by simp)
        refine ⟨h1, ?_⟩
        rw [h2]
        simp
        omega
      | cons l ls =>
        rw [header, if_neg (by rw [isEnd_iff]; exact h l List.mem_cons_self)]
        obtain ⟨h1, h2⟩ := ih ls (out ++ [strip l]) (fun x hx => h x (List.mem_cons_of_mem _ hx))
        refine ⟨h1, ?_⟩
        rw [h2]
        simp
        omega
  obtain ⟨h1, h2⟩ := key k file [] h
  refine ⟨?_, by simpa using h2⟩
  unfold convert
  cases e : header k file [] with
  | mk out r =>
    rw [e] at h1
    simp only at h1
    subst h1
    rfl

/-! ### The reader -/

open Verif.Icgem (Strtod classify twoDoubles onLine Hdr Key)
open Verif.Rinex (strncmpEq)

/-- `strtod` reads numbers in C notation up to the next white space. -/
def ReadsC (strtod : Strtod) (val : List Char → List Char → ℚ) : Prop :=
  ∀ m x k s, Mant m → Expo x → Break s →
    strtod (List.replicate k ' ' ++ (m ++ 'e' :: (x ++ s))) = some (val m x, s)

/-- It stops at the letters D and d, and finds no number there. -/
def StopsAt (strtod : Strtod) (base : List Char → ℚ) : Prop :=
  (∀ m k d s, Mant m → Letter d → strtod (List.replicate k ' ' ++ (m ++ d :: s)) = some (base m, d :: s)) ∧
  ∀ d s, Letter d → strtod (d :: s) = none

theorem sub_blanks (k : Nat) (s : List Char) : sub (List.replicate k ' ' ++ s) = List.replicate k ' ' ++ sub s := by
  induction k with
  | zero => rfl
  | succ k ih =>
    rw [List.replicate_succ, List.cons_append, sub_space _ _ (by decide), ih]
    rfl

theorem sub_digits (a : List Char) (h : ∀ c ∈ a, isDigit c = true) : sub a = a := by
  rw [sub_eq_iff]
  rintro p m d x b rfl - hd -
  have := digit_not_sign (h d (by simp))
  rcases hd with rfl | rfl
  · exact this.2.2.2.1 rfl
  · exact this.2.2.2.2 rfl

theorem break_blanks (k : Nat) (s : List Char) : Break (List.replicate (k + 1) ' ' ++ s) := by
  intro c hc
  have : ' ' = c := by simpa [List.replicate_succ] using hc
  rw [← this]
  decide

/-- A line of coefficients: degree, order, the two numbers with `l1` and `l2` for the exponents, further
columns. -/
def gfcLine (k1 k2 k3 k4 n k : Nat) (m1 x1 m2 x2 : List Char) (l1 l2 : Char) (tail : List Char) : List Char :=
  "gfc".toList ++ (List.replicate (k1 + 1) ' ' ++ (dec n ++ (List.replicate (k2 + 1) ' ' ++ (dec k ++
    (List.replicate (k3 + 1) ' ' ++ (m1 ++ l1 :: (x1 ++ (List.replicate (k4 + 1) ' ' ++
      (m2 ++ l2 :: (x2 ++ tail))))))))))

theorem sub_gfcLine (k1 k2 k3 k4 n k : Nat) (m1 x1 m2 x2 : List Char) (l1 l2 : Char) (tail : List Char)
    (hm1 : Mant m1) (hx1 : Expo x1) (hm2 : Mant m2) (hx2 : Expo x2) (hl1 : Letter l1) (hl2 : Letter l2)
    (ht : Break tail) : sub (gfcLine k1 k2 k3 k4 n k m1 x1 m2 x2 l1 l2 tail) =
      gfcLine k1 k2 k3 k4 n k m1 x1 m2 x2 'e' 'e' (sub tail) := by
  unfold gfcLine
  have hg : sub "gfc".toList = "gfc".toList := by decide +kernel
  rw [sub_append _ _ (break_blanks _ _), hg, sub_blanks, sub_append _ _ (break_blanks _ _),
    sub_digits _ (dec_digits n), sub_blanks, sub_append _ _ (break_blanks _ _), sub_digits _ (dec_digits k),
    sub_blanks]
  have e1 : ∀ s, m1 ++ l1 :: (x1 ++ s) = (m1 ++ l1 :: x1) ++ s := by intro s; simp
  have e2 : ∀ s, m2 ++ l2 :: (x2 ++ s) = (m2 ++ l2 :: x2) ++ s := by intro s; simp
  rw [e1, sub_append _ _ (break_blanks _ _), sub_number m1 x1 l1 hm1 hl1 hx1, sub_blanks, e2,
    sub_append _ _ ht, sub_number m2 x2 l2 hm2 hl2 hx2]
  simp

/-- Stripping a text that begins and ends with characters that are not blank, with blanks before it. -/
theorem strip_body (j : Nat) (a : Char) (m : List Char) (z : Char) (ha : isSpace a = false)
    (hz : isSpace z = false) (s : List Char) :
    ∃ s', strip (List.replicate j ' ' ++ (a :: (m ++ [z]) ++ s)) = a :: (m ++ [z]) ++ s' ∧ s' <+: s := by
  unfold strip
  rw [List.dropWhile_append_of_pos (by
    intro x hx
    rw [(List.mem_replicate.mp hx).2]
    decide)]
  rw [List.cons_append, List.dropWhile_cons_of_neg (by simp [ha]), ← List.cons_append, List.reverse_append]
  rw [List.dropWhile_append]
  split
  · refine ⟨[], ?_, List.nil_prefix⟩
    rw [List.reverse_cons, List.reverse_append, List.reverse_singleton, List.singleton_append, List.cons_append,
      List.dropWhile_cons_of_neg (by simp [hz])]
    simp
  · refine ⟨(s.reverse.dropWhile isSpace).reverse, ?_, ?_⟩
    · rw [List.reverse_append, List.reverse_reverse]
    · have := List.dropWhile_suffix (l := s.reverse) isSpace
      rw [← List.reverse_prefix, List.reverse_reverse] at this
      exact this

theorem break_prefix {s' s : List Char} (h : s' <+: s) (hs : Break s) : Break s' := by
  obtain ⟨t, rfl⟩ := h
  intro c hc
  refine hs c ?_
  cases s' with
  | nil => simp at hc
  | cons a s' => exact hc

theorem strip_gfcLine (j k1 k2 k3 k4 n k : Nat) (m1 x1 m2 x2 : List Char) (l1 l2 : Char) (tail : List Char)
    (hx2 : Expo x2) : ∃ tail', strip (List.replicate j ' ' ++ gfcLine k1 k2 k3 k4 n k m1 x1 m2 x2 l1 l2 tail) =
      gfcLine k1 k2 k3 k4 n k m1 x1 m2 x2 l1 l2 tail' ∧ tail' <+: tail := by
  obtain ⟨sg, e, rfl, -, he⟩ := hx2
  obtain ⟨e', z, rfl⟩ : ∃ e' z, e = e' ++ [z] := ⟨e.dropLast, e.getLast he.1, (List.dropLast_append_getLast he.1).symm⟩
  have hz : isSpace z = false := solid_digits he.2 z (by simp)
  have e1 : ∀ t, gfcLine k1 k2 k3 k4 n k m1 x1 m2 (sg ++ (e' ++ [z])) l1 l2 t = 'g' :: (("fc".toList ++
      (List.replicate (k1 + 1) ' ' ++ (dec n ++ (List.replicate (k2 + 1) ' ' ++ (dec k ++
        (List.replicate (k3 + 1) ' ' ++ (m1 ++ l1 :: (x1 ++ (List.replicate (k4 + 1) ' ' ++
          (m2 ++ l2 :: (sg ++ e'))))))))))) ++ [z]) ++ t := by
    intro t
    have hg : "gfc".toList = 'g' :: "fc".toList := by decide
    unfold gfcLine
    rw [hg]
    simp only [List.cons_append, List.append_assoc, List.nil_append]
  obtain ⟨s', h1, h2⟩ := strip_body j 'g' ("fc".toList ++
      (List.replicate (k1 + 1) ' ' ++ (dec n ++ (List.replicate (k2 + 1) ' ' ++ (dec k ++
        (List.replicate (k3 + 1) ' ' ++ (m1 ++ l1 :: (x1 ++ (List.replicate (k4 + 1) ' ' ++
          (m2 ++ l2 :: (sg ++ e')))))))))) ) z (by decide) hz tail
  exact ⟨s', by rw [e1, e1, h1], h2⟩

theorem strtol_dec (j n : Nat) (hn : n < 2 ^ 31) (s : List Char) (hs : Break s) :
    strtol (List.replicate j ' ' ++ (dec n ++ s)) = some ⟨n, s, false⟩ := by
  obtain ⟨c, t, hc⟩ : ∃ c t, dec n = c :: t := by
    cases h : dec n with
    | nil => exact absurd h (dec_ne n)
    | cons c t => exact ⟨c, t, rfl⟩
  have hcd : isDigit c = true := dec_digits n c (by rw [hc]; exact List.mem_cons_self)
  have hcs : isSpace c = false := solid_digits (dec_digits n) c (by rw [hc]; exact List.mem_cons_self)
  have hdrop : (List.replicate j ' ' ++ (dec n ++ s)).dropWhile isSpace = dec n ++ s := by
    rw [List.dropWhile_append_of_pos (by
      intro x hx
      rw [(List.mem_replicate.mp hx).2]
      decide), hc, List.cons_append, List.dropWhile_cons_of_neg (by simp [hcs])]
  have hsign : takeSign (dec n ++ s) = (false, dec n ++ s) := by
    have := digit_not_sign hcd
    rw [hc, List.cons_append]
    unfold takeSign
    split
    · rename_i h
      rw [List.cons.injEq] at h
      exact absurd h.1 this.2.1
    · rename_i h
      rw [List.cons.injEq] at h
      exact absurd h.1 this.1
    · rfl
  have hscan := dec_scan n s 0 0
  have hstop : ∀ a b, scanDigits s a b = (a, b, s) := by
    intro a b
    cases s with
    | nil => rfl
    | cons y s =>
      rw [scanDigits, if_neg]
      rw [(space_not_digit (hs y rfl)).1]
      simp
  rw [hstop, Nat.mul_zero, Nat.zero_add, Nat.zero_add] at hscan
  unfold strtol
  rw [hdrop, hsign]
  simp only
  rw [hscan]
  simp only
  have hlen : (dec n).length ≠ 0 := by
    rw [hc]
    simp
  rw [if_neg hlen]
  simp only [Bool.false_eq_true, if_false]
  rw [if_neg (by unfold longMax; omega), if_neg (by unfold longMax; omega)]

theorem toInt32_small (n : Nat) (hn : n < 2 ^ 31) : toInt32 (n : Int) = n := by
  unfold toInt32
  rw [Int.bmod_def]
  have : ((n : Int) % ((2 ^ 32 : Nat) : Int)) = n := by
    rw [Int.emod_eq_of_lt] <;> omega
  rw [this]
  rw [if_pos]
  omega

theorem noNul_gfcLine (k1 k2 k3 k4 n k : Nat) (m1 x1 m2 x2 : List Char) (l1 l2 : Char) (tail : List Char)
    (hm1 : Mant m1) (hx1 : Expo x1) (hm2 : Mant m2) (hx2 : Expo x2) (hl1 : l1 ≠ '\x00') (hl2 : l2 ≠ '\x00') :
    (gfcLine k1 k2 k3 k4 n k m1 x1 m2 x2 l1 l2 tail).takeWhile (· != '\x00') =
      gfcLine k1 k2 k3 k4 n k m1 x1 m2 x2 l1 l2 (tail.takeWhile (· != '\x00')) := by
  have hdig : ∀ {a : List Char}, (∀ c ∈ a, isDigit c = true) → ∀ c ∈ a, (c != '\x00') = true := by
    intro a h c hc
    have := h c hc
    rw [bne_iff_ne]
    rintro rfl
    revert this
    decide
  have hsg : ∀ {a : List Char}, Sign a → ∀ c ∈ a, (c != '\x00') = true := by
    rintro a (rfl | rfl | rfl) c hc
    · simp at hc
    · rw [List.mem_singleton] at hc
      rw [hc]
      decide
    · rw [List.mem_singleton] at hc
      rw [hc]
      decide
  have hM : ∀ {m : List Char}, Mant m → ∀ c ∈ m, (c != '\x00') = true := by
    rintro m ⟨sg, a, b, rfl, h1, h2, h3⟩ c hc
    simp only [List.mem_append, List.mem_cons] at hc
    rcases hc with hc | hc | rfl | hc
    · exact hsg h1 c hc
    · exact hdig h2 c hc
    · decide
    · exact hdig h3.2 c hc
  have hX : ∀ {m : List Char}, Expo m → ∀ c ∈ m, (c != '\x00') = true := by
    rintro m ⟨sg, a, rfl, h1, h2⟩ c hc
    rcases List.mem_append.mp hc with hc | hc
    · exact hsg h1 c hc
    · exact hdig h2.2 c hc
  have hB : ∀ j, ∀ c ∈ List.replicate (j + 1) ' ', (c != '\x00') = true := by
    intro j c hc
    rw [(List.mem_replicate.mp hc).2]
    decide
  unfold gfcLine
  rw [List.takeWhile_append_of_pos (by decide), List.takeWhile_append_of_pos (hB _),
    List.takeWhile_append_of_pos (hdig (dec_digits n)), List.takeWhile_append_of_pos (hB _),
    List.takeWhile_append_of_pos (hdig (dec_digits k)), List.takeWhile_append_of_pos (hB _),
    List.takeWhile_append_of_pos (hM hm1), List.takeWhile_cons_of_pos (by simpa using hl1),
    List.takeWhile_append_of_pos (hX hx1), List.takeWhile_append_of_pos (hB _),
    List.takeWhile_append_of_pos (hM hm2), List.takeWhile_cons_of_pos (by simpa using hl2),
    List.takeWhile_append_of_pos (hX hx2)]

/-- Degree and order are read, then the two numbers. -/
theorem classify_gfcLine (strtod : Strtod) (k1 k2 k3 k4 n k : Nat) (m1 x1 m2 x2 : List Char) (l1 l2 : Char)
    (tail : List Char) (hm1 : Mant m1) (hx1 : Expo x1) (hm2 : Mant m2) (hx2 : Expo x2) (hl1 : l1 ≠ '\x00')
    (hl2 : l2 ≠ '\x00') (hn : n < 2 ^ 31) (hk : k < 2 ^ 31) :
    classify strtod (gfcLine k1 k2 k3 k4 n k m1 x1 m2 x2 l1 l2 tail) = .coeff n k (twoDoubles strtod
      (List.replicate (k3 + 1) ' ' ++ (m1 ++ l1 :: (x1 ++ (List.replicate (k4 + 1) ' ' ++
        (m2 ++ l2 :: (x2 ++ tail.takeWhile (· != '\x00')))))))) := by
  unfold classify
  rw [noNul_gfcLine k1 k2 k3 k4 n k m1 x1 m2 x2 l1 l2 tail hm1 hx1 hm2 hx2 hl1 hl2]
  simp only
  have e : gfcLine k1 k2 k3 k4 n k m1 x1 m2 x2 l1 l2 (tail.takeWhile (· != '\x00')) =
      'g' :: 'f' :: 'c' :: ' ' :: (List.replicate k1 ' ' ++ (dec n ++ (List.replicate (k2 + 1) ' ' ++ (dec k ++
    (List.replicate (k3 + 1) ' ' ++ (m1 ++ l1 :: (x1 ++ (List.replicate (k4 + 1) ' ' ++
      (m2 ++ l2 :: (x2 ++ tail.takeWhile (· != '\x00'))))))))))) := by
    unfold gfcLine
    have hg : "gfc".toList = ['g', 'f', 'c'] := by decide
    rw [hg, List.replicate_succ (n := k1)]
    rfl
  rw [e]
  have hc : ∀ t, strncmpEq 4 "gfc ".toList ('g' :: 'f' :: 'c' :: ' ' :: t) = true := by
    intro t
    have hg : "gfc ".toList = ['g', 'f', 'c', ' '] := by decide
    rw [hg]
    rfl
  rw [if_pos (hc _)]
  have hd : ∀ t, ('g' :: 'f' :: 'c' :: ' ' :: t).drop 4 = t := fun t => rfl
  rw [hd, strtol_dec k1 n hn _ (break_blanks _ _)]
  simp only
  rw [strtol_dec (k2 + 1) k hk _ (break_blanks _ _)]
  simp only [toInt32_small n hn, toInt32_small k hk]

theorem takeWhile_break {s : List Char} (h : Break s) : Break (s.takeWhile (· != '\x00')) := by
  intro c hc
  cases s with
  | nil => simp at hc
  | cons a s =>
    have ha := h a rfl
    have : (a != '\x00') = true := by
      rw [bne_iff_ne]
      rintro rfl
      revert ha
      decide
    rw [List.takeWhile_cons_of_pos (p := (· != '\x00')) this] at hc
    have : a = c := by simpa using hc
    rw [← this]
    exact ha

/-- C130, coefficients: the reader gets from a converted line degree, order and the two numbers written there,
with blanks before it and further columns behind. -/
theorem coefficients_read (strtod : Strtod) (val : List Char → List Char → ℚ) (hr : ReadsC strtod val)
    (j k1 k2 k3 k4 n k : Nat) (m1 x1 m2 x2 : List Char) (l1 l2 : Char) (tail : List Char)
    (hm1 : Mant m1) (hx1 : Expo x1) (hm2 : Mant m2) (hx2 : Expo x2) (hl1 : Letter l1) (hl2 : Letter l2)
    (ht : Break tail) (hn : n < 2 ^ 31) (hk : k < 2 ^ 31) :
    classify strtod (strip (sub (List.replicate j ' ' ++ gfcLine k1 k2 k3 k4 n k m1 x1 m2 x2 l1 l2 tail))) =
      .coeff n k (some (val m1 x1, val m2 x2)) := by
  have hb : Break (sub tail) := by
    cases tail with
    | nil => exact ht
    | cons y u =>
      rw [sub_space y u (ht y rfl)]
      intro c hc
      have : y = c := by simpa using hc
      rw [← this]
      exact ht y rfl
  rw [sub_blanks, sub_gfcLine k1 k2 k3 k4 n k m1 x1 m2 x2 l1 l2 tail hm1 hx1 hm2 hx2 hl1 hl2 ht]
  obtain ⟨tail', h1, h2⟩ := strip_gfcLine j k1 k2 k3 k4 n k m1 x1 m2 x2 'e' 'e' (sub tail) hx2
  rw [h1, classify_gfcLine strtod k1 k2 k3 k4 n k m1 x1 m2 x2 'e' 'e' tail' hm1 hx1 hm2 hx2 (by decide)
    (by decide) hn hk]
  unfold twoDoubles
  rw [hr m1 x1 _ _ hm1 hx1 (break_blanks _ _)]
  simp only
  rw [hr m2 x2 _ _ hm2 hx2 (takeWhile_break (break_prefix h2 hb))]

/-- Without the conversion the same line is refused. -/
theorem unconverted_refused (strtod : Strtod) (base : List Char → ℚ) (hs : StopsAt strtod base)
    (k1 k2 k3 k4 n k : Nat) (m1 x1 m2 x2 : List Char) (l1 l2 : Char) (tail : List Char)
    (hm1 : Mant m1) (hx1 : Expo x1) (hm2 : Mant m2) (hx2 : Expo x2) (hl1 : Letter l1) (hl2 : Letter l2)
    (hn : n < 2 ^ 31) (hk : k < 2 ^ 31) :
    classify strtod (gfcLine k1 k2 k3 k4 n k m1 x1 m2 x2 l1 l2 tail) = .coeff n k none := by
  have hl : ∀ l, Letter l → l ≠ '\x00' := by
    rintro l (rfl | rfl) <;> decide
  rw [classify_gfcLine strtod k1 k2 k3 k4 n k m1 x1 m2 x2 l1 l2 tail hm1 hx1 hm2 hx2 (hl l1 hl1) (hl l2 hl2)
    hn hk]
  unfold twoDoubles
  rw [hs.1 m1 _ l1 _ hm1 hl1]
  simp only
  rw [hs.2 l1 _ hl1]

/-- The header is not converted: a constant in Fortran notation is copied as it stands, and the reader takes
its mantissa alone, without a message. -/
theorem constant_counterexample (strtod : Strtod) (base : List Char → ℚ) (hs : StopsAt strtod base) (j : Nat)
    (m x : List Char) (l : Char) (hm : Mant m) (hl : Letter l) (h : Hdr) (hne : base m ≠ 0) :
    onLine strtod ("earth_gravity_constant".toList ++ (List.replicate (j + 1) ' ' ++ (m ++ l :: x))) Key.all h 0 =
      .ok { h with gm := base m } 0 := by
  have hlit : "earth_gravity_constant".toList = ['e', 'a', 'r', 't', 'h', '_', 'g', 'r', 'a', 'v', 'i', 't', 'y', '_',
      'c', 'o', 'n', 's', 't', 'a', 'n', 't'] := by decide +kernel
  have hother : ∀ k : Key, k ≠ .gm → ∀ t, strncmpEq k.name.length ('e' :: 'a' :: t) k.name = false := by
    intro k hk t
    cases k
    · rfl
    · rfl
    · exact absurd rfl hk
    all_goals rfl
  have harg : Icgem.argument .gm ("earth_gravity_constant".toList ++ (List.replicate (j + 1) ' ' ++ (m ++ l :: x))) =
      some (m ++ l :: x) := by
    unfold Icgem.argument
    have hlen : (Key.gm.name).length = 22 := by decide +kernel
    have hlen' : ("earth_gravity_constant".toList).length = 22 := by decide +kernel
    rw [hlen, if_neg]
    · have e : "earth_gravity_constant".toList ++ (List.replicate (j + 1) ' ' ++ (m ++ l :: x)) =
          ("earth_gravity_constant".toList ++ [' ']) ++ (List.replicate j ' ' ++ (m ++ l :: x)) := by
        rw [List.replicate_succ]
        simp
      have hl23 : ("earth_gravity_constant".toList ++ [' ']).length = 22 + 1 := by decide +kernel
      rw [e, ← hl23, List.drop_left, List.dropWhile_append_of_pos (by
        intro y hy
        rw [(List.mem_replicate.mp hy).2]
        decide)]
      obtain ⟨sg, a, b, rfl, h1, h2, h3⟩ := hm
      have hnb : ∀ c t, sg ++ (a ++ '.' :: b) ++ l :: x = c :: t → c ≠ ' ' := by
        rintro c t e rfl
        rcases h1 with rfl | rfl | rfl
        · cases a with
          | nil =>
            rw [List.nil_append, List.nil_append, List.cons_append, List.cons.injEq] at e
            exact absurd e.1 (by decide)
          | cons y a =>
            rw [List.nil_append, List.cons_append, List.cons_append, List.cons.injEq] at e
            have := h2 y List.mem_cons_self
            rw [e.1] at this
            revert this
            decide
        · rw [List.cons_append, List.cons_append, List.cons.injEq] at e
          exact absurd e.1 (by decide)
        · rw [List.cons_append, List.cons_append, List.cons.injEq] at e
          exact absurd e.1 (by decide)
      cases e2 : sg ++ (a ++ '.' :: b) ++ l :: x with
      | nil => simp at e2
      | cons c t =>
        rw [List.dropWhile_cons_of_neg]
        have := hnb c t e2
        simpa using this
    · rw [List.length_append, hlen']
      simp
      omega
  have hgm : strncmpEq Key.gm.name.length ("earth_gravity_constant".toList ++ (List.replicate (j + 1) ' ' ++
      (m ++ l :: x))) Key.gm.name = true := by
    have hlen : (Key.gm.name).length = 22 := by decide +kernel
    have hname : Key.gm.name = "earth_gravity_constant".toList := rfl
    rw [hlen, hname, hlit]
    rfl
  have hkey : Icgem.onKey strtod h 0 .gm (m ++ l :: x) = .ok { h with gm := base m } 0 := by
    unfold Icgem.onKey
    have := hs.1 m 0 l x hm hl
    rw [List.replicate_zero, List.nil_append] at this
    simp only [this, if_neg hne]
  have hpre : ∃ t, "earth_gravity_constant".toList ++ (List.replicate (j + 1) ' ' ++ (m ++ l :: x)) =
      'e' :: 'a' :: t := by
    rw [hlit]
    exact ⟨_, rfl⟩
  obtain ⟨t, ht⟩ := hpre
  rw [ht] at harg hgm ⊢
  unfold Key.all
  rw [onLine, hother .productType (by decide), if_neg Bool.false_ne_true,
    onLine, hother .modelname (by decide), if_neg Bool.false_ne_true, onLine, if_pos hgm, harg]
  simp only [hkey]
  rw [onLine, hother .radius (by decide), if_neg Bool.false_ne_true,
    onLine, hother .maxDegree (by decide), if_neg Bool.false_ne_true,
    onLine, hother .errors (by decide), if_neg Bool.false_ne_true,
    onLine, hother .tideSystem (by decide), if_neg Bool.false_ne_true,
    onLine, hother .norm (by decide), if_neg Bool.false_ne_true, onLine]

/-! ### Examples

A `strtod` for numbers with decimals shows that the assumptions can be met. -/

/-- The value of the digits. -/
def natOf (a : List Char) : Nat := a.foldl (fun n c => 10 * n + (c.toNat - 48)) 0

/-- The value of a mantissa. -/
def mantVal (m : List Char) : ℚ :=
  (if (optSign m).1 = ['-'] then -1 else 1) *
    (natOf ((optSign m).2.takeWhile isDigit ++ ((optSign m).2.dropWhile isDigit).tail) : ℚ) /
      10 ^ ((optSign m).2.dropWhile isDigit).tail.length

/-- The value of a mantissa with an exponent. -/
def numVal (m x : List Char) : ℚ :=
  mantVal m * if (optSign x).1 = ['-'] then (1 / 10) ^ natOf (optSign x).2 else 10 ^ natOf (optSign x).2

/-- An exponent in C notation, and what follows. -/
def cExpo : List Char → List Char × List Char
  | [] => ([], [])
  | c :: s =>
    if c = 'e' ∧ (optSign s).2.takeWhile isDigit ≠ [] then
      ((optSign s).1 ++ (optSign s).2.takeWhile isDigit, (optSign s).2.dropWhile isDigit)
    else ([], c :: s)

/-- Decimals, then an exponent; `pre` is the text before the point. -/
def cFrac (pre : List Char) : List Char → Option (ℚ × List Char)
  | [] => none
  | c :: s =>
    if c = '.' ∧ s.takeWhile isDigit ≠ [] then
      some (numVal (pre ++ '.' :: s.takeWhile isDigit) (cExpo (s.dropWhile isDigit)).1,
        (cExpo (s.dropWhile isDigit)).2)
    else none

/-- A `strtod` for numbers with decimals. -/
def someStrtod (s : List Char) : Option (ℚ × List Char) :=
  cFrac ((optSign (s.dropWhile isSpace)).1 ++ (optSign (s.dropWhile isSpace)).2.takeWhile isDigit)
    ((optSign (s.dropWhile isSpace)).2.dropWhile isDigit)

theorem someStrtod_mant (k : Nat) (m t : List Char) (hm : Mant m) (ht : NoDigit t) :
    someStrtod (List.replicate k ' ' ++ (m ++ t)) = some (numVal m (cExpo t).1, (cExpo t).2) := by
  obtain ⟨sg, a, b, rfl, h1, h2, h3⟩ := hm
  have hhead : ∀ c, (a ++ '.' :: (b ++ t)).head? = some c → isDigit c = true ∨ c = '.' := by
    intro c hc
    cases a with
    | nil => right; simpa using hc.symm
    | cons y a =>
      left
      have : y = c := by simpa using hc
      rw [← this]
      exact h2 y List.mem_cons_self
  have hsign : ∀ c, (a ++ '.' :: (b ++ t)).head? = some c → c ≠ '+' ∧ c ≠ '-' := by
    intro c hc
    rcases hhead c hc with h | rfl
    · exact ⟨(digit_not_sign h).1, (digit_not_sign h).2.1⟩
    · decide
  have e : sg ++ (a ++ '.' :: b) ++ t = sg ++ (a ++ '.' :: (b ++ t)) := by simp
  have hdrop : (List.replicate k ' ' ++ (sg ++ (a ++ '.' :: b) ++ t)).dropWhile isSpace =
      sg ++ (a ++ '.' :: (b ++ t)) := by
    rw [List.dropWhile_append_of_pos (by
      intro y hy
      rw [(List.mem_replicate.mp hy).2]
      decide), e]
    have hns : ∀ c u, sg ++ (a ++ '.' :: (b ++ t)) = c :: u → isSpace c = false := by
      intro c u hc
      have hsp : ∀ {c}, isDigit c = true → isSpace c = false := by
        intro c h
        cases hs : isSpace c with
        | false => rfl
        | true =>
          rw [(space_not_digit hs).1] at h
          simp at h
      rcases h1 with rfl | rfl | rfl
      · rw [List.nil_append] at hc
        rcases hhead c (by rw [hc]; rfl) with h | rfl
        · exact hsp h
        · decide
      · rw [List.cons_append, List.cons.injEq] at hc
        rw [← hc.1]
        decide
      · rw [List.cons_append, List.cons.injEq] at hc
        rw [← hc.1]
        decide
    cases e2 : sg ++ (a ++ '.' :: (b ++ t)) with
    | nil => simp at e2
    | cons c u => rw [List.dropWhile_cons_of_neg (by simp [hns c u e2])]
  unfold someStrtod
  rw [hdrop, optSign_eq sg _ h1 hsign]
  simp only
  have hp : NoDigit ('.' :: (b ++ t)) := by
    intro c hc
    have : '.' = c := by simpa using hc
    rw [← this]
    decide
  rw [(takeDrop_digits a _ h2 hp).1, (takeDrop_digits a _ h2 hp).2, cFrac, (takeDrop_digits b t h3.2 ht).1,
    (takeDrop_digits b t h3.2 ht).2, if_pos ⟨rfl, h3.1⟩, List.append_assoc]

theorem someStrtod_reads : ReadsC someStrtod numVal := by
  intro m x k s hm hx hs
  have hnd : ∀ s, NoDigit ('e' :: s) := by
    intro s c hc
    have : 'e' = c := by simpa using hc
    rw [← this]
    decide
  rw [someStrtod_mant k m _ hm (hnd _)]
  obtain ⟨sg, e, rfl, h1, h2⟩ := hx
  obtain ⟨y, e', rfl⟩ : ∃ y e', e = y :: e' := by
    cases e with
    | nil => exact absurd rfl h2.1
    | cons y e' => exact ⟨y, e', rfl⟩
  have hy := digit_not_sign (h2.2 y List.mem_cons_self)
  have ho : optSign (sg ++ (y :: e') ++ s) = (sg, y :: e' ++ s) := by
    rw [List.append_assoc]
    refine optSign_eq sg _ h1 ?_
    intro c hc
    have : y = c := by simpa using hc
    rw [← this]
    exact ⟨hy.1, hy.2.1⟩
  have hns : NoDigit s := fun c hc => (space_not_digit (hs c hc)).1
  have ht := takeDrop_digits (y :: e') s h2.2 hns
  rw [cExpo, ho]
  simp only
  rw [ht.1, ht.2, if_pos (by simp)]

theorem someStrtod_stops : StopsAt someStrtod (fun m => numVal m []) := by
  constructor
  · intro m k d s hm hd
    rw [someStrtod_mant k m (d :: s) hm (by
      intro c hc
      have : d = c := by simpa using hc
      rw [← this]
      rcases hd with rfl | rfl <;> decide), cExpo, if_neg]
    rcases hd with rfl | rfl <;> simp
  · rintro d s (rfl | rfl) <;> rfl

/-- A number and its value. -/
example : numVal "-48.416537".toList "-05".toList = -48416537 / 100000000000 := by
  unfold numVal mantVal
  rw [show natOf ((optSign "-48.416537".toList).2.takeWhile isDigit ++
      ((optSign "-48.416537".toList).2.dropWhile isDigit).tail) = 48416537 by decide +kernel,
    show ((optSign "-48.416537".toList).2.dropWhile isDigit).tail.length = 6 by decide +kernel,
    if_pos (by decide +kernel), if_pos (by decide +kernel),
    show natOf (optSign "-05".toList).2 = 5 by decide +kernel]
  norm_num

/-- A short file: the constant in the header is left as it is, the coefficients are converted. -/
example : convert 5 ["product_type gravity_field\n".toList, "earth_gravity_constant 0.3986004415D+15\n".toList,
      "end_of_head ======\n".toList, "gfc  2  0 -0.484165D-03 .0d0\n".toList, "gfc 2 1 12.5D+1 7D0 \n".toList] =
    some ["product_type gravity_field".toList, "earth_gravity_constant 0.3986004415D+15".toList,
      "end_of_head ======".toList, "gfc  2  0 -0.484165e-03 .0e0".toList, "gfc 2 1 12.5e+1 7D0".toList] := by
  decide +kernel

theorem mant_witness : Mant "-0.484165".toList ∧ Expo "-03".toList ∧ Mant ".0".toList ∧ Expo "0".toList :=
  ⟨⟨['-'], ['0'], "484165".toList, by decide, .inr (.inr rfl), by decide, by decide, by decide⟩,
    ⟨['-'], "03".toList, by decide, .inr (.inr rfl), by decide, by decide⟩,
    ⟨[], [], ['0'], by decide, .inl rfl, by decide, by decide, by decide⟩,
    ⟨[], ['0'], by decide, .inl rfl, by decide, by decide⟩⟩

/-- A line of coefficients read after the conversion, and refused before. -/
example : classify someStrtod (strip (sub (List.replicate 1 ' ' ++ gfcLine 1 1 0 0 2 0 "-0.484165".toList "-03".toList
      ".0".toList "0".toList 'D' 'd' ['\n']))) =
    .coeff 2 0 (some (numVal "-0.484165".toList "-03".toList, numVal ".0".toList "0".toList)) ∧
    classify someStrtod (gfcLine 1 1 0 0 2 0 "-0.484165".toList "-03".toList ".0".toList "0".toList 'D' 'd' ['\n']) =
      .coeff 2 0 none :=
  ⟨coefficients_read someStrtod numVal someStrtod_reads 1 1 1 0 0 2 0 _ _ _ _ 'D' 'd' ['\n'] mant_witness.1
      mant_witness.2.1 mant_witness.2.2.1 mant_witness.2.2.2 (.inl rfl) (.inr rfl)
      (by intro c hc; have : '\n' = c := by simpa using hc
          rw [← this]; decide) (by decide) (by decide),
    unconverted_refused someStrtod _ someStrtod_stops 1 1 0 0 2 0 _ _ _ _ 'D' 'd' ['\n'] mant_witness.1
      mant_witness.2.1 mant_witness.2.2.1 mant_witness.2.2.2 (.inl rfl) (.inr rfl) (by decide) (by decide)⟩

/-- The constant of the header read as 0.3986004415, a factor of 10^15 too small. -/
example (h : Hdr) : onLine someStrtod ("earth_gravity_constant".toList ++ (List.replicate 1 ' ' ++
      ("0.3986004415".toList ++ 'D' :: "+15".toList))) Key.all h 0 =
    .ok { h with gm := 3986004415 / 10000000000 } 0 := by
  have hv : numVal "0.3986004415".toList [] = 3986004415 / 10000000000 := by
    unfold numVal mantVal
    rw [show natOf ((optSign "0.3986004415".toList).2.takeWhile isDigit ++
        ((optSign "0.3986004415".toList).2.dropWhile isDigit).tail) = 3986004415 by decide +kernel,
      show ((optSign "0.3986004415".toList).2.dropWhile isDigit).tail.length = 10 by decide +kernel,
      if_neg (by decide +kernel), if_neg (by decide +kernel), show natOf (optSign []).2 = 0 by decide +kernel]
    norm_num
  rw [← hv]
  exact constant_counterexample someStrtod _ someStrtod_stops 0 _ _ 'D'
    ⟨[], ['0'], "3986004415".toList, by decide, .inl rfl, by decide, by decide, by decide⟩ (.inl rfl) h
    (by rw [hv]; norm_num)

/-- A number without decimals stays in Fortran notation. -/
example : sub "7.D0".toList = "7.D0".toList :=
  whole_counterexample ['7'] ['0'] 'D' ⟨by decide, by decide⟩ (.inl rfl) ⟨[], ['0'], rfl, .inl rfl, by decide, by decide⟩
    true

/-- A file without the end of a header. -/
example : ∀ l ∈ ["gfc 2 0 1.0D0 0.0D0\n".toList], ¬ IsEnd l := by
  intro l hl
  rw [List.mem_singleton] at hl
  rw [hl, ← isEnd_iff]
  decide +kernel

end Verif.Script.Gfc
