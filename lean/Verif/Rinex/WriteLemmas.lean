import Verif.Rinex.WriteSpec
import Verif.Rinex.DataProps
import Verif.Rinex.HeaderMeaning
import Verif.SystemInfo.StationProps
import Mathlib.Tactic.FieldSimp
import Mathlib.Tactic.Ring
import Mathlib.Tactic.Linarith
import Mathlib.Tactic.NormNum
import Mathlib.Data.Rat.Cast.Order

/-! Numbers, columns and text fields of written lines (C147). -/
namespace Verif.Rinex.Write
open Verif.Text Verif.SystemInfo

/-! ### Numbers -/

theorem dig_code (n : Nat) (h : n < 10) : (dig n).toNat = 48 + n := by
  have : ∀ n < 10, (dig n).toNat = 48 + n := by decide
  exact this n h

theorem dig_digit (n : Nat) (h : n < 10) : DigitCode (dig n).toNat := by
  rw [dig_code n h]; unfold DigitCode; omega

theorem decimal_snoc (a : List Char) (c : Char) : decimal (a ++ [c]) = 10 * decimal a + (c.toNat - 48) := by
  simp [decimal, List.foldl_append]

theorem natTextF_spec (f : Nat) : ∀ n ≤ f, decimal (natTextF f n) = n ∧ (∀ c ∈ natTextF f n, DigitCode c.toNat) ∧
    natTextF f n ≠ [] := by
  induction f with
  | zero =>
    intro n hn
    have : n = 0 := by omega
    subst this
    exact ⟨by decide, by intro c hc; simp [natTextF] at hc; subst hc; exact dig_digit 0 (by omega), by simp [natTextF]⟩
  | succ f ih =>
    intro n hn
    rw [natTextF]
    have hm : n % 10 < 10 := by omega
    split
    · refine ⟨?_, ?_, by simp⟩
      · have := decimal_snoc [] (dig (n % 10))
        rw [List.nil_append, dig_code _ hm] at this
        rw [this, show decimal [] = 0 from rfl]; omega
      · intro c hc
        simp at hc; subst hc; exact dig_digit _ hm
    · obtain ⟨h1, h2, -⟩ := ih (n / 10) (by omega)
      refine ⟨?_, ?_, by simp⟩
      · rw [decimal_snoc, h1, dig_code _ hm]; omega
      · intro c hc
        rcases List.mem_append.1 hc with hc | hc
        · exact h2 c hc
        · simp at hc; subst hc; exact dig_digit _ hm

theorem natText_spec (n : Nat) : decimal (natText n) = n ∧ (∀ c ∈ natText n, DigitCode c.toNat) ∧ natText n ≠ [] :=
  natTextF_spec n n le_rfl

theorem natTextF_length (f : Nat) : ∀ n k, n < 10 ^ (k + 1) → (natTextF f n).length ≤ k + 1 := by
  induction f with
  | zero => intro n k _; simp [natTextF]
  | succ f ih =>
    intro n k h
    rw [natTextF]
    split
    · simp
    · cases k with
      | zero => simp at h; omega
      | succ k =>
        have := ih (n / 10) k (by rw [Nat.div_lt_iff_lt_mul (by omega)]; rw [pow_succ] at h; exact h)
        simp; omega

theorem natText_length (n k : Nat) (h : n < 10 ^ (k + 1)) : (natText n).length ≤ k + 1 := natTextF_length n n k h

theorem natText_one (n : Nat) (h : n < 10) : (natText n).length = 1 := by
  have h1 := natText_length n 0 (by simpa using h)
  have h2 := List.length_pos_of_ne_nil (natText_spec n).2.2
  omega

theorem fracText_spec (d : Nat) : ∀ n < 10 ^ d, decimal (fracText d n) = n ∧ (∀ c ∈ fracText d n, DigitCode c.toNat) ∧
    (fracText d n).length = d := by
  induction d with
  | zero => intro n hn; simp at hn; subst hn; exact ⟨rfl, by simp [fracText], rfl⟩
  | succ d ih =>
    intro n hn
    have hm : n % 10 < 10 := by omega
    obtain ⟨h1, h2, h3⟩ := ih (n / 10) (by rw [Nat.div_lt_iff_lt_mul (by omega)]; rw [pow_succ] at hn; exact hn)
    rw [fracText]
    refine ⟨?_, ?_, by simp [h3]⟩
    · rw [decimal_snoc, h1, dig_code _ hm]; omega
    · intro c hc
      rcases List.mem_append.1 hc with hc | hc
      · exact h2 c hc
      · simp at hc; subst hc; exact dig_digit _ hm

theorem signText_sign (z : Int) : ∃ s, Sign (signText z) s ∧ s * (z.natAbs : Int) = z := by
  unfold signText
  split
  · exact ⟨-1, .minus, by omega⟩
  · exact ⟨1, .none, by omega⟩

/-- A written number is that number. -/
theorem fixText_decimal (k d : Nat) (z : Int) (r : List Char) (hr : r = [] ∨ r.head? = some ' ') :
    Decimal (blanks k ++ (fixText d z ++ r)) ((z : Rat) / 10 ^ d) := by
  obtain ⟨s, hs, hz⟩ := signText_sign z
  obtain ⟨a1, a2, a3⟩ := natText_spec (z.natAbs / 10 ^ d)
  have hp : 0 < 10 ^ d := by positivity
  obtain ⟨b1, b2, b3⟩ := fracText_spec d (z.natAbs % 10 ^ d) (Nat.mod_lt _ hp)
  refine ⟨blanks k, signText z, s, natText (z.natAbs / 10 ^ d), fracText d (z.natAbs % 10 ^ d), r, ?_, ?_, hs, a3, a2, b2, hr, ?_⟩
  · simp [fixText]
  · intro c hc; simp [blanks] at hc; exact hc.2
  · rw [a1, b1, b3]
    have hq : ((z.natAbs / 10 ^ d : Nat) : Rat) * 10 ^ d + ((z.natAbs % 10 ^ d : Nat) : Rat) = (z.natAbs : Rat) := by
      have := Nat.div_add_mod z.natAbs (10 ^ d)
      rw [mul_comm] at this
      exact_mod_cast this
    have hz' : (z : Rat) = s * (z.natAbs : Rat) := by
      have : ((s * (z.natAbs : Int) : Int) : Rat) = (z : Rat) := by rw [hz]
      rw [← this, Int.cast_mul, Int.cast_natCast]
    have hp' : (10 : Rat) ^ d ≠ 0 := by positivity
    rw [hz', ← hq]
    field_simp

/-- A written whole number is that number. -/
theorem intText_whole (k : Nat) (z : Int) (r : List Char) (hr : r = [] ∨ r.head? = some ' ') :
    Whole (blanks k ++ (intText z ++ r)) z r := by
  obtain ⟨s, hs, hz⟩ := signText_sign z
  obtain ⟨a1, a2, a3⟩ := natText_spec z.natAbs
  refine ⟨blanks k, signText z, s, natText z.natAbs, ?_, ?_, hs, a3, a2, ?_, ?_⟩
  · simp [intText]
  · intro c hc
    simp [blanks] at hc
    rw [hc.2]; left; rfl
  · intro c hc
    rcases hr with rfl | hr
    · simp at hc
    · rw [hr] at hc
      cases hc
      unfold DigitCode; decide
  · rw [a1, hz]

theorem natText_int (n : Nat) : intText (n : Int) = natText n := by
  simp [intText, signText]

theorem strtol_int (k : Nat) (z : Int) (r : List Char) (hr : r = [] ∨ r.head? = some ' ') (h1 : -2 ^ 31 ≤ z) (h2 : z < 2 ^ 31) :
    strtol (blanks k ++ (intText z ++ r)) = some ⟨z, r, false⟩ := by
  rw [strtol_whole _ z r (intText_whole k z r hr), if_neg (by omega), if_neg (by omega)]

/-! ### No NUL -/

theorem digits_nul (l : List Char) (h : ∀ c ∈ l, DigitCode c.toNat) : '\x00' ∉ l := by
  intro hm
  have := h _ hm
  revert this
  unfold DigitCode; decide

theorem natText_nul (n : Nat) : '\x00' ∉ natText n := digits_nul _ (natText_spec n).2.1

theorem signText_nul (z : Int) : '\x00' ∉ signText z := by
  unfold signText; split <;> decide

theorem intText_nul (z : Int) : '\x00' ∉ intText z := by
  unfold intText
  rw [List.mem_append, not_or]
  exact ⟨signText_nul z, natText_nul _⟩

theorem fixText_nul (d : Nat) (z : Int) : '\x00' ∉ fixText d z := by
  have hp : 0 < 10 ^ d := by positivity
  have := digits_nul _ (fracText_spec d (z.natAbs % 10 ^ d) (Nat.mod_lt _ hp)).2.1
  unfold fixText
  simp [signText_nul, natText_nul, this]

theorem blanks_nul (k : Nat) : '\x00' ∉ blanks k := by
  simp [blanks]

theorem padR_nul (n : Nat) (s : List Char) (h : '\x00' ∉ s) : '\x00' ∉ padR n s := by
  simp [padR, h]

theorem padL_nul (n : Nat) (s : List Char) (h : '\x00' ∉ s) : '\x00' ∉ padL n s := by
  simp [padL, h]

theorem code_nul (c : ObsCode) (h : CodeOk c) : '\x00' ∉ codeText c := by
  obtain ⟨t, f⟩ := c
  unfold CodeOk at h
  unfold codeText
  cases t <;> simp [hasFrequency, toChar] at h ⊢ <;> rcases h with rfl | rfl <;> decide

/-! ### Widths -/

theorem padR_length (n : Nat) (s : List Char) (h : s.length ≤ n) : (padR n s).length = n := by
  simp [padR]; omega

theorem padL_length (n : Nat) (s : List Char) (h : s.length ≤ n) : (padL n s).length = n := by
  simp [padL]; omega

theorem blanks_length (k : Nat) : (blanks k).length = k := by simp [blanks]

theorem codes_length (cs : List ObsCode) : ((cs.map codeText).flatten).length = 4 * cs.length := by
  induction cs with
  | nil => rfl
  | cons c cs ih => simp only [List.map_cons, List.flatten_cons, List.length_append, ih, codeText, List.length_cons, List.length_nil]; ring

theorem drop_flatten (ps : List (List Char)) (j n : Nat) (h : (ps.take j).flatten.length = n) :
    ps.flatten.drop n = (ps.drop j).flatten := by
  conv_lhs => rw [← List.take_append_drop j ps]
  rw [List.flatten_append, ← h, List.drop_left]

/-- The line from column `n` on, where field `j` begins. -/
theorem textOf_drop (ps : List (List Char)) (label : String) (j n : Nat) (hj : j ≤ ps.length) (h : (ps.take j).flatten.length = n) :
    (textOf ps label).drop n = (ps.drop j).flatten ++ (blanks (60 - ps.flatten.length) ++ label.toList) := by
  unfold textOf
  rw [drop_flatten _ j n (by rw [List.take_append_of_le_length hj]; exact h), List.drop_append_of_le_length hj]
  simp

theorem textOf_length (ps : List (List Char)) (label : String) (h : ps.flatten.length ≤ 60) (hl : label.toList.length = 20) :
    (textOf ps label).length = 80 := by
  unfold textOf
  rw [List.flatten_append, List.length_append]
  simp only [List.flatten_cons, List.flatten_nil, List.length_append, blanks_length, hl, List.length_nil]
  omega

theorem textOf_label (ps : List (List Char)) (label : String) (h : ps.flatten.length ≤ 60) :
    (textOf ps label).drop 60 = label.toList := by
  unfold textOf
  have hs : ps ++ [blanks (60 - ps.flatten.length), label.toList] = (ps ++ [blanks (60 - ps.flatten.length)]) ++ [label.toList] := by simp
  rw [hs, List.flatten_append]
  have hl : (ps ++ [blanks (60 - ps.flatten.length)]).flatten.length = 60 := by
    rw [List.flatten_append, List.length_append, List.flatten_singleton, blanks_length]
    omega
  generalize (ps ++ [blanks (60 - ps.flatten.length)]).flatten = q at hl
  rw [← hl, List.drop_left, List.flatten_singleton]

theorem textOf_nul (ps : List (List Char)) (label : String) (h : ∀ p ∈ ps, '\x00' ∉ p) (hl : '\x00' ∉ label.toList) :
    '\x00' ∉ textOf ps label := by
  unfold textOf
  simp only [List.flatten_append, List.mem_append, List.mem_flatten, not_or]
  refine ⟨?_, ?_⟩
  · rintro ⟨p, hp, hm⟩; exact h p hp hm
  · rintro ⟨p, hp, hm⟩
    simp at hp
    rcases hp with rfl | rfl
    · exact blanks_nul _ hm
    · exact hl hm

/-! ### Reading columns -/

theorem cstr_text (st T : List Char) (k : Nat) (hk : k ≤ T.length) (hn : '\x00' ∉ T) : cstr (fill st T) k = T.drop k := by
  rw [cstr_fill st T k hk]
  exact takeWhile_of_not_mem _ fun hm => hn (List.mem_of_mem_drop hm)

theorem at'_text (st T : List Char) (k : Nat) (c : Char) (r : List Char) (h : T.drop k = c :: r) : at' (fill st T) k = c := by
  have hk : k < T.length := by
    by_contra hh
    rw [List.drop_eq_nil_of_le (by omega)] at h
    simp at h
  rw [at'_line st T k hk]
  have := List.drop_eq_getElem_cons hk
  rw [h] at this
  exact (List.cons.inj this).1.symm

theorem countLengthReverse_text (b : Buf) (off : Nat) (t : List Char) (ht : t ≠ []) (hl : t.getLast? ≠ some ' ')
    (h1 : ∀ (i : Nat) (hi : i < t.length), at' b (off + i) = t[i]) (n : Nat) (hn : t.length ≤ n + 1)
    (h2 : ∀ i, t.length ≤ i → i ≤ n → at' b (off + i) = ' ') : countLengthReverse b off n = some t.length := by
  have hpos := List.length_pos_of_ne_nil ht
  have hlast : ∀ (k : Nat) (hk : k + 1 = t.length), at' b (off + k) ≠ ' ' := by
    intro k hk he
    rw [h1 k (by omega)] at he
    apply hl
    rw [List.getLast?_eq_getElem?, List.getElem?_eq_some_iff]
    refine ⟨by omega, ?_⟩
    rw [← he]
    congr 1
    omega
  induction n with
  | zero =>
    have h0 : 0 + 1 = t.length := by omega
    have := hlast 0 h0
    rw [Nat.add_zero] at this
    rw [countLengthReverse]
    simp [this, ← h0]
  | succ n ih =>
    rw [countLengthReverse]
    by_cases he : t.length = n + 2
    · have := hlast (n + 1) (by omega)
      rw [← Nat.add_assoc] at this
      simp [this, he]
    · have := h2 (n + 1) (by omega) le_rfl
      rw [← Nat.add_assoc] at this
      simp only [this, beq_self_eq_true, if_true]
      exact ih (by omega) (fun i h h' => h2 i h (by omega))

/-- A text field. -/
theorem textField_text (st T : List Char) (off m lim k : Nat) (err : Int) (t r : List Char) (ht : Text (lim - 1) t) (hlim : 0 < lim)
    (h : T.drop off = t ++ (blanks k ++ r)) (hk : t.length + k = m + 1) : textField (fill st T) off m lim err = .ok t := by
  have hg : ∀ i c, (t ++ (blanks k ++ r))[i]? = some c → at' (fill st T) (off + i) = c := by
    intro i c hi
    rw [← h, List.getElem?_drop] at hi
    have hlt : off + i < T.length := by
      by_contra hh
      rw [List.getElem?_eq_none (by omega)] at hi
      simp at hi
    rw [at'_line st T _ hlt]
    rw [List.getElem?_eq_getElem hlt] at hi
    exact Option.some.inj hi
  have hpos := List.length_pos_of_ne_nil ht.some
  have hc := countLengthReverse_text (fill st T) off t ht.some ht.last (fun i hi => hg i _ (by
      rw [List.getElem?_append_left hi, List.getElem?_eq_getElem hi])) m (by omega) (fun i h1 h2 => hg i _ (by
      rw [List.getElem?_append_right h1, List.getElem?_append_left (by rw [blanks_length]; omega)]
      rw [blanks, List.getElem?_replicate, if_pos (by omega)]))
  unfold textField
  rw [hc]
  have hm := ht.most
  simp only
  rw [if_neg (by omega)]
  congr 1
  have hlen : off + t.length ≤ T.length := by
    have := congrArg List.length h
    simp at this
    omega
  unfold fill
  rw [List.drop_append_of_le_length (by omega), h, List.append_assoc, List.take_append_of_le_length (by simp), List.take_length]

theorem trim_text (n : Nat) (t : List Char) (ht : Text n t) : trimKeepFirst (padR n t) = t := by
  obtain ⟨c, s, rfl⟩ := List.exists_cons_of_ne_nil ht.some
  have h := ht.last
  simp only [padR, List.cons_append, trimKeepFirst]
  congr 1
  rw [List.reverse_append, List.reverse_replicate]
  have hd : ∀ k, (List.replicate k ' ' ++ s.reverse).dropWhile (· == ' ') = s.reverse := by
    intro k
    induction k with
    | zero =>
      rw [List.replicate_zero, List.nil_append]
      rcases hs : s.reverse with _ | ⟨a, l⟩
      · rfl
      · have hs' : s = l.reverse ++ [a] := by
          have := congrArg List.reverse hs
          simpa using this
        have : a ≠ ' ' := by
          rintro rfl
          apply h
          rw [hs', ← List.cons_append, List.getLast?_append]; rfl
        simp [this]
    | succ k ih => rw [List.replicate_succ, List.cons_append, List.dropWhile_cons]; simpa using ih
  rw [hd, List.reverse_reverse]

end Verif.Rinex.Write
