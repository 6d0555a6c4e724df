import Verif.Text.Model

/-!
What `strtol` reads, said without following the scan: blanks, an optional sign, all the digits that
follow; the value is limited to the 64 bits of a `long`.
-/
namespace Verif.Text

/-- The decimal number written by digits. -/
def decimal (ds : List Char) : Nat := ds.foldl (fun a c => 10 * a + (c.toNat - 48)) 0

/-- An optional sign. -/
inductive Sign : List Char → Int → Prop
  | none : Sign [] 1
  | plus : Sign ['+'] 1
  | minus : Sign ['-'] (-1)

/-- Code of a blank: space, tabulators, line breaks. -/
def BlankCode (n : Nat) : Prop := n = 32 ∨ (9 ≤ n ∧ n ≤ 13)

/-- Code of a decimal digit. -/
def DigitCode (n : Nat) : Prop := 48 ≤ n ∧ n ≤ 57

/-- `s` begins with the whole number `v`, followed by `rest`. -/
def Whole (s : List Char) (v : Int) (rest : List Char) : Prop :=
  ∃ b sg sign ds, s = b ++ (sg ++ (ds ++ rest)) ∧ (∀ c ∈ b, BlankCode c.toNat) ∧ Sign sg sign ∧ ds ≠ [] ∧
    (∀ c ∈ ds, DigitCode c.toNat) ∧ (∀ c, rest.head? = some c → ¬ DigitCode c.toNat) ∧ v = sign * (decimal ds : Int)

theorem isSpace_code (c : Char) : isSpace c = true ↔ BlankCode c.toNat := by
  have h : ∀ d : Char, c = d ↔ c.toNat = d.toNat := fun d =>
    ⟨fun h => by rw [h], fun h => Char.toNat_inj.1 h⟩
  simp only [isSpace, Bool.or_eq_true, beq_iff_eq, h, BlankCode]
  simp only [Char.reduceToNat]
  omega

theorem isDigit_code (c : Char) : isDigit c = true ↔ DigitCode c.toNat := by
  simp only [isDigit, Bool.and_eq_true, decide_eq_true_eq, DigitCode]
  exact Iff.rfl

theorem scanDigits_append (rest : List Char) (hr : ∀ c, rest.head? = some c → ¬ DigitCode c.toNat) :
    ∀ (ds : List Char) (a n : Nat), (∀ c ∈ ds, DigitCode c.toNat) →
    scanDigits (ds ++ rest) a n = (ds.foldl (fun a c => 10 * a + (c.toNat - 48)) a, n + ds.length, rest)
  | [], a, n, _ => by
    cases rest with
    | nil => rfl
    | cons c t =>
      have : isDigit c = false := by
        have := hr c rfl
        rw [← isDigit_code] at this
        simpa using this
      simp [scanDigits, this]
  | c :: ds, a, n, h => by
    have hc : isDigit c = true := (isDigit_code c).2 (h c (by simp))
    simp only [List.cons_append, scanDigits, hc, if_true]
    rw [scanDigits_append rest hr ds _ _ (fun d hd => h d (by simp [hd]))]
    simp only [List.foldl_cons, List.length_cons, digitVal, Char.reduceToNat]
    congr 2
    omega

theorem scanDigits_split (s : List Char) : ∃ ds rest, s = ds ++ rest ∧ (∀ c ∈ ds, DigitCode c.toNat) ∧
    (∀ c, rest.head? = some c → ¬ DigitCode c.toNat) := by
  induction s with
  | nil => exact ⟨[], [], rfl, by simp, by simp⟩
  | cons c s ih =>
    by_cases hc : DigitCode c.toNat
    · obtain ⟨ds, rest, h1, h2, h3⟩ := ih
      refine ⟨c :: ds, rest, by rw [h1]; rfl, ?_, h3⟩
      intro d hd
      rcases List.mem_cons.1 hd with rfl | hd
      · exact hc
      · exact h2 d hd
    · exact ⟨[], c :: s, rfl, by simp, by simpa using hc⟩

theorem dropBlanks (t : List Char) (ht : ∀ c, t.head? = some c → ¬ BlankCode c.toNat) :
    ∀ b : List Char, (∀ c ∈ b, BlankCode c.toNat) → (b ++ t).dropWhile isSpace = t
  | [], _ => by
    cases t with
    | nil => rfl
    | cons c t =>
      have : isSpace c = false := by
        have := ht c rfl
        rw [← isSpace_code] at this
        simpa using this
      simp [List.dropWhile_cons, this]
  | c :: b, h => by
    have hc : isSpace c = true := (isSpace_code c).2 (h c (by simp))
    simp only [List.cons_append, List.dropWhile_cons, hc, if_true]
    exact dropBlanks t ht b fun d hd => h d (by simp [hd])

theorem blanks_split (s : List Char) : ∃ b t, s = b ++ t ∧ (∀ c ∈ b, BlankCode c.toNat) ∧
    (∀ c, t.head? = some c → ¬ BlankCode c.toNat) := by
  induction s with
  | nil => exact ⟨[], [], rfl, by simp, by simp⟩
  | cons c s ih =>
    by_cases hc : BlankCode c.toNat
    · obtain ⟨b, t, h1, h2, h3⟩ := ih
      refine ⟨c :: b, t, by rw [h1]; rfl, ?_, h3⟩
      intro d hd
      rcases List.mem_cons.1 hd with rfl | hd
      · exact hc
      · exact h2 d hd
    · exact ⟨[], c :: s, rfl, by simp, by simpa using hc⟩

theorem takeSign_append (sg : List Char) (sign : Int) (t : List Char) (hs : Sign sg sign)
    (ht : ∀ c, t.head? = some c → DigitCode c.toNat) :
    takeSign (sg ++ t) = (decide (sign = -1), t) := by
  cases hs with
  | none =>
    cases t with
    | nil => rfl
    | cons c t =>
      have hc := ht c rfl
      have h1 : c ≠ '-' := by rintro rfl; revert hc; simp [DigitCode]
      have h2 : c ≠ '+' := by rintro rfl; revert hc; simp [DigitCode]
      simp only [List.nil_append, takeSign]
      split
      · rename_i h; cases h; exact absurd rfl h1
      · rename_i h; cases h; exact absurd rfl h2
      · rfl
  | plus => rfl
  | minus => rfl

/-- What `strtol` returns for a number. -/
theorem strtol_whole (s : List Char) (v : Int) (rest : List Char) (h : Whole s v rest) :
    strtol s = some (if v > 2 ^ 63 - 1 then ⟨2 ^ 63 - 1, rest, true⟩ else if v < -2 ^ 63 then ⟨-2 ^ 63, rest, true⟩
      else ⟨v, rest, false⟩) := by
  obtain ⟨b, sg, sign, ds, hs, hb, hsg, hne, hd, hr, hv⟩ := h
  have hhead : ∀ c, (ds ++ rest).head? = some c → DigitCode c.toNat := by
    intro c hc
    cases ds with
    | nil => exact absurd rfl hne
    | cons d ds =>
      simp at hc
      exact hd c (by simp [hc])
  have hnb : ∀ c, (sg ++ (ds ++ rest)).head? = some c → ¬ BlankCode c.toNat := by
    intro c hc
    cases hsg with
    | none =>
      have := hhead c (by simpa using hc)
      unfold DigitCode at this
      unfold BlankCode
      omega
    | plus => simp at hc; subst hc; simp [BlankCode]
    | minus => simp at hc; subst hc; simp [BlankCode]
  unfold strtol
  rw [hs, dropBlanks _ hnb b hb, takeSign_append sg sign _ hsg hhead]
  simp only
  rw [scanDigits_append rest hr ds 0 0 hd]
  have hlen : 0 + ds.length ≠ 0 := by
    have := List.length_pos_iff.2 hne
    omega
  simp only
  rw [if_neg hlen]
  have hx : (if decide (sign = -1) = true then -((List.foldl (fun a c => 10 * a + (c.toNat - 48)) 0 ds : Nat) : Int)
      else ((List.foldl (fun a c => 10 * a + (c.toNat - 48)) 0 ds : Nat) : Int)) = v := by
    rw [hv]
    unfold decimal
    cases hsg <;> simp
  rw [hx]
  unfold longMax
  have e1 : (2 : Int) ^ 63 - 1 = 9223372036854775807 := by decide
  have e2 : -(2 : Int) ^ 63 = -9223372036854775807 - 1 := by decide
  rw [e1, e2]
  split
  · rfl
  · split
    · rfl
    · rfl

/-- `strtol` converts exactly the numbers. -/
theorem strtol_none (s : List Char) : strtol s = none ↔ ∀ v rest, ¬ Whole s v rest := by
  constructor
  · intro h v rest hw
    rw [strtol_whole s v rest hw] at h
    cases h
  · intro h
    obtain ⟨b, t, hs, hb, ht⟩ := blanks_split s
    have hsg : ∃ sg sign t', t = sg ++ t' ∧ Sign sg sign ∧ takeSign t = (decide (sign = -1), t') := by
      match t with
      | '-' :: t' => exact ⟨['-'], -1, t', rfl, .minus, rfl⟩
      | '+' :: t' => exact ⟨['+'], 1, t', rfl, .plus, rfl⟩
      | [] => exact ⟨[], 1, [], rfl, .none, rfl⟩
      | c :: t' =>
        by_cases h1 : c = '-'
        · subst h1; exact ⟨['-'], -1, t', rfl, .minus, rfl⟩
        · by_cases h2 : c = '+'
          · subst h2; exact ⟨['+'], 1, t', rfl, .plus, rfl⟩
          · refine ⟨[], 1, c :: t', rfl, .none, ?_⟩
            simp only [takeSign]
            split
            · rename_i h; cases h; exact absurd rfl h1
            · rename_i h; cases h; exact absurd rfl h2
            · rfl
    obtain ⟨sg, sign, t', ht', hsign, htake⟩ := hsg
    obtain ⟨ds, rest, hds, hd, hr⟩ := scanDigits_split t'
    have hne : ds = [] := by
      by_cases hne : ds = []
      · exact hne
      · exact absurd ⟨b, sg, sign, ds, by rw [hs, ht', hds], hb, hsign, hne, hd, hr, rfl⟩ (h (sign * (decimal ds : Int)) rest)
    unfold strtol
    rw [hs, dropBlanks t ht b hb, htake]
    simp only
    rw [hds, scanDigits_append rest hr ds 0 0 hd, hne]
    rfl

/-- A whole number of 64 bits at the start of `s`. -/
def Reads (s : List Char) (v : Int) : Prop := (∃ rest, Whole s v rest) ∧ -2 ^ 63 ≤ v ∧ v < 2 ^ 63

theorem reads_iff (s : List Char) (v : Int) :
    Reads s v ↔ ∃ r, strtol s = some r ∧ r.erange = false ∧ r.value = v := by
  constructor
  · rintro ⟨⟨rest, hw⟩, h1, h2⟩
    refine ⟨⟨v, rest, false⟩, ?_, rfl, rfl⟩
    rw [strtol_whole s v rest hw, if_neg (by omega), if_neg (by omega)]
  · rintro ⟨r, h, he, hv⟩
    by_cases hex : ∃ v rest, Whole s v rest
    · obtain ⟨w, rest, hw⟩ := hex
      have h' := strtol_whole s w rest hw
      rw [h'] at h
      by_cases h1 : w > 2 ^ 63 - 1
      · rw [if_pos h1] at h; cases h; cases he
      · rw [if_neg h1] at h
        by_cases h2 : w < -2 ^ 63
        · rw [if_pos h2] at h; cases h; cases he
        · rw [if_neg h2] at h
          cases h
          simp only at hv
          subst hv
          exact ⟨⟨rest, hw⟩, by omega, by omega⟩
    · have := (strtol_none s).2 fun v rest hw => hex ⟨v, rest, hw⟩
      rw [this] at h
      cases h

/-- A number, a blank and a sign before it. -/
example : Reads "  -12 4".toList (-12) :=
  (reads_iff _ _).2 ⟨⟨-12, " 4".toList, false⟩, by decide +kernel, rfl, rfl⟩

end Verif.Text
