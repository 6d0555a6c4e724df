import Verif.Script.BulletinModel
import Mathlib.Data.List.Forall2
import Mathlib.Data.List.TakeWhile
import Mathlib.Data.Rat.Defs
import Mathlib.Tactic.Linarith
import Mathlib.Tactic.Ring
import Mathlib.Tactic.NormNum
import Mathlib.Tactic.IntervalCases
import Mathlib.Algebra.Order.Ring.Rat
import Mathlib.Algebra.Order.Ring.Nat

/-!
C128: the values of the bulletins arrive in the table of Earth orientation parameters: the script extracts
exactly the final values, writes one line per day with the values in the columns of its heading, and
`parse_iers_C04` reads that file.

The first two parts hold (`section_iff`, `merge_iff`, `line_words`).  The last one does not: no day of any
written file can be read (`unreadable_counterexample`), and a reader that accepts the plus signs fills the
columns of length of day and celestial pole with other quantities (`columns_counterexample`).
-/
namespace Verif.Script.Bulletin

open Verif.Text Verif.Eop

variable {V W : Type}

/-! ### What a bulletin says -/

/-- The line `l` consists of four whole numbers and `n` further numbers, those of `r`. -/
def Denotes (py : Py V) (n : Nat) (l : List Char) (r : Row V) : Prop :=
  ∃ y m d j ws, words l = y :: m :: d :: j :: ws ∧ py.int y = some r.year ∧ py.int m = some r.month ∧
    py.int d = some r.day ∧ py.int j = some r.mjd ∧ List.Forall₂ (fun w v => py.float w = some v) ws r.vals ∧
    r.vals.length = n

theorem mapM_iff {A B : Type} (f : A → Option B) (as : List A) (bs : List B) :
    as.mapM f = some bs ↔ List.Forall₂ (fun a b => f a = some b) as bs := by
  induction as generalizing bs with
  | nil => simp [eq_comm]
  | cons a as ih =>
    rw [List.mapM_cons]
    cases e : f a with
    | none => simp [List.forall₂_cons_left_iff, e]
    | some b =>
      cases e2 : as.mapM f with
      | none =>
        simp only [Option.pure_def, Option.bind_eq_bind, Option.bind_some, Option.bind_none, reduceCtorEq,
          false_iff]
        intro h
        rw [List.forall₂_cons_left_iff] at h
        obtain ⟨b', bs', -, h2, -⟩ := h
        rw [← ih, e2] at h2
        simp at h2
      | some bs' =>
        simp only [Option.pure_def, Option.bind_eq_bind, Option.bind_some, Option.some.injEq]
        rw [List.forall₂_cons_left_iff]
        constructor
        · rintro rfl
          exact ⟨b, bs', e, (ih bs').mp e2, rfl⟩
        · rintro ⟨b1, bs1, h1, h2, rfl⟩
          rw [e] at h1
          rw [← ih, e2] at h2
          cases h1
          cases h2
          rfl

theorem parseRow_iff (py : Py V) (n : Nat) (l : List Char) (r : Row V) :
    parseRow py n l = some r ↔ Denotes py n l r := by
  unfold parseRow Denotes
  constructor
  · intro h
    split at h
    · rename_i y m d j vs h1 h2
      split at h
      · rename_i hl
        cases h
        rw [mapM_iff] at h1 h2
        rcases e : words l with _ | ⟨a, _ | ⟨b, _ | ⟨c, _ | ⟨g, ws⟩⟩⟩⟩
        all_goals rw [e] at h1 h2
        all_goals simp only [List.take, List.drop, List.forall₂_cons, List.Forall₂.nil, and_true] at h1 h2
        all_goals try (exact absurd h1.2.2.2 (by intro h; cases h))
        · cases h1
        · exact absurd h1.2 (by intro h; cases h)
        · exact absurd h1.2.2 (by intro h; cases h)
        · exact ⟨a, b, c, g, ws, rfl, h1.1, h1.2.1, h1.2.2.1, h1.2.2.2, h2, hl⟩
      · simp at h
    · simp at h
  · rintro ⟨y, m, d, j, ws, h0, h1, h2, h3, h4, h5, h6⟩
    have e1 : ((words l).take 4).mapM py.int = some [r.year, r.month, r.day, r.mjd] := by
      rw [mapM_iff, h0]
      simp [h1, h2, h3, h4]
    have e2 : ((words l).drop 4).mapM py.float = some r.vals := by
      rw [mapM_iff, h0]
      exact h5
    rw [e1, e2]
    simp only [h6, if_true]

/-- The lines after the heading of a section: an empty one, then the rows, up to an empty line or the end of
the file. -/
def Table (py : Py V) (n : Nat) (post : List (List Char)) (rs : List (Row V)) : Prop :=
  (post = [] ∧ rs = []) ∨
  ∃ b body tail, post = b :: (body ++ tail) ∧ strip b = [] ∧
    (tail = [] ∨ ∃ t ts, tail = t :: ts ∧ strip t = []) ∧
    List.Forall₂ (fun l r => strip l ≠ [] ∧ Denotes py n l r) body rs

theorem rows_iff (py : Py V) (n : Nat) (ls : List (List Char)) (rs : List (Row V)) :
    rows py n ls = some rs ↔ ∃ body tail, ls = body ++ tail ∧
      (tail = [] ∨ ∃ t ts, tail = t :: ts ∧ strip t = []) ∧
      List.Forall₂ (fun l r => strip l ≠ [] ∧ Denotes py n l r) body rs := by
  induction ls generalizing rs with
  | nil =>
    rw [rows]
    constructor
    · intro h
      cases h
      exact ⟨[], [], rfl, .inl rfl, .nil⟩
    · rintro ⟨body, tail, h1, -, h3⟩
      have : body = [] := (List.append_eq_nil_iff.mp h1.symm).1
      subst this
      cases h3
      rfl
  | cons l ls ih =>
    rw [rows]
    by_cases hb : strip l = []
    · rw [if_pos hb]
      constructor
      · intro h
        cases h
        exact ⟨[], l :: ls, rfl, .inr ⟨l, ls, rfl, hb⟩, .nil⟩
      · rintro ⟨body, tail, h1, -, h3⟩
        cases h3 with
        | nil => rfl
        | cons ha _ =>
          rw [List.cons_append, List.cons.injEq] at h1
          rw [← h1.1] at ha
          exact absurd hb ha.1
    · rw [if_neg hb]
      constructor
      · intro h
        cases e : parseRow py n l with
        | none => rw [e] at h; simp at h
        | some r =>
          rw [e] at h
          simp only at h
          cases e2 : rows py n ls with
          | none => rw [e2] at h; simp at h
          | some rs' =>
            rw [e2] at h
            simp only [Option.some.injEq] at h
            subst h
            obtain ⟨body, tail, h1, h2, h3⟩ := (ih rs').mp e2
            exact ⟨l :: body, tail, by rw [h1]; rfl, h2, .cons ⟨hb, (parseRow_iff py n l r).mp e⟩ h3⟩
      · rintro ⟨body, tail, h1, h2, h3⟩
        cases h3 with
        | nil =>
          rw [List.nil_append] at h1
          rcases h2 with rfl | ⟨t, ts, rfl, h4⟩
          · simp at h1
          · rw [List.cons.injEq] at h1
            rw [← h1.1] at h4
            exact absurd h4 hb
        | @cons l' r body' rs' ha h4 =>
          rw [List.cons_append, List.cons.injEq] at h1
          obtain ⟨rfl, rfl⟩ := h1
          rw [(parseRow_iff py n l r).mpr ha.2]
          simp only
          rw [(ih rs').mpr ⟨body', tail, rfl, h2, h4⟩]

theorem skipTo_iff (mark : List Char → Bool) (wanted : List (List Char)) (ls : List (List Char)) (k k' : Nat)
    (rest : List (List Char)) :
    skipTo mark wanted ls k = some (k', rest) ↔ ∃ pre m, ls = pre ++ m :: rest ∧
      (∀ l ∈ pre, mark l = false) ∧ mark m = true ∧
      k' = k + (pre.filter (fun l => wanted.contains (join (words l)))).length := by
  induction ls generalizing k with
  | nil => simp [skipTo]
  | cons l ls ih =>
    rw [skipTo]
    cases hm : mark l with
    | true =>
      rw [if_pos rfl]
      constructor
      · intro h
        cases h
        exact ⟨[], l, rfl, by simp, hm, by simp⟩
      · rintro ⟨pre, m, h1, h2, h3, h4⟩
        cases pre with
        | nil =>
          rw [List.nil_append, List.cons.injEq] at h1
          rw [h1.2, h4]
          simp
        | cons p pre =>
          rw [List.cons_append, List.cons.injEq] at h1
          have := h2 p List.mem_cons_self
          rw [← h1.1, hm] at this
          simp at this
    | false =>
      rw [if_neg Bool.false_ne_true, ih]
      constructor
      · rintro ⟨pre, m, h1, h2, h3, h4⟩
        refine ⟨l :: pre, m, by rw [h1]; rfl, ?_, h3, ?_⟩
        · intro x hx
          rcases List.mem_cons.mp hx with rfl | hx
          · exact hm
          · exact h2 x hx
        · rw [h4, List.filter_cons]
          split <;> simp <;> omega
      · rintro ⟨pre, m, h1, h2, h3, h4⟩
        cases pre with
        | nil =>
          rw [List.nil_append, List.cons.injEq] at h1
          rw [← h1.1, hm] at h3
          simp at h3
        | cons p pre =>
          rw [List.cons_append, List.cons.injEq] at h1
          obtain ⟨rfl, rfl⟩ := h1
          refine ⟨pre, m, rfl, fun x hx => h2 x (List.mem_cons_of_mem _ hx), h3, ?_⟩
          rw [h4, List.filter_cons]
          split <;> simp <;> omega

/-- C128, extraction: the rows returned are exactly those of the table that follows the first marked line,
provided that the lines of the heading precede it. -/
theorem section_iff (py : Py V) (mark : List Char → Bool) (wanted : List (List Char)) (n : Nat)
    (lines : List (List Char)) (rs : List (Row V)) :
    sectionData py mark wanted n lines = some rs ↔ ∃ pre m post, lines = pre ++ m :: post ∧
      (∀ l ∈ pre, mark l = false) ∧ mark m = true ∧
      (pre.filter (fun l => wanted.contains (join (words l)))).length = wanted.length ∧
      Table py n post rs := by
  have hA : ∀ post, afterMark py n post = some rs ↔ Table py n post rs := by
    intro post
    cases post with
    | nil =>
      simp only [afterMark, Table, true_and, Option.some.injEq]
      constructor
      · rintro rfl
        exact .inl rfl
      · rintro (h | ⟨b, body, tail, h, -⟩)
        · exact h.symm
        · simp at h
    | cons b post =>
      rw [afterMark]
      unfold Table
      by_cases hb : strip b = []
      · rw [if_pos hb, rows_iff py n]
        constructor
        · rintro ⟨body, tail, h1, h2, h3⟩
          exact .inr ⟨b, body, tail, by rw [h1], hb, h2, h3⟩
        · rintro (h | ⟨b', body, tail, h1, -, h2, h3⟩)
          · simp at h
          · rw [List.cons.injEq] at h1
            exact ⟨body, tail, h1.2, h2, h3⟩
      · rw [if_neg hb]
        simp only [reduceCtorEq, false_iff]
        rintro (h | ⟨b', body, tail, h1, h2, -⟩)
        · simp at h
        · rw [List.cons.injEq] at h1
          rw [h1.1] at hb
          exact hb h2
  unfold sectionData
  constructor
  · intro h
    cases e : skipTo mark wanted lines 0 with
    | none => rw [e] at h; simp at h
    | some kr =>
      obtain ⟨k, rest⟩ := kr
      rw [e] at h
      simp only at h
      split at h
      · rename_i hk
        obtain ⟨pre, m, h1, h2, h3, h4⟩ := (skipTo_iff mark wanted lines 0 k rest).mp e
        exact ⟨pre, m, rest, h1, h2, h3, by omega, (hA rest).mp h⟩
      · simp at h
  · rintro ⟨pre, m, post, h1, h2, h3, h4, h5⟩
    rw [(skipTo_iff mark wanted lines 0 wanted.length post).mpr ⟨pre, m, h1, h2, h3, by omega⟩]
    simp only [if_true]
    exact (hA post).mpr h5

/-- C128, merging: every day of the first section, with the values that the third section gives first for
that day number. -/
theorem merge_iff (b3 b1 : List (Row V)) (ds : List (Day V)) :
    merge b3 b1 = some ds ↔ List.Forall₂ (fun r d => d.toRow = r ∧
      ∃ a q b, b3 = a ++ q :: b ∧ (∀ x ∈ a, x.mjd ≠ r.mjd) ∧ q.mjd = r.mjd ∧ d.extra = q.vals) b1 ds := by
  induction b1 generalizing ds with
  | nil => simp [merge, eq_comm]
  | cons r rs ih =>
    rw [merge, List.forall₂_cons_left_iff]
    constructor
    · intro h
      cases e : b3.find? (fun q => q.mjd == r.mjd) with
      | none => rw [e] at h; simp at h
      | some q =>
        rw [e] at h
        simp only at h
        cases e2 : merge b3 rs with
        | none => rw [e2] at h; simp at h
        | some ds' =>
          rw [e2] at h
          simp only [Option.some.injEq] at h
          rw [List.find?_eq_some_iff_append] at e
          obtain ⟨h1, a, b, h2, h3⟩ := e
          refine ⟨⟨r, q.vals⟩, ds', ⟨rfl, a, q, b, h2, ?_, by simpa using h1, rfl⟩, (ih ds').mp e2, h.symm⟩
          intro x hx
          have := h3 x hx
          simpa using this
    · rintro ⟨d, ds', ⟨h1, a, q, b, h2, h3, h4, h5⟩, h6, rfl⟩
      have e : b3.find? (fun q => q.mjd == r.mjd) = some q := by
        rw [List.find?_eq_some_iff_append]
        refine ⟨by simpa using h4, a, b, h2, ?_⟩
        intro x hx
        have := h3 x hx
        simpa using this
      rw [e]
      simp only
      rw [(ih ds').mpr h6]
      simp only [Option.some.injEq, List.cons.injEq, and_true]
      cases d
      simp_all

/-! ### Digits -/

theorem isDigit_digit {n : Nat} (h : n < 10) : isDigit (digit n) = true ∧ digitVal (digit n) = n := by
  interval_cases n <;> decide

theorem decF_scan (k n : Nat) (h : n < k) (rest : List Char) (acc c : Nat) :
    ∃ L, 0 < L ∧ (decF k n).length = L ∧ n < 10 ^ L ∧ (∀ M, 0 < M → n < 10 ^ M → L ≤ M) ∧
      scanDigits (decF k n ++ rest) acc c = scanDigits rest (10 ^ L * acc + n) (c + L) := by
  induction k generalizing n rest acc c with
  | zero => omega
  | succ k ih =>
    rw [decF]
    by_cases hn : n < 10
    · rw [if_pos hn]
      have hd := isDigit_digit hn
      refine ⟨1, by omega, rfl, by omega, by intro M h1 _; omega, ?_⟩
      simp [scanDigits, hd.1, hd.2]
    · rw [if_neg hn]
      obtain ⟨L, h1, h2, h3, h4, h5⟩ := ih (n / 10) (by omega) (digit (n % 10) :: rest) acc c
      have hd := isDigit_digit (n := n % 10) (by omega)
      refine ⟨L + 1, by omega, by simp [h2], ?_, ?_, ?_⟩
      · rw [pow_succ]
        omega
      · intro M hM hlt
        cases M with
        | zero => omega
        | succ M =>
          rw [pow_succ] at hlt
          have hM' : 0 < M := by
            rcases Nat.eq_zero_or_pos M with e | e
            · subst e
              simp at hlt
              omega
            · exact e
          have := h4 M hM' (by omega)
          omega
      · rw [List.append_assoc, List.singleton_append, h5, scanDigits, if_pos hd.1, hd.2]
        congr 1
        rw [pow_succ]
        have := Nat.div_add_mod n 10
        have e : 10 * (10 ^ L * acc + n / 10) + n % 10 = 10 ^ L * 10 * acc + (10 * (n / 10) + n % 10) := by ring
        rw [e, this]

theorem decF_digits (k n : Nat) : ∀ c ∈ decF k n, isDigit c = true := by
  induction k generalizing n with
  | zero => simp [decF]
  | succ k ih =>
    rw [decF]
    split
    · rename_i h
      intro c hc
      rw [List.mem_singleton] at hc
      rw [hc]
      exact (isDigit_digit h).1
    · intro c hc
      rcases List.mem_append.mp hc with hc | hc
      · exact ih _ c hc
      · rw [List.mem_singleton] at hc
        rw [hc]
        exact (isDigit_digit (by omega)).1

theorem dec_digits (n : Nat) : ∀ c ∈ dec n, isDigit c = true := decF_digits _ n

theorem dec_length (n M : Nat) (hM : 0 < M) (h : n < 10 ^ M) : 0 < (dec n).length ∧ (dec n).length ≤ M := by
  obtain ⟨L, h1, h2, -, h4, -⟩ := decF_scan (n + 1) n (by omega) [] 0 0
  unfold dec
  rw [h2]
  exact ⟨h1, h4 M hM h⟩

theorem dec_length_ge (n M : Nat) (h : 10 ^ M ≤ n) : M < (dec n).length := by
  obtain ⟨L, -, h2, h3, -, -⟩ := decF_scan (n + 1) n (by omega) [] 0 0
  unfold dec
  rw [h2]
  exact (Nat.pow_lt_pow_iff_right (by norm_num : 1 < 10)).mp (lt_of_le_of_lt h h3)

theorem dec_ne (n : Nat) : dec n ≠ [] := by
  obtain ⟨L, h1, h2, -, -, -⟩ := decF_scan (n + 1) n (by omega) [] 0 0
  intro h
  have : (dec n).length = L := h2
  rw [h] at this
  simp at this
  omega

theorem dec_scan (n : Nat) (rest : List Char) (acc c : Nat) :
    scanDigits (dec n ++ rest) acc c =
      scanDigits rest (10 ^ (dec n).length * acc + n) (c + (dec n).length) := by
  obtain ⟨L, -, h2, -, -, h5⟩ := decF_scan (n + 1) n (by omega) rest acc c
  have : (dec n).length = L := h2
  rw [this]
  exact h5

theorem frac_length (p n : Nat) : (frac p n).length = p := by
  induction p generalizing n with
  | zero => rfl
  | succ p ih => simp [frac, ih]

theorem frac_digits (p n : Nat) : ∀ c ∈ frac p n, isDigit c = true := by
  induction p generalizing n with
  | zero => simp [frac]
  | succ p ih =>
    intro c hc
    rw [frac] at hc
    rcases List.mem_append.mp hc with hc | hc
    · exact ih _ c hc
    · rw [List.mem_singleton] at hc
      rw [hc]
      exact (isDigit_digit (by omega)).1

theorem frac_scan (p n : Nat) (rest : List Char) (acc c : Nat) :
    scanDigits (frac p n ++ rest) acc c = scanDigits rest (10 ^ p * acc + n % 10 ^ p) (c + p) := by
  induction p generalizing n rest acc c with
  | zero => simp [frac, Nat.mod_one]
  | succ p ih =>
    have hd := isDigit_digit (n := n % 10) (by omega)
    rw [frac, List.append_assoc, List.singleton_append, ih, scanDigits, if_pos hd.1, hd.2]
    congr 1
    have e : n % 10 ^ (p + 1) = 10 * (n / 10 % 10 ^ p) + n % 10 := by
      rw [pow_succ, Nat.mul_comm, Nat.mod_mul]
      omega
    rw [e, pow_succ]
    ring

theorem fixed_length (p M n : Nat) (neg : Bool) (hM : 0 < M) (h : n < 10 ^ (M + p)) :
    (fixed p neg n).length ≤ M + p + 2 := by
  unfold fixed
  have h1 : n / 10 ^ p < 10 ^ M := by
    rw [Nat.div_lt_iff_lt_mul (by positivity), ← pow_add]
    exact h
  have := (dec_length _ M hM h1).2
  simp only [List.length_cons, List.length_append, frac_length]
  omega

/-! ### Words of the written lines -/

/-- No white space in it. -/
def Solid (w : List Char) : Prop := ∀ c ∈ w, isSpace c = false

theorem wordsAux_solid (w s cur : List Char) (h : Solid w) :
    wordsAux (w ++ s) cur = wordsAux s (w.reverse ++ cur) := by
  induction w generalizing cur with
  | nil => rfl
  | cons c w ih =>
    rw [List.cons_append, wordsAux, h c List.mem_cons_self, if_neg Bool.false_ne_true,
      ih _ (fun x hx => h x (List.mem_cons_of_mem _ hx))]
    simp

theorem words_blank (s : List Char) : words (' ' :: s) = words s := by
  unfold words
  rw [wordsAux]
  rfl

theorem words_blanks (k : Nat) (s : List Char) : words (List.replicate k ' ' ++ s) = words s := by
  induction k with
  | zero => rfl
  | succ k ih => rw [List.replicate_succ, List.cons_append, words_blank, ih]

theorem words_word (w s : List Char) (h : Solid w) (hne : w ≠ []) (hs : s = [] ∨ ∃ t, s = ' ' :: t) :
    words (w ++ s) = w :: words s := by
  unfold words
  rw [wordsAux_solid w s [] h, List.append_nil]
  have hr : w.reverse.isEmpty = false := by
    cases w with
    | nil => exact absurd rfl hne
    | cons c w => simp
  rcases hs with rfl | ⟨t, rfl⟩
  · simp only [wordsAux, hr, if_neg Bool.false_ne_true, List.reverse_reverse]
    rfl
  · rw [wordsAux, if_pos (by decide), hr, if_neg Bool.false_ne_true, List.reverse_reverse]
    rw [wordsAux]
    rfl

theorem words_pad (n : Nat) (w s : List Char) (h : Solid w) (hne : w ≠ []) (hs : s = [] ∨ ∃ t, s = ' ' :: t) :
    words (padLeft n w ++ s) = w :: words s := by
  unfold padLeft
  rw [List.append_assoc, words_blanks, words_word w s h hne hs]

theorem pad_blank (n : Nat) (w : List Char) (h : w.length < n) : ∃ t, padLeft n w = ' ' :: t := by
  unfold padLeft
  obtain ⟨k, hk⟩ : ∃ k, n - w.length = k + 1 := ⟨n - w.length - 1, by omega⟩
  rw [hk]
  exact ⟨List.replicate k ' ' ++ w, rfl⟩

theorem solid_digits {w : List Char} (h : ∀ c ∈ w, isDigit c = true) : Solid w := by
  intro c hc
  have := h c hc
  unfold isDigit at this
  unfold isSpace
  simp only [Bool.and_eq_true, decide_eq_true_eq] at this
  have h1 : ('0' : Char).toNat ≤ c.toNat := this.1
  have h0 : ('0' : Char).toNat = 48 := rfl
  have key : ∀ x : Char, x.toNat < 48 → (c == x) = false := by
    intro x hx
    rw [beq_eq_false_iff_ne]
    rintro rfl
    omega
  rw [key ' ' (by decide), key '\t' (by decide), key '\n' (by decide), key '\x0b' (by decide),
    key '\x0c' (by decide), key '\r' (by decide)]
  rfl

theorem solid_fixed (p : Nat) (neg : Bool) (n : Nat) : Solid (fixed p neg n) := by
  unfold fixed
  intro c hc
  rcases List.mem_cons.mp hc with rfl | hc
  · cases neg <;> decide
  · rcases List.mem_append.mp hc with hc | hc
    · exact solid_digits (dec_digits _) c hc
    · rcases List.mem_cons.mp hc with rfl | hc
      · decide
      · exact solid_digits (frac_digits _ _) c hc

theorem fixed_ne (p : Nat) (neg : Bool) (n : Nat) : fixed p neg n ≠ [] := by
  unfold fixed
  simp

theorem solid_intStr (z : Int) : Solid (intStr z) := by
  unfold intStr
  split
  · intro c hc
    rcases List.mem_cons.mp hc with rfl | hc
    · decide
    · exact solid_digits (dec_digits _) c hc
  · exact solid_digits (dec_digits _)

theorem intStr_ne (z : Int) : intStr z ≠ [] := by
  unfold intStr
  split
  · simp
  · exact dec_ne _

/-- A date as it occurs in the bulletins. -/
structure RealDate (r : Row V) : Prop where
  year : 1000 ≤ r.year ∧ r.year ≤ 9999
  month : 1 ≤ r.month ∧ r.month ≤ 12
  day : 1 ≤ r.day ∧ r.day ≤ 31
  mjd : 0 ≤ r.mjd ∧ r.mjd ≤ 999999

theorem intStr_length {z : Int} {M : Nat} (hM : 0 < M) (h0 : 0 ≤ z) (h : z < 10 ^ M) :
    (intStr z).length ≤ M := by
  unfold intStr
  rw [if_neg (by omega)]
  refine (dec_length _ M hM ?_).2
  zify
  rw [abs_of_nonneg h0]
  exact h

theorem words_flat4 (f : Fmt V) (vs : List V) (s : List Char) (h : ∀ v ∈ vs, f.m4 v < 10 ^ 7)
    (hs : ∃ t, s = ' ' :: t) :
    words (vs.flatMap (val4 f) ++ s) = vs.map (fun v => fixed 4 (f.neg v) (f.m4 v)) ++ words s ∧
      ∃ t, vs.flatMap (val4 f) ++ s = ' ' :: t := by
  induction vs with
  | nil => exact ⟨by simp, by simpa using hs⟩
  | cons v vs ih =>
    obtain ⟨h1, h2⟩ := ih (fun x hx => h x (List.mem_cons_of_mem _ hx))
    have hl : (fixed 4 (f.neg v) (f.m4 v)).length < 10 := by
      have := fixed_length 4 3 (f.m4 v) (f.neg v) (by norm_num) (h v List.mem_cons_self)
      omega
    rw [List.flatMap_cons, List.append_assoc]
    refine ⟨?_, ?_⟩
    · unfold val4 at h2 ⊢
      rw [words_pad 10 _ _ (solid_fixed _ _ _) (fixed_ne _ _ _) (.inr h2)]
      show _ :: words (List.flatMap (val4 f) vs ++ s) = _
      rw [h1]
      rfl
    · obtain ⟨t, ht⟩ := pad_blank 10 _ hl
      refine ⟨t ++ (List.flatMap (val4 f) vs ++ s), ?_⟩
      unfold val4
      rw [ht]
      rfl

theorem words_flat12 (f : Fmt V) (vs : List V) :
    words (vs.flatMap (val12 f)) = vs.map (fun v => fixed 12 (f.neg v) (f.m12 v)) := by
  induction vs with
  | nil => rfl
  | cons v vs ih =>
    rw [List.flatMap_cons]
    unfold val12 at ih ⊢
    rw [List.append_assoc, List.singleton_append,
      words_pad 15 _ _ (solid_fixed _ _ _) (fixed_ne _ _ _) (.inr ⟨_, rfl⟩), words_blank, ih]
    rfl

/-- C128, writing: split at white space, a line of the merged file gives the date, the values of the first
section to four decimals and those of the third to twelve, for values below 1000 in magnitude. -/
theorem line_words (f : Fmt V) (d : Day V) (hr : RealDate d.toRow) (hv : ∀ v ∈ d.vals, f.m4 v < 10 ^ 7) :
    words (lineOf f d) = [intStr d.year, intStr d.month, intStr d.day, intStr d.mjd] ++
      (d.vals.map (fun v => fixed 4 (f.neg v) (f.m4 v)) ++
       d.extra.map (fun v => fixed 12 (f.neg v) (f.m12 v))) := by
  obtain ⟨h1, h2⟩ := words_flat4 f d.vals (' ' :: d.extra.flatMap (val12 f)) hv ⟨_, rfl⟩
  have hm : (intStr d.month).length ≤ 2 := intStr_length (by norm_num) (by have := hr.month; omega)
    (by have := hr.month; norm_num; omega)
  have hd : (intStr d.day).length ≤ 2 := intStr_length (by norm_num) (by have := hr.day; omega)
    (by have := hr.day; norm_num; omega)
  have hj : (intStr d.mjd).length ≤ 6 := intStr_length (by norm_num) hr.mjd.1
    (by have := hr.mjd; norm_num; omega)
  unfold lineOf dateStr
  simp only [List.append_assoc]
  obtain ⟨t1, e1⟩ := pad_blank 4 _ (show (intStr d.month).length < 4 by omega)
  obtain ⟨t2, e2⟩ := pad_blank 4 _ (show (intStr d.day).length < 4 by omega)
  obtain ⟨t3, e3⟩ := pad_blank 8 _ (show (intStr d.mjd).length < 8 by omega)
  rw [words_pad 4 _ _ (solid_intStr _) (intStr_ne _) (.inr ⟨_, by rw [e1]; rfl⟩),
    words_pad 4 _ _ (solid_intStr _) (intStr_ne _) (.inr ⟨_, by rw [e2]; rfl⟩),
    words_pad 4 _ _ (solid_intStr _) (intStr_ne _) (.inr ⟨_, by rw [e3]; rfl⟩),
    words_pad 8 _ _ (solid_intStr _) (intStr_ne _) (.inr h2), h1, words_blank, words_flat12]
  rfl

/-- A value of 1000 or more leaves no blank before it: it runs into the one before. -/
theorem wide_counterexample : words (([false, false].zip [5, 10000000]).flatMap
    (fun v => padLeft 10 (fixed 4 v.1 v.2))) = ["+0.0005+1000.0000".toList] := by decide +kernel

/-! ### Reading by `parse_iers_C04` -/

/-- What `std::from_chars` does not accept: a leading plus sign. -/
def NoPlus (e : C04.Ext W) : Prop := ∀ s, e.fromCharsD ('+' :: s) = none

/-- Where a number ends. -/
def Stops (s : List Char) : Prop := s = [] ∨ ∃ c t, s = c :: t ∧ (c = ' ' ∨ c = '+' ∨ c = '-')

/-- Numbers with a minus sign and decimals are read, up to the next blank or sign. -/
def ReadsNeg (e : C04.Ext W) (val : Bool → Nat → W) : Prop :=
  ∀ n s, Stops s → e.fromCharsD (fixed 4 true n ++ s) = some (val true n, s)

/-- Numbers with either sign are read. -/
def ReadsAll (e : C04.Ext W) (val : Bool → Nat → W) : Prop :=
  ∀ neg n s, Stops s → e.fromCharsD (fixed 4 neg n ++ s) = some (val neg n, s)

theorem nextNum_blanks (k : Nat) (s : List Char) : C04.nextNum (List.replicate k ' ' ++ s) = C04.nextNum s := by
  induction k with
  | zero => rfl
  | succ k ih =>
    rw [List.replicate_succ, List.cons_append]
    unfold C04.nextNum at ih ⊢
    rw [List.dropWhile_cons_of_pos (by decide)]
    exact ih

theorem nextNum_fixed (p : Nat) (neg : Bool) (n : Nat) (s : List Char) :
    C04.nextNum (fixed p neg n ++ s) = fixed p neg n ++ s := by
  unfold C04.nextNum fixed
  rw [List.cons_append, List.dropWhile_cons_of_neg (by cases neg <;> decide)]

theorem nextNum_val4 (f : Fmt V) (v : V) (s : List Char) :
    C04.nextNum (val4 f v ++ s) = fixed 4 (f.neg v) (f.m4 v) ++ s := by
  unfold val4 padLeft
  rw [List.append_assoc, nextNum_blanks, nextNum_fixed]

theorem stops_val4 (f : Fmt V) (v : V) (s : List Char) : Stops (val4 f v ++ s) := by
  right
  unfold val4 padLeft
  rcases h : 10 - (fixed 4 (f.neg v) (f.m4 v)).length with _ | k
  · unfold fixed
    cases f.neg v
    · exact ⟨'+', _, rfl, .inr (.inl rfl)⟩
    · exact ⟨'-', _, rfl, .inr (.inr rfl)⟩
  · exact ⟨' ', _, rfl, .inl rfl⟩

theorem stops_flat4 (f : Fmt V) (vs : List V) (s : List Char) (hs : Stops s) :
    Stops (vs.flatMap (val4 f) ++ s) := by
  cases vs with
  | nil => exact hs
  | cons v vs =>
    rw [List.flatMap_cons, List.append_assoc]
    exact stops_val4 f v _

/-- One of the values is not negative: the line is refused. -/
theorem values_refused (e : C04.Ext W) (val : Bool → Nat → W) (hp : NoPlus e) (hr : ReadsNeg e val)
    (f : Fmt V) (n : Nat) (vs : List V) (s : List Char) (hs : Stops s) (i : Nat) (hi : i < n) (v : V)
    (hv : vs[i]? = some v) (hpos : f.neg v = false) :
    C04.values e n (vs.flatMap (val4 f) ++ s) = none := by
  induction n generalizing vs i with
  | zero => omega
  | succ n ih =>
    cases vs with
    | nil => simp at hv
    | cons w ws =>
      rw [C04.values, List.flatMap_cons, List.append_assoc, nextNum_val4]
      cases hw : f.neg w with
      | false =>
        have : e.fromCharsD (fixed 4 false (f.m4 w) ++ (List.flatMap (val4 f) ws ++ s)) = none := by
          unfold fixed
          exact hp _
        rw [this]
      | true =>
        rw [hr _ _ (stops_flat4 f ws s hs)]
        simp only
        cases i with
        | zero =>
          simp only [List.getElem?_cons_zero, Option.some.injEq] at hv
          rw [hv, hpos] at hw
          simp at hw
        | succ i =>
          rw [ih ws i (by omega) (by simpa using hv)]

/-- A reader of all signs gets the first values of the line. -/
theorem values_read (e : C04.Ext W) (val : Bool → Nat → W) (hr : ReadsAll e val) (f : Fmt V) (n : Nat)
    (vs : List V) (s : List Char) (hs : Stops s) (hn : n ≤ vs.length) :
    C04.values e n (vs.flatMap (val4 f) ++ s) = some ((vs.take n).map fun v => val (f.neg v) (f.m4 v)) := by
  induction n generalizing vs with
  | zero => simp [C04.values]
  | succ n ih =>
    cases vs with
    | nil => simp at hn
    | cons w ws =>
      rw [C04.values, List.flatMap_cons, List.append_assoc, nextNum_val4, hr _ _ _ (stops_flat4 f ws s hs)]
      simp only
      rw [ih ws (by simpa using hn)]
      rfl

/-- The characters of a written line. -/
def Plain (s : List Char) : Prop := ∀ c ∈ s, c ≠ '\x00'

theorem plain_of_solid {s : List Char} (h : ∀ c ∈ s, isDigit c = true) : Plain s := by
  intro c hc hn
  have := h c hc
  rw [hn] at this
  revert this
  decide

theorem plain_fixed (p : Nat) (neg : Bool) (n : Nat) : Plain (fixed p neg n) := by
  unfold fixed
  intro c hc
  rcases List.mem_cons.mp hc with rfl | hc
  · cases neg <;> decide
  · rcases List.mem_append.mp hc with hc | hc
    · exact plain_of_solid (dec_digits _) c hc
    · rcases List.mem_cons.mp hc with rfl | hc
      · decide
      · exact plain_of_solid (frac_digits _ _) c hc

theorem plain_pad (n : Nat) {w : List Char} (h : Plain w) : Plain (padLeft n w) := by
  unfold padLeft
  intro c hc
  rcases List.mem_append.mp hc with hc | hc
  · rw [(List.mem_replicate.mp hc).2]
    decide
  · exact h c hc

theorem plain_intStr (z : Int) : Plain (intStr z) := by
  unfold intStr
  split
  · intro c hc
    rcases List.mem_cons.mp hc with rfl | hc
    · decide
    · exact plain_of_solid (dec_digits _) c hc
  · exact plain_of_solid (dec_digits _)

theorem plain_append {a b : List Char} (ha : Plain a) (hb : Plain b) : Plain (a ++ b) := by
  intro c hc
  rcases List.mem_append.mp hc with hc | hc
  · exact ha c hc
  · exact hb c hc

theorem plain_line (f : Fmt V) (d : Day V) : Plain (lineOf f d) := by
  unfold lineOf dateStr
  refine plain_append (plain_append (plain_pad _ (plain_intStr _)) (plain_append
    (plain_pad _ (plain_intStr _)) (plain_append (plain_pad _ (plain_intStr _))
    (plain_pad _ (plain_intStr _))))) (plain_append ?_ ?_)
  · intro c hc
    obtain ⟨v, -, hv⟩ := List.mem_flatMap.mp hc
    exact plain_pad _ (plain_fixed _ _ _) c hv
  · intro c hc
    rcases List.mem_cons.mp hc with rfl | hc
    · decide
    · obtain ⟨v, -, hv⟩ := List.mem_flatMap.mp hc
      rcases List.mem_append.mp hv with hv | hv
      · exact plain_pad _ (plain_fixed _ _ _) c hv
      · rw [List.mem_singleton] at hv
        rw [hv]
        decide

theorem pad_length (n : Nat) (w : List Char) (h : w.length ≤ n) : (padLeft n w).length = n := by
  unfold padLeft
  simp
  omega

theorem fromCharsL_digits (s : List Char) (h : ∀ t, s ≠ '-' :: t) (v n : Nat) (rest : List Char)
    (hs : scanDigits s 0 0 = (v, n, rest)) (hn : n ≠ 0) (hv : (v : Int) ≤ longMax) :
    C04.fromCharsL s = some ((v : Int), rest) := by
  unfold C04.fromCharsL
  split
  rename_i neg s1 e
  split at e
  · rename_i t
    exact absurd rfl (h t)
  · cases e
    rw [hs]
    simp only [if_neg hn, Bool.false_eq_true, if_false]
    rw [if_neg]
    unfold longMax at hv ⊢
    omega

/-- A number of the usual size in its field is read by `from_chars`. -/
theorem read_mjd (z : Int) (h0 : 0 ≤ z) (h1 : z ≤ 999999) (s : List Char) (hs : Stops s) :
    C04.fromCharsL (C04.nextNum (padLeft 8 (intStr z) ++ s)) = some (z, s) := by
  have e : intStr z = dec z.natAbs := by
    unfold intStr
    rw [if_neg (by omega)]
  have hne := dec_ne z.natAbs
  unfold padLeft
  rw [List.append_assoc, nextNum_blanks, e]
  obtain ⟨c, t, hc⟩ : ∃ c t, dec z.natAbs = c :: t := by
    cases h : dec z.natAbs with
    | nil => exact absurd h hne
    | cons c t => exact ⟨c, t, rfl⟩
  have hcd : isDigit c = true := dec_digits z.natAbs c (by rw [hc]; exact List.mem_cons_self)
  have hnn : C04.nextNum (dec z.natAbs ++ s) = dec z.natAbs ++ s := by
    unfold C04.nextNum
    rw [hc, List.cons_append, List.dropWhile_cons_of_neg]
    intro h
    rw [beq_iff_eq] at h
    rw [h] at hcd
    revert hcd
    decide
  rw [hnn]
  have hsc := dec_scan z.natAbs s 0 0
  have hstop : ∀ a b, scanDigits s a b = (a, b, s) := by
    intro a b
    rcases hs with rfl | ⟨c', t', rfl, h⟩
    · rfl
    · rw [scanDigits]
      rcases h with rfl | rfl | rfl <;> rfl
  rw [hstop, Nat.mul_zero, Nat.zero_add, Nat.zero_add] at hsc
  have hpos := (dec_length z.natAbs 6 (by norm_num) (by omega)).1
  rw [fromCharsL_digits _ ?_ _ _ _ hsc (by omega) (by unfold longMax; omega)]
  · have : ((z.natAbs : Nat) : Int) = z := by omega
    rw [this]
  · intro t' ht
    rw [hc, List.cons_append, List.cons.injEq] at ht
    rw [ht.1] at hcd
    exact absurd hcd (by decide)

/-- How a written line looks to the reader: a day, with what the six first values give. -/
theorem classify_line (e : C04.Ext W) (f : Fmt V) (d : Day V) (hr : RealDate d.toRow) :
    C04.classify e (lineOf f d) = .day d.mjd (C04.row e d.mjd
      (d.vals.flatMap (val4 f) ++ ' ' :: d.extra.flatMap (val12 f))) := by
  have hy : (intStr d.year).length = 4 := by
    have e : intStr d.year = dec d.year.natAbs := by
      unfold intStr
      rw [if_neg (by have := hr.year; omega)]
    rw [e]
    have h1 := (dec_length d.year.natAbs 4 (by norm_num) (by have := hr.year; omega)).2
    have h2 := dec_length_ge d.year.natAbs 3 (by have := hr.year; omega)
    omega
  have hm : (intStr d.month).length ≤ 4 := (intStr_length (M := 2) (by norm_num)
    (by have := hr.month; omega) (by have := hr.month; norm_num; omega)).trans (by norm_num)
  have hd : (intStr d.day).length ≤ 4 := (intStr_length (M := 2) (by norm_num)
    (by have := hr.day; omega) (by have := hr.day; norm_num; omega)).trans (by norm_num)
  have htake : (lineOf f d).takeWhile (· != '\x00') = lineOf f d := by
    rw [List.takeWhile_eq_self_iff]
    intro c hc
    simpa using plain_line f d c hc
  have hsplit : lineOf f d = (padLeft 4 (intStr d.year) ++ (padLeft 4 (intStr d.month) ++
      padLeft 4 (intStr d.day))) ++ (padLeft 8 (intStr d.mjd) ++
      (d.vals.flatMap (val4 f) ++ ' ' :: d.extra.flatMap (val12 f))) := by
    unfold lineOf dateStr
    simp only [List.append_assoc]
  have hlen : (padLeft 4 (intStr d.year) ++ (padLeft 4 (intStr d.month) ++
      padLeft 4 (intStr d.day))).length = 12 := by
    simp only [List.length_append, pad_length 4 _ hy.le, pad_length 4 _ hm, pad_length 4 _ hd]
  have hdrop : (lineOf f d).drop 12 = padLeft 8 (intStr d.mjd) ++
      (d.vals.flatMap (val4 f) ++ ' ' :: d.extra.flatMap (val12 f)) := by
    rw [hsplit, ← hlen, List.drop_left]
  have hstop : Stops (d.vals.flatMap (val4 f) ++ ' ' :: d.extra.flatMap (val12 f)) :=
    stops_flat4 f _ _ (.inr ⟨' ', _, rfl, .inl rfl⟩)
  obtain ⟨c, t, hc, hcd⟩ : ∃ c t, lineOf f d = c :: t ∧ isDigit c = true := by
    have e1 : padLeft 4 (intStr d.year) = dec d.year.natAbs := by
      unfold padLeft
      rw [hy]
      unfold intStr
      rw [if_neg (by have := hr.year; omega)]
      rfl
    cases h : dec d.year.natAbs with
    | nil => exact absurd h (dec_ne _)
    | cons c t =>
      refine ⟨c, t ++ ((padLeft 4 (intStr d.month) ++ padLeft 4 (intStr d.day)) ++ (padLeft 8 (intStr d.mjd) ++
        (d.vals.flatMap (val4 f) ++ ' ' :: d.extra.flatMap (val12 f)))), ?_,
        dec_digits d.year.natAbs c (by rw [h]; exact List.mem_cons_self)⟩
      rw [hsplit, e1, h]
      simp only [List.cons_append, List.append_assoc]
  unfold C04.classify
  simp only [htake]
  have hlong : ¬ (lineOf f d).length < 12 := by
    rw [hsplit, List.length_append, hlen]
    omega
  rw [hdrop, read_mjd d.mjd hr.mjd.1 hr.mjd.2 _ hstop]
  rw [hc] at hlong ⊢
  simp only
  rw [if_neg, if_neg hlong]
  simp only [Bool.or_eq_true, beq_iff_eq, not_or]
  constructor
  · rintro rfl
    revert hcd
    decide
  · rintro rfl
    revert hcd
    decide

theorem header_skip (e : C04.Ext W) : ∀ l ∈ header, l.length ≤ 255 ∧ C04.classify e l = .skip := by
  have h : ∀ l ∈ header, l.length ≤ 255 ∧ ∃ t, l = '#' :: t := by
    have hall : (header.all fun l => decide (l.length ≤ 255) && l.head? == some '#') = true := by decide +kernel
    rw [List.all_eq_true] at hall
    intro l hl
    have := hall l hl
    simp only [Bool.and_eq_true, decide_eq_true_eq, beq_iff_eq, List.head?_eq_some_iff] at this
    exact this
  intro l hl
  obtain ⟨h1, t, rfl⟩ := h l hl
  refine ⟨h1, ?_⟩
  unfold C04.classify
  rw [List.takeWhile_cons_of_pos (by decide)]
  rfl

/-- A day of the bulletins: dates and values of the usual size, a formal error of the first pole coordinate
(the sixth value) that is not negative. -/
structure Usual (f : Fmt V) (d : Day V) : Prop where
  date : RealDate d.toRow
  nvals : d.vals.length = 10
  nextra : d.extra.length = 4
  v4 : ∀ v ∈ d.vals, f.m4 v < 10 ^ 8
  v12 : ∀ v ∈ d.extra, f.m12 v < 10 ^ 14
  sigma : ∀ v, d.vals[5]? = some v → f.neg v = false

theorem val4_length (f : Fmt V) (vs : List V) (h : ∀ v ∈ vs, f.m4 v < 10 ^ 8) :
    (vs.flatMap (val4 f)).length = 10 * vs.length := by
  induction vs with
  | nil => rfl
  | cons v vs ih =>
    rw [List.flatMap_cons, List.length_append, ih (fun x hx => h x (List.mem_cons_of_mem _ hx))]
    have := fixed_length 4 4 (f.m4 v) (f.neg v) (by norm_num) (h v List.mem_cons_self)
    unfold val4
    rw [pad_length 10 _ (by omega), List.length_cons]
    ring

theorem val12_length (f : Fmt V) (vs : List V) (h : ∀ v ∈ vs, f.m12 v < 10 ^ 14) :
    (vs.flatMap (val12 f)).length ≤ 17 * vs.length := by
  induction vs with
  | nil => simp
  | cons v vs ih =>
    rw [List.flatMap_cons, List.length_append, List.length_cons]
    have h1 := ih (fun x hx => h x (List.mem_cons_of_mem _ hx))
    have := fixed_length 12 2 (f.m12 v) (f.neg v) (by norm_num) (h v List.mem_cons_self)
    have h2 : (val12 f v).length ≤ 17 := by
      unfold val12 padLeft
      simp only [List.length_append, List.length_replicate, List.length_singleton]
      omega
    omega

/-- The lines are short enough to be delivered by `getline`: it is not their length that keeps them from
being read. -/
theorem line_length (f : Fmt V) (d : Day V) (h : Usual f d) : (lineOf f d).length ≤ 255 := by
  unfold lineOf dateStr
  have hy : (intStr d.year).length ≤ 4 := intStr_length (by norm_num) (by have := h.date.year; omega)
    (by have := h.date.year; norm_num; omega)
  have hm : (intStr d.month).length ≤ 2 := intStr_length (by norm_num) (by have := h.date.month; omega)
    (by have := h.date.month; norm_num; omega)
  have hd : (intStr d.day).length ≤ 2 := intStr_length (by norm_num) (by have := h.date.day; omega)
    (by have := h.date.day; norm_num; omega)
  have hj : (intStr d.mjd).length ≤ 6 := intStr_length (by norm_num) h.date.mjd.1
    (by have := h.date.mjd; norm_num; omega)
  have h4 := val4_length f d.vals h.v4
  have h12 := val12_length f d.extra h.v12
  rw [h.nvals] at h4
  rw [h.nextra] at h12
  simp only [List.length_append, List.length_cons, pad_length 4 _ hy,
    pad_length 4 (intStr d.month) (by omega), pad_length 4 (intStr d.day) (by omega),
    pad_length 8 (intStr d.mjd) (by omega), h4]
  omega

/-- The lines of a file that are used by the reader. -/
theorem mem_bodyLines (f : Fmt V) (bs : List (List (Day V))) (l : Rinex.Line) (h : l ∈ bodyLines f bs) :
    ∃ b ∈ bs, ∃ d ∈ b, l.text = lineOf f d := by
  have hfile : ∀ (lf : Bool) (b : List (Day V)), l ∈ fileLines f lf b → ∃ d ∈ b, l.text = lineOf f d := by
    intro lf b
    induction b with
    | nil => simp [fileLines]
    | cons d ds ih =>
      cases ds with
      | nil =>
        intro hl
        rw [fileLines, List.mem_singleton] at hl
        exact ⟨d, List.mem_cons_self, by rw [hl]⟩
      | cons d2 ds =>
        intro hl
        rw [fileLines] at hl
        · rcases List.mem_cons.mp hl with hl | hl
          · exact ⟨d, List.mem_cons_self, by rw [hl]⟩
          · obtain ⟨x, hx, hx2⟩ := ih hl
            exact ⟨x, List.mem_cons_of_mem _ hx, hx2⟩
        · simp
  induction bs with
  | nil => simp [bodyLines] at h
  | cons b bs ih =>
    cases bs with
    | nil =>
      rw [bodyLines] at h
      obtain ⟨d, h1, h2⟩ := hfile true b h
      exact ⟨b, List.mem_cons_self, d, h1, h2⟩
    | cons b2 bs =>
      rw [bodyLines] at h
      · rcases List.mem_append.mp h with h | h
        · obtain ⟨d, h1, h2⟩ := hfile false b h
          exact ⟨b, List.mem_cons_self, d, h1, h2⟩
        · obtain ⟨x, hx, hx2⟩ := ih h
          exact ⟨x, List.mem_cons_of_mem _ hx, hx2⟩
      · simp

/-- Items that give no row: the run stores nothing and reports a failure. -/
theorem run_refuses (st en : Int) (hlt : st < en) (is : List (C04.Item W))
    (h : ∀ i ∈ is, i = .skip ∨ ∃ d, i = .day d none) : ∃ k, k ≠ 0 ∧ C04.run st en is [] = .ret k [] := by
  induction is with
  | nil =>
    refine ⟨1, by norm_num, ?_⟩
    rw [C04.run, if_neg (by simp; omega)]
  | cons i is ih =>
    have ih' := ih (fun x hx => h x (List.mem_cons_of_mem _ hx))
    rcases h i List.mem_cons_self with rfl | ⟨d, rfl⟩
    · rw [C04.run]
      exact ih'
    · rw [C04.run]
      split
      · rw [if_neg (by simp; omega)]
        exact ⟨2, by norm_num, rfl⟩
      · split
        · refine ⟨1, by norm_num, ?_⟩
          rw [if_neg (by simp; omega)]
        · exact ih'

theorem mem_items (e : C04.Ext W) (ls : List Rinex.Line) (i : C04.Item W) (h : i ∈ C04.items e ls) :
    ∃ l ∈ ls, i = C04.classify e l.text := by
  induction ls with
  | nil => simp [C04.items] at h
  | cons l ls ih =>
    rw [C04.items] at h
    split at h
    · simp at h
    · rcases List.mem_cons.mp h with h | h
      · exact ⟨l, List.mem_cons_self, h⟩
      · split at h
        · obtain ⟨x, hx, hx2⟩ := ih h
          exact ⟨x, List.mem_cons_of_mem _ hx, hx2⟩
        · simp at h

/-- No file that the script writes can be read: every value is written with its sign, `std::from_chars` does
not accept a plus sign, and the sixth value of a line, a formal error, is never negative.  For every file and
every interval that is not empty the reader reports a failure and stores no row. -/
theorem unreadable_counterexample (e : C04.Ext W) (val : Bool → Nat → W) (hp : NoPlus e)
    (hr : ReadsNeg e val) (f : Fmt V) (bs : List (List (Day V))) (hb : ∀ b ∈ bs, ∀ d ∈ b, Usual f d)
    (st en : Int) (hlt : st < en) :
    ∃ k, k ≠ 0 ∧ C04.parseC04 e (some (cat f bs)) st en = .ret k [] := by
  unfold C04.parseC04
  refine run_refuses st en hlt _ ?_
  intro i hi
  obtain ⟨l, hl, rfl⟩ := mem_items e _ i hi
  unfold cat at hl
  rcases List.mem_append.mp hl with hl | hl
  · left
    obtain ⟨x, hx, rfl⟩ := List.mem_map.mp hl
    exact (header_skip e x hx).2
  · right
    obtain ⟨b, hb1, d, hd, ht⟩ := mem_bodyLines f bs l hl
    have hu := hb b hb1 d hd
    rw [ht, classify_line e f d hu.date]
    refine ⟨d.mjd, ?_⟩
    obtain ⟨v, hv⟩ : ∃ v, d.vals[5]? = some v := by
      rw [List.getElem?_eq_getElem (by rw [hu.nvals]; norm_num)]
      exact ⟨_, rfl⟩
    unfold C04.row
    rw [values_refused e val hp hr f 6 d.vals _ (.inr ⟨' ', _, rfl, .inl rfl⟩) 5 (by norm_num) v hv
      (hu.sigma v hv)]

/-- The columns do not agree either.  A reader that accepts every sign would take the fourth value, dX, for
the length of day, the fifth, dY, for dX, and the formal error of x for dY. -/
theorem columns_counterexample (e : C04.Ext W) (val : Bool → Nat → W) (hr : ReadsAll e val) (f : Fmt V)
    (d : Day V) (hd : RealDate d.toRow) (x y dut dX dY sx : V) (more : List V)
    (hv : d.vals = x :: y :: dut :: dX :: dY :: sx :: more) :
    C04.classify e (lineOf f d) = .day d.mjd (some
      { mjd := e.ttOf d.mjd, xp := val (f.neg x) (f.m4 x), yp := val (f.neg y) (f.m4 y),
        dut := val (f.neg dut) (f.m4 dut), lod := val (f.neg dX) (f.m4 dX),
        dx := val (f.neg dY) (f.m4 dY), dy := val (f.neg sx) (f.m4 sx) }) := by
  rw [classify_line e f d hd]
  unfold C04.row
  rw [values_read e val hr f 6 d.vals _ (.inr ⟨' ', _, rfl, .inl rfl⟩) (by rw [hv]; simp), hv]
  rfl

/-! ### Witnesses -/

/-- Digits, a point, digits; with or without a plus sign. -/
def readPos (s : List Char) : Option (Nat × Nat × List Char) :=
  let a := scanDigits s 0 0
  match a.2.2 with
  | '.' :: t =>
    let b := scanDigits t a.1 0
    some (b.1, b.2.1, b.2.2)
  | _ => some (a.1, 0, a.2.2)

/-- A reader of decimals; `plus` tells whether it accepts a plus sign. -/
def reader (plus : Bool) : C04.Ext ℚ where
  fromCharsD s := match s with
    | '-' :: t => (readPos t).map fun r => (-((r.1 : ℚ) / 10 ^ r.2.1), r.2.2)
    | '+' :: t => if plus then (readPos t).map fun r => ((r.1 : ℚ) / 10 ^ r.2.1, r.2.2) else none
    | t => (readPos t).map fun r => ((r.1 : ℚ) / 10 ^ r.2.1, r.2.2)
  ttOf d := d

def val (neg : Bool) (n : Nat) : ℚ := if neg then -((n : ℚ) / 10 ^ 4) else (n : ℚ) / 10 ^ 4

theorem readPos_fixed (n : Nat) (s : List Char) (hs : Stops s) :
    readPos (dec (n / 10 ^ 4) ++ '.' :: frac 4 n ++ s) = some (n, 4, s) := by
  have hstop : ∀ a b, scanDigits s a b = (a, b, s) := by
    intro a b
    rcases hs with rfl | ⟨c', t', rfl, h⟩
    · rfl
    · rw [scanDigits]
      rcases h with rfl | rfl | rfl <;> rfl
  unfold readPos
  rw [List.append_assoc, List.cons_append]
  have h1 : scanDigits (dec (n / 10 ^ 4) ++ '.' :: (frac 4 n ++ s)) 0 0 =
      (n / 10 ^ 4, (dec (n / 10 ^ 4)).length, '.' :: (frac 4 n ++ s)) := by
    rw [dec_scan, Nat.mul_zero, Nat.zero_add, Nat.zero_add]
    rw [scanDigits, if_neg (by decide)]
  simp only [h1]
  rw [frac_scan, hstop]
  simp only [Nat.zero_add, Option.some.injEq, Prod.mk.injEq, and_true]
  exact Nat.div_add_mod n (10 ^ 4)

theorem reader_all : ReadsAll (reader true) val := by
  intro neg n s hs
  have := readPos_fixed n s hs
  unfold fixed reader val
  cases neg
  · simp only [List.cons_append, Bool.false_eq_true, if_false, if_true]
    rw [this]
    rfl
  · simp only [List.cons_append, if_true]
    rw [this]
    rfl

theorem reader_neg : ReadsNeg (reader false) val := by
  intro n s hs
  have := readPos_fixed n s hs
  unfold fixed reader val
  simp only [List.cons_append, if_true]
  rw [this]
  rfl

theorem reader_noPlus : NoPlus (reader false) := fun _ => rfl

/-- Numbers in units of the last decimal. -/
def fmt : Fmt Int := ⟨fun v => decide (v < 0), Int.natAbs, Int.natAbs⟩

/-- A day of bulletin B 397. -/
def someDay : Day Int := ⟨⟨2021, 1, 2, 59216, [704370, 3045800, -1756143, 3050, -1240, 290, 270, 77, 420, 430]⟩,
  [-12345678, 1234, 15041067178, 12]⟩

theorem someDay_usual : Usual fmt someDay where
  date := ⟨by decide, by decide, by decide, by decide⟩
  nvals := rfl
  nextra := rfl
  v4 := by decide
  v12 := by decide
  sigma := by
    intro v hv
    have : v = 290 := by
      have h : someDay.vals[5]? = some 290 := rfl
      rw [h] at hv
      exact (Option.some.inj hv).symm
    rw [this]
    rfl

example : lineOf fmt someDay =
    "2021   1   2   59216  +70.4370 +304.5800 -175.6143   +0.3050   -0.1240   +0.0290   +0.0270   +0.0077   +0.0420   +0.0430 -0.000012345678 +0.000000001234 +0.015041067178 +0.000000000012 ".toList := by
  decide +kernel

/-- Its line, read by white space. -/
example : words (lineOf fmt someDay) = [intStr 2021, intStr 1, intStr 2, intStr 59216] ++
    (someDay.vals.map (fun v => fixed 4 (fmt.neg v) (fmt.m4 v)) ++
     someDay.extra.map (fun v => fixed 12 (fmt.neg v) (fmt.m12 v))) :=
  line_words fmt someDay someDay_usual.date (by decide)

/-- Numbers of Python, whole ones only. -/
def py : Py Int where
  int s := (C04.fromCharsL s).bind fun r => if r.2.isEmpty then some r.1 else none
  float s := (C04.fromCharsL s).bind fun r => if r.2.isEmpty then some r.1 else none

/-- A bulletin with two days, and a third section in which they stand in another order. -/
def bulletin : List (List Char) :=
  ["                  BULLETIN B 397".toList,
   "1 - DAILY FINAL VALUES OF  x, y, UT1-UTC, dX, dY".toList,
   "   DATE     MJD       x       y      UT1-UTC      dX     dY       x err    y err   UT1 err  dX err  dY err".toList,
   "(0 h UTC)            mas     mas       ms         mas    mas        mas      mas      ms     mas     mas".toList,
   "      Mean formal error          0.0".toList, [],
   "2021   1   2   59216   70  304  -17   30  -12   29   27    7   42   43".toList,
   "2021   1   3   59217   71  305  -18   31  -13   28   26    8   41   44".toList, [],
   "3 - EARTH ANGULAR VELOCITY : DAILY FINAL VALUES OF LOD, OMEGA AT 0hUTC".toList,
   "    LOD : Excess of the Length of day - 86400 s TAI".toList,
   "    OMEGA : Earth angular velocity".toList,
   "    DATE     MJD      LOD     sigma      OMEGA         sigma".toList,
   "      (0 h UTC)              ms       ms        mas/ms          mas/ms".toList, [],
   "2021   1   3   59217   -9    1   15    2".toList, "2021   1   2   59216   -8    3   16    4".toList]

example : finalData py bulletin =
    some [⟨⟨2021, 1, 2, 59216, [70, 304, -17, 30, -12, 29, 27, 7, 42, 43]⟩, [-8, 3, 16, 4]⟩,
      ⟨⟨2021, 1, 3, 59217, [71, 305, -18, 31, -13, 28, 26, 8, 41, 44]⟩, [-9, 1, 15, 2]⟩] := by decide +kernel

/-- The file with this day alone, read for that day. -/
example : ∃ k, k ≠ 0 ∧ C04.parseC04 (reader false) (some (cat fmt [[someDay]])) 59216 59217 = .ret k [] :=
  unreadable_counterexample _ val reader_noPlus reader_neg fmt _
    (by simp only [List.mem_singleton]; rintro _ rfl _ (h : _ ∈ [someDay]); rw [List.mem_singleton] at h;
        rw [h]; exact someDay_usual) _ _ (by norm_num)

example : C04.classify (reader true) (lineOf fmt someDay) = .day 59216 (some
    { mjd := 59216, xp := val false 704370, yp := val false 3045800, dut := val true 1756143,
      lod := val false 3050, dx := val true 1240, dy := val false 290 }) :=
  columns_counterexample (reader true) val reader_all fmt someDay someDay_usual.date _ _ _ _ _ _ _ rfl

example : fixed 4 (fmt.neg (-1756143)) (fmt.m4 (-1756143)) = "-175.6143".toList := by decide +kernel

end Verif.Script.Bulletin
