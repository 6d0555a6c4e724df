import Verif.Script.PlotModel
import Mathlib.Tactic.Ring
import Mathlib.Tactic.ByContra
import Mathlib.Data.List.Forall2

/-! Properties of script/scatterplot.py (C146). -/
namespace Verif.Script.Plot

/-! ### The substitution -/

theorem strip_length {p s r : List Char} (h : strip p s = some r) : s.length = p.length + r.length := by
  induction p generalizing s with
  | nil => simp [strip] at h; simp [h]
  | cons a p ih =>
    cases s with
    | nil => simp [strip] at h
    | cons b s =>
      simp only [strip] at h
      split at h
      · have := ih h; simp [this]; omega
      · simp at h

theorem dropWhile_length (f : Char → Bool) (l : List Char) : (l.dropWhile f).length ≤ l.length := by
  induction l with
  | nil => simp
  | cons a l ih => simp only [List.dropWhile]; split <;> simp <;> omega

/-- More fuel than the length changes nothing. -/
theorem subFuel_eq (pre rep : List Char) (hp : pre ≠ []) (n : Nat) (s : List Char) (h : s.length ≤ n) :
    subFuel pre rep n s = sub pre rep s := by
  unfold sub
  suffices H : ∀ (m n : Nat) (s : List Char), s.length ≤ n → s.length ≤ m → subFuel pre rep n s = subFuel pre rep m s from
    H s.length n s h le_rfl
  intro m
  induction m with
  | zero =>
    intro n s h1 h2
    have : s = [] := List.eq_nil_of_length_eq_zero (by omega)
    subst this; cases n <;> rfl
  | succ m ih =>
    intro n s h1 h2
    cases s with
    | nil => cases n <;> rfl
    | cons c s =>
      cases n with
      | zero => simp at h1
      | succ n =>
        simp only [List.length_cons] at h1 h2
        simp only [subFuel]
        rcases hs : strip pre (c :: s) with _ | r
        · simp only; rw [ih n s (by omega) (by omega)]
        · simp only
          have h3 := strip_length hs
          have h4 := dropWhile_length isDigit r
          have h5 : 0 < pre.length := List.length_pos_of_ne_nil hp
          simp only [List.length_cons] at h3
          rcases r.takeWhile isDigit with _ | ⟨d, ds⟩
          · simp only; rw [ih n s (by omega) (by omega)]
          · simp only; rw [ih n _ (by omega) (by omega)]

theorem sub_none (pre rep : List Char) (c : Char) (s : List Char) (h : strip pre (c :: s) = none) :
    sub pre rep (c :: s) = c :: sub pre rep s := by
  rw [sub, List.length_cons, subFuel, h]; rfl

/-- A text without `$` is copied. -/
theorem sub_copy (pre rep w s : List Char) (hw : '$' ∉ w) :
    sub ('$' :: pre) rep (w ++ s) = w ++ sub ('$' :: pre) rep s := by
  induction w with
  | nil => rfl
  | cons c w ih =>
    simp only [List.mem_cons, not_or] at hw
    rw [List.cons_append, sub_none _ _ _ _ (by rw [strip, if_neg hw.1]), ih hw.2, List.cons_append]

theorem strip_append (p s : List Char) : strip p (p ++ s) = some s := by
  induction p with
  | nil => rfl
  | cons a p ih => simp [strip, ih]

theorem takeWhile_digits (c s : List Char) (hc : ∀ x ∈ c, isDigit x = true) (hs : ∀ x ∈ s.head?, isDigit x = false) :
    (c ++ s).takeWhile isDigit = c ∧ (c ++ s).dropWhile isDigit = s := by
  induction c with
  | nil =>
    cases s with
    | nil => simp
    | cons a s => have := hs a (by simp); simp [this]
  | cons a c ih =>
    have h1 := hc a (by simp)
    have h2 := ih (fun x hx => hc x (by simp [hx]))
    simp [h1, h2.1, h2.2]

/-- A reference is replaced. -/
theorem sub_hit (pre rep c s : List Char) (hp : pre ≠ []) (hc : ∀ x ∈ c, isDigit x = true) (hne : c ≠ [])
    (hs : ∀ x ∈ s.head?, isDigit x = false) :
    sub pre rep (pre ++ (c ++ s)) = rep ++ (c ++ ']' :: sub pre rep s) := by
  obtain ⟨a, p, rfl⟩ := List.exists_cons_of_ne_nil hp
  have h := takeWhile_digits c s hc hs
  rw [sub, List.cons_append, List.length_cons, subFuel, ← List.cons_append, strip_append]
  simp only [h.1, h.2]
  obtain ⟨d, ds, rfl⟩ := List.exists_cons_of_ne_nil hne
  simp only [List.append_assoc]
  rw [subFuel_eq _ _ hp _ _ (by simp; omega)]

/-! ### Specification of the strings -/

/-- A piece of a computation string: a character, or a reference to a column of a file. -/
inductive Tok where
  | lit (c : Char)
  | ref (f c : List Char)

/-- The piece is admissible: characters other than `$`, numbers with digits. -/
def Tok.Ok : Tok → Prop
  | .lit c => c ≠ '$'
  | .ref f c => (∀ x ∈ f, isDigit x = true) ∧ (∀ x ∈ c, isDigit x = true) ∧ f ≠ [] ∧ c ≠ []

/-- The string begins with a digit of its own. -/
def startsDigit : List Tok → Bool
  | .lit c :: _ => isDigit c
  | _ => false

/-- The string is admissible: a number ends where its digits end. -/
def Good : List Tok → Prop
  | [] => True
  | .lit c :: l => Tok.Ok (.lit c) ∧ Good l
  | .ref f c :: l => Tok.Ok (.ref f c) ∧ startsDigit l = false ∧ Good l

/-- What the user writes for one file, `$c`. -/
def write1 : List Tok → List Char
  | [] => []
  | .lit c :: l => c :: write1 l
  | .ref _ c :: l => '$' :: (c ++ write1 l)

/-- What the user writes for several files, `$f:c`. -/
def write : List Tok → List Char
  | [] => []
  | .lit c :: l => c :: write l
  | .ref f c :: l => '$' :: (f ++ ':' :: (c ++ write l))

/-- What is to be evaluated, `fcl[f][c]`. -/
def python : List Tok → List Char
  | [] => []
  | .lit c :: l => c :: python l
  | .ref f c :: l => ['f', 'c', 'l', '['] ++ (f ++ ([']', '['] ++ (c ++ ']' :: python l)))

/-! ### Several files -/

/-- After the passes of the files below `k`. -/
def upto (k : Nat) : List Tok → List Char
  | [] => []
  | .lit c :: l => c :: upto k l
  | .ref f c :: l =>
    if ∃ j < k, f = [digit j] then ['f', 'c', 'l', '['] ++ (f ++ ([']', '['] ++ (c ++ ']' :: upto k l)))
    else '$' :: (f ++ ':' :: (c ++ upto k l))

theorem upto_head (k : Nat) (l : List Tok) (h : startsDigit l = false) : ∀ x ∈ (upto k l).head?, isDigit x = false := by
  rcases l with _ | ⟨_ | ⟨f, c⟩, l⟩
  · simp [upto]
  · simpa [upto, startsDigit] using h
  · rw [upto]; split <;> simp <;> decide

theorem digit_not_dollar {x : Char} (h : isDigit x = true) : x ≠ '$' := by
  rintro rfl; exact absurd h (by decide)

theorem digit_not_colon {x : Char} (h : isDigit x = true) : x ≠ ':' := by
  rintro rfl; exact absurd h (by decide)

theorem no_dollar {l : List Char} (h : ∀ x ∈ l, isDigit x = true) : '$' ∉ l := fun hm => digit_not_dollar (h _ hm) rfl

theorem digit_inj {i j : Nat} (hi : i < 10) (hj : j < 10) (h : digit i = digit j) : i = j := by
  have : ∀ i < 10, ∀ j < 10, digit i = digit j → i = j := by decide
  exact this i hi j hj h

/-- One pass. -/
theorem pass_upto (k : Nat) (hk : k < 10) (l : List Tok) (h : Good l) :
    sub (filePre k) (fileRep k) (upto k l) = upto (k + 1) l := by
  induction l with
  | nil => rfl
  | cons t l ih =>
    rcases t with c | ⟨f, c⟩
    · obtain ⟨h1, h2⟩ := h
      have := sub_copy [digit k, ':'] (fileRep k) [c] (upto k l) (by simpa [eq_comm, Tok.Ok] using h1)
      simp only [upto]
      exact this.trans (by rw [← ih h2]; rfl)
    · obtain ⟨⟨hf, hc, hf0, hc0⟩, hd, hg⟩ := h
      have ihl := ih hg
      by_cases h1 : ∃ j < k, f = [digit j]
      · have h2 : ∃ j < k + 1, f = [digit j] := by
          obtain ⟨j, hj, e⟩ := h1; exact ⟨j, by omega, e⟩
        rw [upto, if_pos h1, upto, if_pos h2, ← ihl]
        have := sub_copy [digit k, ':'] (fileRep k) (['f', 'c', 'l', '['] ++ (f ++ ([']', '['] ++ (c ++ [']'])))) (upto k l) (by
          have := no_dollar hf; have := no_dollar hc
          simp_all)
        simpa [filePre] using this
      · by_cases h2 : f = [digit k]
        · have h3 : ∃ j < k + 1, f = [digit j] := ⟨k, by omega, h2⟩
          rw [upto, if_neg h1, upto, if_pos h3, ← ihl, h2]
          have := sub_hit (filePre k) (fileRep k) c (upto k l) (by simp [filePre]) hc hc0 (upto_head k l hd)
          simpa [filePre, fileRep] using this
        · have h3 : ¬ ∃ j < k + 1, f = [digit j] := by
            rintro ⟨j, hj, e⟩
            by_cases hjk : j = k
            · exact h2 (hjk ▸ e)
            · exact h1 ⟨j, by omega, e⟩
          rw [upto, if_neg h1, upto, if_neg h3, ← ihl]
          have hn : strip (filePre k) ('$' :: (f ++ ':' :: (c ++ upto k l))) = none := by
            rcases f with _ | ⟨a, _ | ⟨b, f⟩⟩
            · exact absurd rfl hf0
            · have : digit k ≠ a := fun e => h2 (by rw [e])
              simp [filePre, strip, this]
            · have hb : ':' ≠ b := fun e => digit_not_colon (hf b (by simp)) e.symm
              simp [filePre, strip, hb]
          rw [sub_none _ _ _ _ hn]
          have := sub_copy [digit k, ':'] (fileRep k) (f ++ ':' :: c) (upto k l) (by
            have := no_dollar hf; have := no_dollar hc
            simp_all)
          simpa [filePre] using this

theorem passes_upto (m k : Nat) (hk : k + m ≤ 10) (l : List Tok) (h : Good l) :
    passes m k (upto k l) = upto (k + m) l := by
  induction m generalizing k with
  | zero => rfl
  | succ m ih =>
    rw [passes, pass_upto k (by omega) l h, ih (k + 1) (by omega)]
    congr 1; omega

theorem upto_zero (l : List Tok) : upto 0 l = write l := by
  induction l with
  | nil => rfl
  | cons t l ih => rcases t with c | ⟨f, c⟩ <;> simp [upto, write, ih]

/-- The numbers of the files have one digit. -/
def OneDigit (l : List Tok) : Prop := ∀ f c, Tok.ref f c ∈ l → ∃ j < 10, f = [digit j]

theorem upto_ten (l : List Tok) (h : OneDigit l) : upto 10 l = python l := by
  induction l with
  | nil => rfl
  | cons t l ih =>
    have ihl := ih (fun f c hm => h f c (by simp [hm]))
    rcases t with c | ⟨f, c⟩
    · simp [upto, python, ihl]
    · rw [upto, if_pos (h f c (by simp)), python, ihl]

/-- **C146.** A string for several files (numbers of files below ten) becomes the expression meant, whatever stands between the
references and in whatever order the files occur. -/
theorem several_files_partial (l : List Tok) (hg : Good l) (hd : OneDigit l) (hc : ':' ∈ write l) :
    parse (write l) = python l := by
  rw [parse, if_pos hc, ← upto_zero, passes_upto 10 0 (by omega) l hg, upto_ten l hd]

/-- The example in the text of the script, `3.14/$1:11*$0:2`. -/
example : parse "3.14/$1:11*$0:2".toList = "3.14/fcl[1][11]*fcl[0][2]".toList := by decide +kernel

example : Good [.lit 'a', .ref ['1'] ['1', '1'], .lit '*', .ref ['0'] ['2']] ∧
    OneDigit [.lit 'a', .ref ['1'] ['1', '1'], .lit '*', .ref ['0'] ['2']] ∧
    ':' ∈ write [.lit 'a', .ref ['1'] ['1', '1'], .lit '*', .ref ['0'] ['2']] := by
  refine ⟨?_, ?_, by decide⟩
  · simp [Good, Tok.Ok, startsDigit]; decide
  · intro f c h
    simp at h
    rcases h with ⟨rfl, -⟩ | ⟨rfl, -⟩
    · exact ⟨1, by decide, by decide⟩
    · exact ⟨0, by decide, by decide⟩

/-- A string in which a file has a number of two digits keeps its `$` and is no expression: from the eleventh file on no column can
be plotted. -/
theorem eleventh_file_counterexample (l : List Tok) (hg : Good l) (f c : List Char) (hm : Tok.ref f c ∈ l) (hf : 2 ≤ f.length) :
    '$' ∈ parse (write l) := by
  have hc : ':' ∈ write l := by
    clear hg
    induction l with
    | nil => simp at hm
    | cons t l ih =>
      rcases t with a | ⟨f', c'⟩
      · simp only [List.mem_cons, reduceCtorEq, false_or] at hm
        simp [write, ih hm]
      · simp [write]
  rw [parse, if_pos hc, ← upto_zero, passes_upto 10 0 (by omega) l hg]
  clear hg hc
  induction l with
  | nil => simp at hm
  | cons t l ih =>
    rcases t with a | ⟨f', c'⟩
    · simp only [List.mem_cons, reduceCtorEq, false_or] at hm
      have := ih hm
      simp only [upto, List.mem_cons]; exact Or.inr this
    · rcases List.mem_cons.1 hm with e | hm
      · cases e
        have : ¬ ∃ j < 0 + 10, f = [digit j] := by
          rintro ⟨j, -, rfl⟩; simp at hf
        rw [upto, if_neg this]; simp
      · have := ih hm
        rw [upto]; split <;> simp [this]

example : parse "$10:3".toList = "$10:3".toList := by decide +kernel

/-! ### One file -/

theorem write1_head (l : List Tok) (h : startsDigit l = false) : ∀ x ∈ (write1 l).head?, isDigit x = false := by
  rcases l with _ | ⟨_ | ⟨f, c⟩, l⟩
  · simp [write1]
  · simpa [write1, startsDigit] using h
  · simp [write1]; decide

/-- **C146.** A string for one file becomes the expression meant. -/
theorem one_file (l : List Tok) (hg : Good l) (h0 : ∀ f c, Tok.ref f c ∈ l → f = ['0']) (hc : ':' ∉ write1 l) :
    parse (write1 l) = python l := by
  rw [parse, if_neg hc]
  clear hc
  induction l with
  | nil => rfl
  | cons t l ih =>
    have h0' : ∀ f c, Tok.ref f c ∈ l → f = ['0'] := fun f c hm => h0 f c (by simp [hm])
    rcases t with c | ⟨f, c⟩
    · obtain ⟨h1, h2⟩ := hg
      have := sub_copy [] (fileRep 0) [c] (write1 l) (by simpa [eq_comm, Tok.Ok] using h1)
      simp only [write1, python]
      exact this.trans (by rw [← ih h2 h0']; rfl)
    · obtain ⟨⟨hf, hc, hf0, hc0⟩, hd, hg⟩ := hg
      have hf' := h0 f c (by simp)
      have := sub_hit ['$'] (fileRep 0) c (write1 l) (by simp) hc hc0 (write1_head l hd)
      rw [ih hg h0'] at this
      subst hf'
      simpa [write1, python, fileRep, digit] using this

example : parse "$1+2*$2+$3/$14".toList = "fcl[0][1]+2*fcl[0][2]+fcl[0][3]/fcl[0][14]".toList := by decide +kernel

/-- One colon anywhere makes the columns without file stay as they are: a string for one file with a slice is no expression. -/
theorem colon_counterexample : parse "$2[1:]".toList = "$2[1:]".toList := by decide +kernel

/-! ### Columns that are kept -/

theorem strip_none_head (p : List Char) (a : Char) (s : List Char) (h : a ∉ s.head?) : strip (a :: p) s = none := by
  cases s with
  | nil => rfl
  | cons b s =>
    have : a ≠ b := fun e => h (by simp [e])
    rw [strip, if_neg this]

/-- No own brackets. -/
def NoBracket (l : List Tok) : Prop := ∀ c, Tok.lit c ∈ l → c ≠ '['

theorem python_no_bracket (l : List Tok) (h : NoBracket l) : '[' ∉ (python l).head? := by
  rcases l with _ | ⟨c | ⟨f, c⟩, l⟩
  · simp [python]
  · have := h c (by simp); simpa [python] using this
  · simp [python]

theorem NoBracket.tail {t : Tok} {l : List Tok} (h : NoBracket (t :: l)) : NoBracket l := fun c hm => h c (by simp [hm])

theorem lit_no_match (c : Char) (l : List Tok) (h : NoBracket l) (q : List Char) :
    strip ('f' :: 'c' :: 'l' :: '[' :: q) (c :: python l) = none := by
  rw [strip]
  split
  · rcases l with _ | ⟨a | ⟨f, a⟩, l⟩
    · rfl
    · rw [python, strip]
      split
      · have h' := h.tail
        rcases l with _ | ⟨b | ⟨f, b⟩, l⟩
        · rfl
        · rw [python, strip]
          split
          · exact strip_none_head _ _ _ (python_no_bracket l h'.tail)
          · rfl
        · simp [python, strip]
      · rfl
    · simp [python, strip]
  · rfl

/-- Characters among which no `f` occurs are passed over. -/
theorem find_skip (k w s : List Char) (h : 'f' ∉ w) : findCols k (w ++ s) = findCols k s := by
  induction w with
  | nil => rfl
  | cons c w ih =>
    simp only [List.mem_cons, not_or] at h
    have : strip (['f', 'c', 'l', '['] ++ k ++ [']', '[']) (c :: (w ++ s)) = none := by
      simp [strip, h.1]
    rw [List.cons_append, findCols, this, ih h.2]

theorem strip_number (k f q r : List Char) (hk : ∀ x ∈ k, isDigit x = true) (hf : ∀ x ∈ f, isDigit x = true) :
    strip (k ++ ']' :: q) (f ++ ']' :: r) = if f = k then strip q r else none := by
  have hb : isDigit ']' = false := by decide
  induction k generalizing f with
  | nil =>
    rcases f with _ | ⟨b, f⟩
    · simp [strip]
    · have : ']' ≠ b := by rintro rfl; exact absurd (hf ']' (by simp)) (by simp [hb])
      simp [strip, this]
  | cons a k ih =>
    rcases f with _ | ⟨b, f⟩
    · have : a ≠ ']' := by rintro rfl; exact absurd (hk ']' (by simp)) (by simp [hb])
      simp [strip, this]
    · have := ih f (fun x hx => hk x (by simp [hx])) (fun x hx => hf x (by simp [hx]))
      simp only [List.cons_append, strip, this, List.cons.injEq]
      by_cases e : a = b
      · subst e; simp
      · simp [e, Ne.symm e]

/-- The columns of a file in a string. -/
def columnsOf (k : List Char) : List Tok → List (List Char)
  | [] => []
  | .lit _ :: l => columnsOf k l
  | .ref f c :: l => if f = k then c :: columnsOf k l else columnsOf k l

/-- **C146.** The columns kept of a file are those to which the expression refers, in order and with repetitions; a file whose number
is the beginning of another number is not mistaken for it. -/
theorem kept_columns (k : List Char) (hk : ∀ x ∈ k, isDigit x = true) (l : List Tok) (hg : Good l) (hb : NoBracket l) :
    findCols k (python l) = columnsOf k l := by
  induction l with
  | nil => rfl
  | cons t l ih =>
    rcases t with c | ⟨f, c⟩
    · rw [python, findCols]
      have := lit_no_match c l hb.tail (k ++ [']', '['])
      simp only [List.cons_append, List.nil_append] at this ⊢
      rw [this]
      exact ih hg.2 hb.tail
    · obtain ⟨⟨hf, hc, hf0, hc0⟩, hd, hg⟩ := hg
      have ihl := ih hg hb.tail
      have nf : ∀ {w : List Char}, (∀ x ∈ w, isDigit x = true) → 'f' ∉ w := fun h hm => absurd (h _ hm) (by decide)
      have hskip : findCols k (['c', 'l', '['] ++ (f ++ ([']', '['] ++ (c ++ ']' :: python l)))) = findCols k (python l) := by
        have := find_skip k (['c', 'l', '['] ++ (f ++ ([']', '['] ++ (c ++ [']'])))) (python l) (by
          have := nf hf; have := nf hc; simp_all)
        simpa using this
      have hstrip : strip (['f', 'c', 'l', '['] ++ k ++ [']', '['])
          ('f' :: (['c', 'l', '['] ++ (f ++ ([']', '['] ++ (c ++ ']' :: python l)))))
          = if f = k then some (c ++ ']' :: python l) else none := by
        have := strip_number k f ['['] ('[' :: (c ++ ']' :: python l)) hk hf
        simp only [List.cons_append, List.nil_append, strip, if_true] at this ⊢
        exact this
      have e : python (.ref f c :: l) = 'f' :: (['c', 'l', '['] ++ (f ++ ([']', '['] ++ (c ++ ']' :: python l)))) := rfl
      rw [e, findCols, hstrip, columnsOf]
      by_cases hfk : f = k
      · have h2 := takeWhile_digits c (']' :: python l) hc (by simp; decide)
        simp only [if_pos hfk, h2.1, h2.2]
        obtain ⟨d, ds, rfl⟩ := List.exists_cons_of_ne_nil hc0
        simp only
        rw [hskip, ihl]
      · simp only [if_neg hfk]
        rw [hskip, ihl]

example : findCols ['1'] "fcl[1][11]*fcl[10][2]+fcl[1][3]".toList = [['1', '1'], ['3']] := by decide +kernel

/-! ### Columns of a file -/

/-- **C146.** The file is read if and only if it has a line that is not a comment and all such lines have as many fields. -/
theorem columns_iff (ls : List Line) :
    (columns ls).isSome ↔ ∃ n, ls.filterMap id ≠ [] ∧ ∀ x ∈ ls.filterMap id, x.length = n := by
  rw [columns]
  split
  · rename_i h; rw [h]; simp
  · rename_i l rest h
    rw [h]
    by_cases ha : (l :: rest).all (fun x => x.length == l.length) = true
    · rw [if_pos ha]
      simp only [List.all_eq_true, beq_iff_eq] at ha
      simp only [Option.isSome_some, true_iff]
      exact ⟨l.length, by simp, ha⟩
    · rw [if_neg ha]
      simp only [Option.isSome_none, Bool.false_eq_true, false_iff, not_exists, not_and]
      intro n _ hall
      apply ha
      simp only [List.all_eq_true, beq_iff_eq]
      intro x hx
      rw [hall x hx, hall l (by simp)]

/-- **C146.** Column `i` holds, in the order of the lines, the `i`-th fields of the lines that are not comments. -/
theorem columns_transpose (ls : List Line) (cs : List (List String)) (h : columns ls = some cs) (i j : Nat) (row : List String)
    (hj : (ls.filterMap id)[j]? = some row) :
    cs.length = row.length ∧ (∀ c ∈ cs, c.length = (ls.filterMap id).length) ∧
      (i < row.length → (cs[i]?.bind fun c => c[j]?) = row[i]?) := by
  rw [columns] at h
  split at h
  · simp at h
  · rename_i l rest hl
    rw [hl] at hj ⊢
    split at h
    · rename_i ha
      simp only [List.all_eq_true, beq_iff_eq] at ha
      have hr : row.length = l.length := ha row (List.mem_of_getElem? hj)
      simp only [Option.some.injEq] at h
      subst h
      refine ⟨by simp [hr], ?_, ?_⟩
      · intro c hc
        simp only [List.mem_map, List.mem_range] at hc
        obtain ⟨a, -, rfl⟩ := hc
        simp
      · intro hi
        have hi' : i < l.length := hr ▸ hi
        rw [List.getElem?_map, List.getElem?_range hi', Option.map_some, Option.bind_some, List.getElem?_map, hj, Option.map_some,
          List.getD_eq_getElem?_getD, List.getElem?_eq_getElem hi, Option.getD_some]
    · simp at h

/-- An empty line, for instance at the end of the file, makes the assertion fail for every file with data. -/
theorem blank_line_counterexample (ls : List Line) (x : List String) (hx : some x ∈ ls) (hne : x ≠ []) (hb : some [] ∈ ls) :
    columns ls = none := by
  by_contra h
  obtain ⟨n, -, hn⟩ := (columns_iff ls).1 (Option.isSome_iff_ne_none.2 h)
  have h1 := hn x (by simpa using hx)
  have h2 := hn [] (by simpa using hb)
  simp at h2
  exact hne (List.eq_nil_of_length_eq_zero (by omega))

example : columns [some ["1", "2"], some []] = none := by decide
example : columns [none, some ["1", "2"], some ["3", "4"]] = some [["1", "3"], ["2", "4"]] := by decide

theorem mapM_none {α β : Type} (f : α → Option β) (l : List α) (x : α) (hx : x ∈ l) (h : f x = none) : l.mapM f = none := by
  induction l with
  | nil => simp at hx
  | cons a l ih =>
    rcases List.mem_cons.1 hx with rfl | hx
    · simp [h]
    · simp [ih hx]

/-- **C146.** One value that is no number leaves the whole column as strings; otherwise each value is converted. -/
theorem convert_spec {F : Type} (float : String → Option F) (col : List String) (hne : col ≠ []) :
    (∀ v, col.mapM float = some v → convert float col = .inl v) ∧
    ((∃ x ∈ col, float x = none) → convert float col = .inr col) := by
  obtain ⟨a, l, rfl⟩ := List.exists_cons_of_ne_nil hne
  constructor
  · intro v hv
    have ha : ∃ y, float a = some y := by
      rcases h : float a with _ | y
      · rw [mapM_none float _ a (by simp) h] at hv; simp at hv
      · exact ⟨y, rfl⟩
    obtain ⟨y, hy⟩ := ha
    rw [convert, hy, hv]
  · rintro ⟨x, hx, hn⟩
    rw [convert, mapM_none float _ x hx hn]
    rcases float a <;> rfl

example : convert (fun s => if s = "x" then none else some s.length) ["1", "x"] = .inr ["1", "x"] ∧
    convert (fun s => if s = "x" then none else some s.length) ["1", "20"] = .inl [1, 2] := by
  decide

/-! ### Times -/

/-- A column whose first time Python can read (with either format) is never read: the clipping by zero characters leaves nothing of
any time, and `strptime` rejects a date without time.  So `--time` works only if the fraction has more than six digits. -/
theorem time_counterexample {T : Type} (strp : Nat → List Char → Parsed T) (hdate : ∀ f d t, strp f (join d []) ≠ .ok t)
    (rows : List (List Char × List Char)) (r : List Char × List Char) (hr : rows.head? = some r)
    (h : ∀ n, strp 0 (join r.1 r.2) ≠ .rest n) : times strp rows = none := by
  rcases rows with _ | ⟨a, rs⟩
  · rfl
  · simp only [List.head?_cons, Option.some.injEq] at hr
    subst hr
    rw [times]
    have hc : ∃ f, choose strp a.1 a.2 = some (f, 0) := by
      rw [choose]
      rcases hs : strp 0 (join a.1 a.2) with t | n | _
      · exact ⟨0, rfl⟩
      · exact absurd hs (h n)
      · exact ⟨1, rfl⟩
    obtain ⟨f, hf⟩ := hc
    rw [hf, Option.bind_some]
    apply mapM_none _ _ a (by simp)
    rw [rowTime, clip, if_pos rfl]
    rcases hs : strp f (join a.1 []) with t | n | _
    · exact absurd hs (hdate f a.1 t)
    · rfl
    · rfl

/-- A reader for the examples: the date `D`, and a time of at most two characters with format 0. -/
def toyStrp (f : Nat) (s : List Char) : Parsed Nat :=
  match s with
  | x :: y :: a :: b :: r =>
    if f = 0 ∧ x = 'D' ∧ y = ' ' ∧ isDigit a ∧ isDigit b then
      (if r = [] then .ok (10 * a.toNat + b.toNat - 528) else .rest r.length)
    else .error
  | [x, y, a] => if f = 0 ∧ x = 'D' ∧ y = ' ' ∧ isDigit a then .ok (a.toNat - 48) else .error
  | _ => .error

example : times toyStrp [(['D'], ['1', '2']), (['D'], ['3', '4'])] = none := by
  apply time_counterexample toyStrp _ _ (['D'], ['1', '2']) rfl
  · intro n h
    have : toyStrp 0 (join ['D'] ['1', '2']) = .ok 12 := rfl
    rw [this] at h
    cases h
  · intro f d t
    have hb : isDigit ' ' = false := by decide
    rcases d with _ | ⟨x, _ | ⟨y, _ | ⟨z, _ | ⟨w, d⟩⟩⟩⟩ <;> simp [join, toyStrp, hb]
    split <;> simp

/-- **C146.** If the fraction of the first time is too long by `n` characters, each row is read without its last `n` characters. -/
theorem times_partial {T : Type} (strp : Nat → List Char → Parsed T) (r : List Char × List Char)
    (rs : List (List Char × List Char)) (n : Nat) (hn : 0 < n) (t : T) (h : strp 0 (join r.1 r.2) = .rest n)
    (ht : strp 0 (join r.1 (r.2.take (r.2.length - n))) = .ok t) (ts : List T) :
    times strp (r :: rs) = some ts ↔
      List.Forall₂ (fun x y => strp 0 (join x.1 (x.2.take (x.2.length - n))) = .ok y) (r :: rs) ts := by
  have hn0 : n ≠ 0 := by omega
  have hc : choose strp r.1 r.2 = some (0, n) := by
    rw [choose, h]; simp only [clip, if_neg hn0, ht]
  rw [times, hc, Option.bind_some]
  simp only
  generalize r :: rs = l
  clear hc h ht
  induction l generalizing ts with
  | nil => cases ts <;> simp [eq_comm]
  | cons a l ih =>
    have hone : ∀ y, rowTime strp 0 n a = some y ↔ strp 0 (join a.1 (a.2.take (a.2.length - n))) = .ok y := by
      intro y
      rw [rowTime, clip, if_neg hn0]
      rcases strp 0 (join a.1 (a.2.take (a.2.length - n))) with u | m | _ <;> simp
    rw [List.mapM_cons]
    constructor
    · intro h
      rcases hr : rowTime strp 0 n a with _ | u
      · rw [hr] at h; simp at h
      · rcases hl : l.mapM (rowTime strp 0 n) with _ | us
        · rw [hr, hl] at h; simp at h
        · rw [hr, hl] at h
          simp at h
          subst h
          exact .cons ((hone u).1 hr) ((ih us).1 hl)
    · intro h
      cases h with
      | cons h1 h2 =>
        rw [(hone _).2 h1, (ih _).2 h2]; rfl

/-- A row that Python could read as it stands (as `a`) but whose clipped text it also reads (as `b`, with digits of the fraction
lost) gets the value `b`: the clipping found for the first row is applied to rows with a shorter fraction. -/
theorem ragged_counterexample {T : Type} (strp : Nat → List Char → Parsed T) (r x : List Char × List Char) (n : Nat) (hn : 0 < n)
    (t a b : T) (h : strp 0 (join r.1 r.2) = .rest n) (ht : strp 0 (join r.1 (r.2.take (r.2.length - n))) = .ok t)
    (_ha : strp 0 (join x.1 x.2) = .ok a) (hb : strp 0 (join x.1 (x.2.take (x.2.length - n))) = .ok b) (hab : a ≠ b) :
    times strp [r, x] = some [t, b] ∧ times strp [r, x] ≠ some [t, a] := by
  have h1 : times strp [r, x] = some [t, b] := (times_partial strp r [x] n hn t h ht [t, b]).2 (.cons ht (.cons hb .nil))
  refine ⟨h1, ?_⟩
  rw [h1]
  intro e
  simp only [Option.some.injEq, List.cons.injEq, and_true, true_and] at e
  exact hab e.symm

example : times toyStrp [(['D'], ['1', '2', '0']), (['D'], ['3', '4'])] = some [12, 3] :=
  (ragged_counterexample toyStrp (['D'], ['1', '2', '0']) (['D'], ['3', '4']) 1 (by decide) 12 34 3 rfl rfl rfl rfl (by decide)).1

/-! ### Files and subplots -/

theorem timeColumns_length (x : Nat → Nat × Nat) (n m c : Nat) (cols : List Nat) (h : timeColumns x n m c = some cols) :
    cols.length = m ∧ ∀ k < m, (x (if n = 2 then 0 else (c + k) * 2)).1 = c + k ∧
      cols[k]? = some (x (if n = 2 then 0 else (c + k) * 2)).2 := by
  induction m generalizing c cols with
  | zero => simp [timeColumns] at h; subst h; simp
  | succ m ih =>
    rw [timeColumns] at h
    by_cases hp : (x (if n = 2 then 0 else c * 2)).1 = c
    · rw [if_pos hp] at h
      rw [Option.map_eq_some_iff] at h
      obtain ⟨cs, hcs, rfl⟩ := h
      obtain ⟨h1, h2⟩ := ih (c + 1) cs hcs
      refine ⟨by simp [h1], ?_⟩
      intro k hk
      cases k with
      | zero => simpa using hp
      | succ k =>
        have := h2 k (by omega)
        rw [show c + 1 + k = c + (k + 1) by omega] at this
        simpa using this
    · rw [if_neg hp] at h; simp at h

/-- **C146.** With a pair of strings for each file the time column of each file is the one its own string names. -/
theorem time_columns (x : Nat → Nat × Nat) (n m : Nat) (cols : List Nat) (h : timeColumns x n m 0 = some cols) (hn : n ≠ 2) (k : Nat)
    (hk : k < m) : (x (k * 2)).1 = k ∧ cols[k]? = some (x (k * 2)).2 := by
  have := (timeColumns_length x n m 0 cols h).2 k hk
  rw [if_neg hn] at this
  simpa using this

example : timeColumns (fun i => (i / 2, 4)) 4 2 0 = some [4, 4] := by decide

/-- Two strings for two or more files with `--time`, which the help text allows, always fail the assertion. -/
theorem two_strings_counterexample (x : Nat → Nat × Nat) (m : Nat) (hm : 2 ≤ m) : timeColumns x 2 m 0 = none := by
  rcases h : timeColumns x 2 m 0 with _ | cols
  · rfl
  · exfalso
    have h0 := ((timeColumns_length x 2 m 0 cols h).2 0 (by omega)).1
    have h1 := ((timeColumns_length x 2 m 0 cols h).2 1 (by omega)).1
    simp at h0 h1
    omega

/-- **C146.** Subplot `k` shows the strings `2k` and `2k+1`; there are half as many as strings. -/
theorem subplots_spec {α : Type} (l : List α) :
    (subplots l).length = l.length / 2 ∧
      ∀ k x y, (subplots l)[k]? = some (x, y) ↔ l[2 * k]? = some x ∧ l[2 * k + 1]? = some y := by
  suffices H : ∀ n, ∀ l : List α, l.length ≤ n → (subplots l).length = l.length / 2 ∧
      ∀ k x y, (subplots l)[k]? = some (x, y) ↔ l[2 * k]? = some x ∧ l[2 * k + 1]? = some y from H l.length l le_rfl
  intro n
  induction n with
  | zero =>
    intro l hl
    have : l = [] := List.eq_nil_of_length_eq_zero (by omega)
    subst this; simp [subplots]
  | succ n ih =>
    intro l hl
    rcases l with _ | ⟨a, _ | ⟨b, l⟩⟩
    · simp [subplots]
    · refine ⟨by simp [subplots], ?_⟩
      intro k x y
      simp [subplots]
    · obtain ⟨h1, h2⟩ := ih l (by simp at hl; omega)
      refine ⟨by simp [subplots, h1]; omega, ?_⟩
      intro k x y
      cases k with
      | zero => simp [subplots]
      | succ k =>
        have := h2 k x y
        rw [show 2 * (k + 1) = 2 * k + 2 by ring]
        simpa [subplots] using this

/-- The last of an odd number of strings is dropped without a message. -/
theorem odd_counterexample {α : Type} (l : List α) (a : α) (h : l.length % 2 = 0) : subplots (l ++ [a]) = subplots l := by
  suffices H : ∀ n, ∀ l : List α, l.length ≤ n → l.length % 2 = 0 → subplots (l ++ [a]) = subplots l from H l.length l le_rfl h
  intro n
  induction n with
  | zero =>
    intro l hl _
    have : l = [] := List.eq_nil_of_length_eq_zero (by omega)
    subst this; rfl
  | succ n ih =>
    intro l hl hp
    rcases l with _ | ⟨x, _ | ⟨y, l⟩⟩
    · rfl
    · simp at hp
    · simp only [List.cons_append, subplots]
      rw [ih l (by simp at hl; omega) (by simp at hp; omega)]

example : subplots [1, 2, 3] = subplots [1, 2] := by decide

end Verif.Script.Plot
