import Verif.Icgem.AskModel
import Verif.Icgem.WriteProps

/-! C157, C158: the program that prints coefficients of a gravity model; the older copy of the reader. -/
namespace Verif.Icgem.Ask

open Verif.Rinex Verif.Text Verif.Harmonic Verif.Icgem Verif.Icgem.Write Verif.Script.Gfc

variable {strtod : Strtod} {val : List Char → List Char → ℚ}

/-! ### Specification -/

/-- What is written for a question about degree `n` and order `k` in a program that has read the model up to degree `l`. -/
def Says (val : List Char → List Char → ℚ) (g : Gfc) (l : Nat) (p : Nat × Nat) (a : Answer) : Prop :=
  if p.1 ≤ l ∧ p.2 ≤ p.1 then
    ∃ q ∈ g.coefs, q.n = p.1 ∧ q.k = p.2 ∧ ∃ s, a = .values p.1 p.2 (val q.c.m q.c.x) s ∧
      (1 ≤ p.2 → s = val q.s.m q.s.x) ∧
      (p.2 = 0 → ∃ q' ∈ g.coefs, q'.n = l - p.1 ∧ q'.k = l - p.1 ∧ s = val q'.c.m q'.c.x)
  else a = .wrong

/-- The words of questions. -/
def words (ps : List (Nat × Nat)) : List (Option Int) := ps.flatMap fun p => [some (p.1 : Int), some (p.2 : Int)]

/-! ### The session -/

theorem session_question (N : Nat) (t : Table) (p : Nat × Nat) (rest : List (Option Int)) :
    session N t (some (p.1 : Int) :: some (p.2 : Int) :: rest) =
      ((if p.1 ≤ N ∧ p.2 ≤ p.1 then .values p.1 p.2 (t (addrC N p.1 p.2)) (t (addrS N p.1 p.2)) else .wrong) ::
        (session N t rest).1, (session N t rest).2) := by
  rw [session, if_neg (by omega)]
  by_cases h : p.1 ≤ N ∧ p.2 ≤ p.1
  · rw [if_pos h, if_neg (by omega)]
    simp
  · rw [if_neg h, if_pos (by omega)]

theorem session_words (N : Nat) (t : Table) (ps : List (Nat × Nat)) (rest : List (Option Int)) :
    session N t (words ps ++ rest) =
      (ps.map (fun p => if p.1 ≤ N ∧ p.2 ≤ p.1 then .values p.1 p.2 (t (addrC N p.1 p.2)) (t (addrS N p.1 p.2)) else .wrong) ++
        (session N t rest).1, (session N t rest).2) := by
  induction ps with
  | nil => rfl
  | cons p ps ih =>
    have : words (p :: ps) ++ rest = some (p.1 : Int) :: some (p.2 : Int) :: (words ps ++ rest) := by simp [words]
    rw [this, session_question, ih]
    rfl

/-- A negative number leaves. -/
theorem session_left (N : Nat) (t : Table) (x y : Int) (rest : List (Option Int)) (h : x < 0 ∨ y < 0) :
    session N t (some x :: some y :: rest) = ([], .left) := by
  rw [session, if_pos h]

/-- Input that ends without a negative number, and a word that is no number, are not noticed: variables that were never set are used
(and the loop goes on for ever if they are not negative). -/
theorem input_end_counterexample (N : Nat) (t : Table) (ps : List (Nat × Nat)) (rest : List (Option Int)) :
    (session N t (words ps)).2 = .indeterminate ∧ (session N t (words ps ++ none :: rest)).2 = .indeterminate := by
  constructor
  · have := session_words N t ps []
    rw [List.append_nil] at this
    rw [this]
    rfl
  · rw [session_words]
    rfl

/-! ### The program on a written file -/

/-- The command line asks for degree `l` of the model. -/
def AsksFor (atoi : List Char → Int) (g : Gfc) (f : List Char) (l : Nat) (argv : List (List Char)) : Prop :=
  (∃ p, argv = [p, f] ∧ l = g.degree) ∨ ∃ p d, argv = [p, f, d] ∧ atoi d = l ∧ 1 ≤ l ∧ l ≤ g.degree

/-- **C157** Missing: nothing but the sine coefficients of order zero, for which the claim is false.  For a written model, any questions
and a negative number at their end, the program prints the coefficients written, and for degrees and orders that were not read the
message. -/
theorem ask_written_partial (hr : ReadsC strtod val) (g : Gfc) (hg : g.Ok val) (atoi : List Char → Int)
    (file : List Char → Option (List Line)) (f : List Char) (hf : file f = some g.lines) (b : Buf) (t : Table) (l : Nat)
    (argv : List (List Char)) (ha : AsksFor atoi g f l argv) (ps : List (Nat × Nat)) (x y : Int) (hxy : x < 0 ∨ y < 0)
    (rest : List (Option Int)) :
    ∃ as, askMain (parseHeader strtod) (parseData strtod) atoi file b t argv (words ps ++ some x :: some y :: rest) = .ran as .left ∧
      List.Forall₂ (Says val g l) ps as := by
  have hl : 1 ≤ l ∧ l ≤ g.degree := by
    rcases ha with ⟨p, -, rfl⟩ | ⟨p, d, -, -, h1, h2⟩
    · exact ⟨hg.degree.1, le_rfl⟩
    · exact ⟨h1, h2⟩
  have hh := header_good hr g hg
  obtain ⟨h, h1, h2⟩ := header_members_partial strtod g.ents fin (g.data 'e') b hh.len hh.ok hh.finEnd hh.finLen hh.finNul
  have eD : h.maxDegree = g.degree := by
    have := (header_says hr g hg).degree
    rw [h2.maxDegree]
    cases hx : lastArg .maxDegree g.ents with
    | none => simp [hx] at this
    | some a =>
      rw [hx, Option.bind_some] at this
      simp [this]
  have hit := written_items hr g hg
  obtain ⟨t', h3, h4, -⟩ := read_complete strtod g.degree l l l (g.data 'e') t hl.1 hl.1 le_rfl le_rfl (by omega)
    (by rw [hit]; exact written_proper g hg l l) (by rw [hit]; exact written_readable g hg l l)
    (by rw [hit]; exact written_complete g hg l l hl.2)
  have hdata : dataLines (Stream.open (g.data 'e')) = g.data 'e' := by
    simp [dataLines, Stream.open, Stream.good]
  have hfile : parseHeader strtod (some g.lines) b = .ret 0 h (Stream.open (g.data 'e')) := h1
  have hmain : askMain (parseHeader strtod) (parseData strtod) atoi file b t argv (words ps ++ some x :: some y :: rest) =
      .ran (session l t' (words ps ++ some x :: some y :: rest)).1 (session l t' (words ps ++ some x :: some y :: rest)).2 := by
    rcases ha with ⟨p, rfl, rfl⟩ | ⟨p, d, rfl, had, -, -⟩
    · unfold askMain
      rw [if_neg (by simp)]
      simp only [List.getD_cons_succ, List.getD_cons_zero, hf, hfile, Option.map_some, hdata, eD]
      simp [h3]
    · unfold askMain
      rw [if_neg (by simp)]
      simp only [List.getD_cons_succ, List.getD_cons_zero, hf, hfile, Option.map_some, hdata, eD, had]
      simp [h3]
  rw [hmain, session_words, session_left l t' x y rest hxy]
  refine ⟨_, rfl, ?_⟩
  rw [List.append_nil, List.forall₂_map_right_iff, List.forall₂_same]
  rintro ⟨n, k⟩ -
  unfold Says
  by_cases hnk : n ≤ l ∧ k ≤ n
  · rw [if_pos hnk, if_pos hnk]
    have fromTable : ∀ n k, n ≤ l → k ≤ n → ∃ q ∈ g.coefs, q.n = n ∧ q.k = k ∧ t' (addrC l n k) = val q.c.m q.c.x ∧
        (1 ≤ k → t' (addrS l n k) = val q.s.m q.s.x) := by
      intro n k hn hk
      obtain ⟨c, s, hgiv, h5, h6⟩ := h4 n k hn hk (by omega)
      obtain ⟨q, hq, rfl, rfl⟩ := (hg.all n k).2 ⟨hk, by omega⟩
      rw [hit] at hgiv
      obtain ⟨rfl, rfl⟩ := written_given g hg q hq c s hgiv
      exact ⟨q, hq, rfl, rfl, h5, h6⟩
    obtain ⟨q, hq, e1, e2, h5, h6⟩ := fromTable n k hnk.1 hnk.2
    refine ⟨q, hq, e1, e2, t' (addrS l n k), by rw [h5], h6, ?_⟩
    intro h0
    obtain ⟨q', hq', e1', e2', h5', -⟩ := fromTable (l - n) (l - n) (by omega) le_rfl
    refine ⟨q', hq', e1', e2', ?_⟩
    have h0' : k = 0 := h0
    subst h0'
    have : addrS l n 0 = addrC l (l - n) (l - n) := by simp [addrS, addrC]
    show t' (addrS l n 0) = _
    rw [this, h5']
  · rw [if_neg hnk, if_neg hnk]

/-- For order zero the program does not print that `S` is zero, but the coefficient `C` of degree and order `l - n`, which is stored
where `S(n, 0)` would be. -/
theorem order_zero_counterexample (N n : Nat) (hn : n ≤ N) (t : Table) (rest : List (Option Int)) :
    ∃ as e, session N t (some (n : Int) :: some 0 :: rest) =
      (.values n 0 (t (addrC N n 0)) (t (addrC N (N - n) (N - n))) :: as, e) := by
  have h := session_question N t (n, 0) rest
  rw [if_pos ⟨hn, Nat.zero_le _⟩] at h
  have : addrS N n 0 = addrC N (N - n) (N - n) := by simp [addrS, addrC]
  rw [this] at h
  exact ⟨_, _, h⟩

/-- A degree above that of the file is refused. -/
theorem ask_degree (hr : ReadsC strtod val) (g : Gfc) (hg : g.Ok val) (atoi : List Char → Int)
    (file : List Char → Option (List Line)) (f p d : List Char) (hf : file f = some g.lines) (b : Buf) (t : Table)
    (hd : (g.degree : Int) < atoi d) (input : List (Option Int)) :
    askMain (parseHeader strtod) (parseData strtod) atoi file b t [p, f, d] input = .failed := by
  have hh := header_good hr g hg
  obtain ⟨h, h1, h2⟩ := header_members_partial strtod g.ents fin (g.data 'e') b hh.len hh.ok hh.finEnd hh.finLen hh.finNul
  have eD : h.maxDegree = g.degree := by
    have := (header_says hr g hg).degree
    rw [h2.maxDegree]
    cases hx : lastArg .maxDegree g.ents with
    | none => simp [hx] at this
    | some a =>
      rw [hx, Option.bind_some] at this
      simp [this]
  have hfile : parseHeader strtod (some g.lines) b = .ret 0 h (Stream.open (g.data 'e')) := h1
  unfold askMain
  rw [if_neg (by simp)]
  simp only [List.getD_cons_succ, List.getD_cons_zero, hf, hfile, Option.map_some, eD]
  have hlen : ([p, f, d] : List (List Char)).length = 3 := rfl
  simp only [hlen, if_true, ne_eq, not_true_eq_false, if_false]
  rw [if_neg (by omega)]
  have : parseData strtod (g.degree : Int) (atoi d).toNat (atoi d).toNat (atoi d).toNat
      (some (dataLines (Stream.open (g.data 'e')))) t = .ret 1 t := by
    unfold parseData
    rw [if_pos (by omega)]
  rw [this]
  rfl

/-- Degree zero, which every file has, addresses coefficients outside the table. -/
theorem degree_zero_counterexample (hr : ReadsC strtod val) (g : Gfc) (hg : g.Ok val) (atoi : List Char → Int)
    (file : List Char → Option (List Line)) (f p d : List Char) (hf : file f = some g.lines) (b : Buf) (t : Table)
    (hd : atoi d = 0) (input : List (Option Int)) :
    askMain (parseHeader strtod) (parseData strtod) atoi file b t [p, f, d] input = .undefined := by
  have hh := header_good hr g hg
  obtain ⟨h, h1, h2⟩ := header_members_partial strtod g.ents fin (g.data 'e') b hh.len hh.ok hh.finEnd hh.finLen hh.finNul
  have eD : h.maxDegree = g.degree := by
    have := (header_says hr g hg).degree
    rw [h2.maxDegree]
    cases hx : lastArg .maxDegree g.ents with
    | none => simp [hx] at this
    | some a =>
      rw [hx, Option.bind_some] at this
      simp [this]
  have hfile : parseHeader strtod (some g.lines) b = .ret 0 h (Stream.open (g.data 'e')) := h1
  unfold askMain
  rw [if_neg (by simp)]
  simp only [List.getD_cons_succ, List.getD_cons_zero, hf, hfile, Option.map_some, eD, hd]
  have hlen : ([p, f, d] : List (List Char)).length = 3 := rfl
  simp only [hlen, if_true, ne_eq, not_true_eq_false, if_false]
  rw [if_neg (by omega)]
  have : parseData strtod (g.degree : Int) (0 : Int).toNat (0 : Int).toNat (0 : Int).toNat
      (some (dataLines (Stream.open (g.data 'e')))) t = .outside := by
    unfold parseData
    have := hg.degree.1
    rw [if_neg (by simp)]
    simp
  rw [this]

/-! ### The two readers -/

/-- Two results of a header: the same members and status; the same position if it was read without an error. -/
inductive Same : HOut → HOut → Prop
  | good (h : Hdr) (s : Stream) : Same (.ret 0 h s) (.ret 0 h s)
  | failed (status : Nat) (h : Hdr) (s s' : Stream) (hs : status ≠ 0) : Same (.ret status h s) (.ret status h s')
  | stale : Same .stale .stale
  | abort : Same .abort .abort

theorem onLineOld_eq (line : List Char) (ks : List Key) (hnd : ks.Nodup) (h : Hdr) :
    onLineOld strtod line ks h = onLine strtod line ks h 0 := by
  induction ks generalizing h with
  | nil => rfl
  | cons k ks ih =>
    have hnd' := List.nodup_cons.1 hnd
    unfold onLineOld onLine
    by_cases hk : strncmpEq k.name.length line k.name = true
    · rw [if_pos hk, if_pos hk]
      cases argument k line with
      | none => rfl
      | some arg =>
        simp only
        have hnone : ∀ h' e, onLine strtod line ks h' e = .ok h' e := fun h' e =>
          onLine_none strtod line ks h' e fun k' hk' hp => by
            have := Key.unique ((strncmpEq_prefix k.name k.name_nul line).1 hk) hp
            subst this
            exact hnd'.1 hk'
        cases onKey strtod h 0 k arg with
        | stale => rfl
        | abort => rfl
        | ok h' e =>
          cases e with
          | zero => simp only; rw [ih hnd'.2]
          | succ e => simp only; rw [hnone]
    · rw [if_neg hk, if_neg hk, ih hnd'.2]

theorem headerLoopOld_same (n : Nat) (s : Stream) (b : Buf) (h : Hdr) :
    Same (headerLoopOld strtod n s b h) (headerLoop strtod n s b h) := by
  induction n generalizing s b h with
  | zero =>
    unfold headerLoopOld headerLoop
    by_cases he : strncmpEq 11 (cstr b 0) "end_of_head".toList = true
    · rw [if_pos he, if_pos he]; exact .good h s
    · rw [if_neg he, if_neg he, onLineOld_eq _ Key.all (by decide) h]
      cases onLine strtod ((cstr b 0).dropWhile (· == ' ')) Key.all h 0 with
      | stale => exact .stale
      | abort => exact .abort
      | ok h' e =>
        simp only
        by_cases h0 : e ≠ 0
        · rw [if_pos h0, if_pos h0]; exact .failed e h' _ _ h0
        · rw [if_neg h0, if_neg h0]; exact .failed 1 h' _ _ (by decide)
  | succ n ih =>
    unfold headerLoopOld headerLoop
    by_cases he : strncmpEq 11 (cstr b 0) "end_of_head".toList = true
    · rw [if_pos he, if_pos he]; exact .good h s
    · rw [if_neg he, if_neg he, onLineOld_eq _ Key.all (by decide) h]
      cases onLine strtod ((cstr b 0).dropWhile (· == ' ')) Key.all h 0 with
      | stale => exact .stale
      | abort => exact .abort
      | ok h' e =>
        simp only
        by_cases h0 : e ≠ 0
        · rw [if_pos h0, if_pos h0]; exact .failed e h' _ _ h0
        · rw [if_neg h0, if_neg h0]; exact ih _ _ _

/-- **C158** Both readers read every header alike: same status, same members, and, where there is no error, the same position of the
data. -/
theorem old_header (file : Option (List Line)) (b : Buf) : Same (parseHeaderOld strtod file b) (parseHeader strtod file b) := by
  cases file with
  | none => exact .failed 1 _ _ _ (by decide)
  | some lines => exact headerLoopOld_same _ _ _ _

/-- **C158** And every data section. -/
theorem old_data (maxDegree : Int) (N l m : Nat) (lines : Option (List Line)) (t : Table) :
    parseDataOld strtod maxDegree N l m lines t = parseData strtod maxDegree N l m lines t := by
  unfold parseDataOld parseData
  by_cases h1 : (l : Int) > maxDegree ∨ m > l
  · rw [if_pos h1, if_pos (by tauto)]
  · rw [if_neg h1]
    by_cases h2 : N < l
    · rw [if_pos h2, if_pos (by tauto)]
    · rw [if_neg h2, if_neg (by tauto)]
      rfl

/-- **C158** So that the program does the same with either, for every file, command line and input. -/
theorem old_program (atoi : List Char → Int) (file : List Char → Option (List Line)) (b : Buf) (t : Table) (argv : List (List Char))
    (input : List (Option Int)) :
    askMain (parseHeaderOld strtod) (parseDataOld strtod) atoi file b t argv input =
      askMain (parseHeader strtod) (parseData strtod) atoi file b t argv input := by
  have hd : parseDataOld strtod = parseData strtod := by
    funext D N l m lines t
    exact old_data D N l m lines t
  rw [hd]
  unfold askMain
  by_cases ha : argv.length ≠ 2 ∧ argv.length ≠ 3
  · rw [if_pos ha, if_pos ha]
  · rw [if_neg ha, if_neg ha]
    have hs := old_header (strtod := strtod) (file (argv.getD 1 [])) b
    generalize parseHeaderOld strtod (file (argv.getD 1 [])) b = o at hs
    generalize parseHeader strtod (file (argv.getD 1 [])) b = o' at hs
    cases hs with
    | good h s => rfl
    | failed st h s s' hst => simp only; rw [if_pos hst, if_pos hst]
    | stale => rfl
    | abort => rfl

/-! ### Examples -/

/-- The program on the model of the examples: one question that is answered, one that is refused. -/
example (b : Buf) (t : Table) :=
  ask_written_partial someStrtod_reads model1 model1_ok (fun _ => 1) (fun _ => some model1.lines) "m".toList rfl b t 1
    ["p".toList, "m".toList] (.inl ⟨_, rfl, rfl⟩) [(1, 1), (2, 0)] (-1) 0 (.inl (by decide)) []

example (b : Buf) (t : Table) :=
  ask_written_partial someStrtod_reads model1 model1_ok (fun _ => 1) (fun _ => some model1.lines) "m".toList rfl b t 1
    ["p".toList, "m".toList, "1".toList] (.inr ⟨_, _, rfl, rfl, le_rfl, le_rfl⟩) [(0, 0)] 0 (-1) (.inr (by decide)) []

example (b : Buf) (t : Table) :=
  ask_degree someStrtod_reads model1 model1_ok (fun _ => 2) (fun _ => some model1.lines) "m".toList "p".toList "2".toList rfl b t
    (by decide) []

example (b : Buf) (t : Table) :=
  degree_zero_counterexample someStrtod_reads model1 model1_ok (fun _ => 0) (fun _ => some model1.lines) "m".toList "p".toList
    "0".toList rfl b t rfl []

/-- For degree 1 of a table of degree 2, `S` is said to be `C(1, 1)`. -/
example : session 2 (fun a => if a = addrC 2 1 1 then 7 else 0) [some 1, some 0, some (-1), some 0] = ([.values 1 0 0 7], .left) := by
  decide +kernel

/-- Input that ends. -/
example : session 2 (fun _ => 0) [some 1, some 0] = ([.values 1 0 0 0], .indeterminate) := by decide +kernel

/-- A header with an error: both readers give it up. -/
example (b : Buf) : parseHeaderOld someStrtod none b = parseHeader someStrtod none b := rfl

end Verif.Icgem.Ask
