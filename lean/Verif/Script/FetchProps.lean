import Verif.Script.FetchModel
import Mathlib.Tactic.Linarith
import Mathlib.Algebra.Order.Group.Unbundled.Abs
import Mathlib.Algebra.Order.Ring.Int

/-!
C127: the file that `fetch_iers_c04.py` writes for a date `t` and a limit of `N` days holds all days from
`t - N` to `t + N`.

It does exactly when both ends of the interval lie strictly inside a bulletin (neither its first nor its
last day) and the interval meets at most two bulletins (`fetch_covers_iff`).  Otherwise the script loops
without end, raises an exception, or ends with an incomplete file.
-/
namespace Verif.Script.Fetch

/-- The days from `a` to `b` are all in one of the files. -/
def Covers (fs : List File) (a b : Int) : Prop :=
  ∀ x, a ≤ x → x ≤ b → ∃ f ∈ fs, f.t0 ≤ x ∧ x ≤ f.tn

/-- Bulletins of about a month each, without gap or overlap: `d i` is the first day of bulletin `i`. -/
structure Monthly (srv : Server) (d : Int → Int) : Prop where
  span : ∀ i, srv i = some (d i, d (i + 1) - 1)
  lo : ∀ i, 28 ≤ d (i + 1) - d i
  hi : ∀ i, d (i + 1) - d i ≤ 31

/-- Day `x` belongs to bulletin `i`. -/
def In (d : Int → Int) (x i : Int) : Prop := d i ≤ x ∧ x < d (i + 1)

/-- Day `x` is neither the first nor the last of bulletin `i`. -/
def Inside (d : Int → Int) (x i : Int) : Prop := d i < x ∧ x < d (i + 1) - 1

instance (d : Int → Int) (x i : Int) : Decidable (Inside d x i) := inferInstanceAs (Decidable (_ ∧ _))

/-- Bulletin `i` as entry of the dictionary. -/
def bul (d : Int → Int) (i : Int) : File := ⟨i, d i, d (i + 1) - 1⟩

variable {srv : Server} {d : Int → Int}

theorem Monthly.diff (h : Monthly srv d) (i : Int) (k : Nat) :
    28 * (k : Int) ≤ d (i + k) - d i ∧ d (i + k) - d i ≤ 31 * k := by
  induction k with
  | zero => simp
  | succ k ih =>
    have h1 := h.lo (i + k)
    have h2 := h.hi (i + k)
    have e : i + ((k + 1 : Nat) : Int) = i + k + 1 := by push_cast; omega
    rw [e]
    push_cast
    constructor <;> omega

theorem Monthly.diff' (h : Monthly srv d) (i j : Int) (hij : i ≤ j) :
    28 * (j - i) ≤ d j - d i ∧ d j - d i ≤ 31 * (j - i) := by
  obtain ⟨k, rfl⟩ := Int.le.dest hij
  have := h.diff i k
  constructor <;> omega

theorem Monthly.lt (h : Monthly srv d) {i j : Int} (hij : i < j) : d i < d j := by
  have := (h.diff' i j hij.le).1
  omega

theorem Monthly.le (h : Monthly srv d) {i j : Int} (hij : i ≤ j) : d i ≤ d j := by
  have := (h.diff' i j hij).1
  omega

theorem Monthly.lt_of (h : Monthly srv d) {i j : Int} (hij : d i < d j) : i < j := by
  rcases lt_or_ge i j with g | g
  · exact g
  · have := h.le g
    omega

/-- A day belongs to one bulletin only. -/
theorem Monthly.unique (h : Monthly srv d) {x i j : Int} (hi : In d x i) (hj : In d x j) : i = j := by
  have h1 : i < j + 1 := h.lt_of (lt_of_le_of_lt hi.1 hj.2)
  have h2 : j < i + 1 := h.lt_of (lt_of_le_of_lt hj.1 hi.2)
  omega

theorem Inside.inn {x i : Int} (h : Inside d x i) : In d x i := ⟨h.1.le, by have := h.2; omega⟩

/-- One pass of the loop, written out. -/
theorem run_succ (ts te : Int) (n : Nat) (s : St) (hg : goesOn s = true) :
    run srv ts te (n + 1) s = match body srv ts te s with
      | none => .raised
      | some s' => run srv ts te n s' := by
  rw [run, if_pos hg]
  rfl

theorem run_stop (ts te : Int) (n : Nat) (s : St) (hg : goesOn s = false) :
    run srv ts te (n + 1) s = .done s := by
  rw [run, if_neg (by rw [hg]; exact Bool.false_ne_true)]

theorem goesOn_prior {s : St} (h : s.prior = false) : goesOn s = true := by
  simp [goesOn, h]

/-- A set of states that the loop does not leave and in which it does not end. -/
theorem never_done (ts te : Int) (I : St → Prop) (hgo : ∀ s, I s → goesOn s = true)
    (hst : ∀ s s', I s → body srv ts te s = some s' → I s') (n : Nat) (s s' : St) (h : I s) :
    run srv ts te n s ≠ .done s' := by
  induction n generalizing s with
  | zero => simp [run]
  | succ n ih =>
    rw [run_succ ts te n s (hgo s h)]
    cases e : body srv ts te s with
    | none => simp
    | some s1 => exact ih s1 (hst s s1 h e)

/-- What holds of the variables of every state holds when the loop ends. -/
theorem done_inv (ts te : Int) (I : St → Prop)
    (hst : ∀ s s', I s → body srv ts te s = some s' → I s') (n : Nat) (s s' : St) (h : I s)
    (hd : run srv ts te n s = .done s') : I s' ∧ goesOn s' = false := by
  induction n generalizing s with
  | zero => simp [run] at hd
  | succ n ih =>
    cases hg : goesOn s with
    | false =>
      rw [run_stop ts te n s hg] at hd
      cases hd
      exact ⟨h, hg⟩
    | true =>
      rw [run_succ ts te n s hg] at hd
      cases e : body srv ts te s with
      | none => rw [e] at hd; simp at hd
      | some s1 =>
        rw [e] at hd
        exact ih s1 (hst s s1 h e) hd

/-- What the body leaves in the variables. -/
theorem body_some (h : Monthly srv d) (ts te : Int) (s s' : St) (hb : body srv ts te s = some s') :
    s'.prior = (s.prior || decide (d s.guess < ts ∧ ts < d (s.guess + 1) - 1)) ∧
    s'.post = (s.post || decide (d s.guess < te ∧ te < d (s.guess + 1) - 1)) ∧
    (s'.files = s.files ∨ (s'.files = put s.files (bul d s.guess) ∧
      (d s.guess < ts ∧ ts < d (s.guess + 1) - 1 ∨ d s.guess < te ∧ te < d (s.guess + 1) - 1))) ∧
    (d s.guess > ts ∨ d (s.guess + 1) - 1 < te ∨ (s'.prior = true ∧ s'.post = true)) := by
  unfold body at hb
  rw [h.span] at hb
  simp only at hb
  generalize hA : (!s.prior && (decide (d s.guess < ts) && decide (ts < d (s.guess + 1) - 1))) = A at hb
  generalize hB : (!s.post && (decide (d s.guess < te) && decide (te < d (s.guess + 1) - 1))) = B at hb
  have hp : (s.prior || A) = (s.prior || decide (d s.guess < ts ∧ ts < d (s.guess + 1) - 1)) := by
    rw [← hA, Bool.decide_and]
    cases s.prior <;> simp
  have hq : (s.post || B) = (s.post || decide (d s.guess < te ∧ te < d (s.guess + 1) - 1)) := by
    rw [← hB, Bool.decide_and]
    cases s.post <;> simp
  have hf : ((if (A || B) = true then put s.files ⟨s.guess, d s.guess, d (s.guess + 1) - 1⟩ else s.files)
        = s.files ∨
      ((if (A || B) = true then put s.files ⟨s.guess, d s.guess, d (s.guess + 1) - 1⟩ else s.files)
        = put s.files (bul d s.guess) ∧
      (d s.guess < ts ∧ ts < d (s.guess + 1) - 1 ∨ d s.guess < te ∧ te < d (s.guess + 1) - 1))) := by
    cases A with
    | true =>
      right
      refine ⟨rfl, .inl ?_⟩
      simp only [Bool.and_eq_true, decide_eq_true_eq] at hA
      exact hA.2
    | false =>
      cases B with
      | true =>
        right
        refine ⟨rfl, .inr ?_⟩
        simp only [Bool.and_eq_true, decide_eq_true_eq] at hB
        exact hB.2
      | false => left; rfl
  split at hb
  · rename_i c
    cases hb
    exact ⟨hp, hq, hf, .inl c⟩
  · split at hb
    · rename_i c
      cases hb
      exact ⟨hp, hq, hf, .inr (.inl c)⟩
    · split at hb
      · rename_i c
        cases hb
        simp only [Bool.and_eq_true] at c
        exact ⟨hp, hq, hf, .inr (.inr c)⟩
      · simp at hb

/-- **C127** The dictionary of files: after an entry is set its name has that entry, all other names have what they had, and no
name is added twice. -/
theorem put_spec (fs : List File) (f : File) :
    (put fs f).find? (·.nr == f.nr) = some f ∧
      (∀ n, n ≠ f.nr → (put fs f).find? (·.nr == n) = fs.find? (·.nr == n)) ∧
      ((fs.map File.nr).Nodup → ((put fs f).map File.nr).Nodup) := by
  have hmap : ∀ (l : List File), (l.map fun g => if g.nr == f.nr then f else g).map File.nr = l.map File.nr := by
    intro l
    induction l with
    | nil => rfl
    | cons g l ih =>
      rw [List.map_cons, List.map_cons, List.map_cons, ih]
      congr 1
      split
      · rename_i h; exact (beq_iff_eq.1 h).symm
      · rfl
  unfold put
  split
  · rename_i hany
    refine ⟨?_, ?_, fun hn => by rw [hmap]; exact hn⟩
    · clear hmap
      induction fs with
      | nil => simp at hany
      | cons g l ih =>
        by_cases hg : g.nr = f.nr
        · simp [hg]
        · have : l.any (·.nr == f.nr) = true := by simpa [hg] using hany
          simp only [List.map_cons, beq_iff_eq, if_neg hg] at ih ⊢
          rw [List.find?_cons_of_neg (by simpa using hg)]
          exact ih this
    · intro n hn
      clear hmap hany
      induction fs with
      | nil => rfl
      | cons g l ih =>
        by_cases hg : g.nr = f.nr
        · have h1 : ¬ f.nr = n := fun h => hn h.symm
          have h2 : ¬ g.nr = n := fun h => h1 (hg ▸ h)
          simp only [List.map_cons, beq_iff_eq, if_pos hg] at ih ⊢
          rw [List.find?_cons_of_neg (by simpa using h1), List.find?_cons_of_neg (by simpa using h2)]
          exact ih
        · simp only [List.map_cons, beq_iff_eq, if_neg hg] at ih ⊢
          rw [List.find?_cons, List.find?_cons, ih]
  · rename_i hany
    have hno : ∀ g ∈ fs, ¬ g.nr = f.nr := by
      intro g hg h
      apply hany
      rw [List.any_eq_true]
      exact ⟨g, hg, by simpa using h⟩
    refine ⟨?_, ?_, ?_⟩
    · rw [List.find?_append, List.find?_eq_none.2 (fun g hg => by simpa using hno g hg)]
      simp
    · intro n hn
      have h1 : ¬ f.nr = n := fun h => hn h.symm
      rw [List.find?_append]
      simp [h1]
    · intro hn
      rw [List.map_append, List.map_cons, List.map_nil, List.nodup_append]
      refine ⟨hn, by simp, ?_⟩
      intro a ha b hb hab
      rw [List.mem_singleton] at hb
      obtain ⟨g, hg, rfl⟩ := List.mem_map.1 ha
      exact hno g hg (hab.trans hb)

/-- **C127** The first guess: bulletin 252 for the 31 days from 12 December 2008 (day 54812) on, one more for every further 31
days, one less for every 31 days before. -/
theorem first_guess (k r : Int) (h0 : 0 ≤ r) (h1 : r < 31) : firstGuess (54812 + 31 * k + r) = 252 + k := by
  unfold firstGuess firstDate
  rw [Int.fdiv_eq_ediv_of_nonneg _ (by norm_num)]
  omega

theorem mem_put {fs : List File} {f g : File} (h : g ∈ put fs f) : g ∈ fs ∨ g = f := by
  unfold put at h
  split at h
  · rw [List.mem_map] at h
    obtain ⟨x, hx, e⟩ := h
    split at e
    · exact .inr e.symm
    · exact .inl (e ▸ hx)
  · simpa using h

/-- The order of the merged files does not matter for what they hold. -/
theorem mem_sortLoop (fs lst : List File) (ct : Option Int) (f : File) :
    f ∈ sortLoop fs lst ct ↔ f ∈ fs ∨ f ∈ lst := by
  induction fs generalizing lst ct with
  | nil => simp [sortLoop]
  | cons g fs ih =>
    simp only [sortLoop]
    split
    · rw [ih]
      simp only [List.mem_cons]
      tauto
    · rw [ih]
      simp only [List.mem_cons, List.mem_append, List.not_mem_nil, or_false]
      tauto

theorem mem_sorted (fs : List File) (f : File) : f ∈ sorted fs ↔ f ∈ fs := by
  unfold sorted
  rw [mem_sortLoop]
  simp

/-- A start of the interval on the first or last day of a bulletin: the loop does not end. -/
theorem edge_start (h : Monthly srv d) {ts te i : Int} (hi : In d ts i) (he : ¬ Inside d ts i) (n : Nat)
    (g : Int) (s' : St) : run srv ts te n (start g) ≠ .done s' := by
  refine never_done ts te (fun s => s.prior = false) (fun s hs => goesOn_prior hs) ?_ n (start g) s' rfl
  intro s s1 hs hb
  have hp := (body_some h ts te s s1 hb).1
  rw [hp, hs]
  simp only [Bool.false_or, decide_eq_false_iff_not]
  intro hin
  have : Inside d ts s.guess := hin
  rw [h.unique this.inn hi] at this
  exact he this

/-- An end of the interval on the last day of the bulletin that holds its start: the loop does not end
regularly. -/
theorem edge_end_same (h : Monthly srv d) {ts te i : Int} (hi : In d ts i) (hj : In d te i)
    (he : ¬ Inside d te i) (n : Nat) (g : Int) (s' : St) : run srv ts te n (start g) ≠ .done s' := by
  refine never_done ts te (fun s => s.prior = false ∧ s.post = false) (fun s hs => goesOn_prior hs.1) ?_ n
    (start g) s' ⟨rfl, rfl⟩
  intro s s1 hs hb
  obtain ⟨hp, hq, -, hc⟩ := body_some h ts te s s1 hb
  have hq' : s1.post = false := by
    rw [hq, hs.2]
    simp only [Bool.false_or, decide_eq_false_iff_not]
    intro hin
    have : Inside d te s.guess := hin
    rw [h.unique this.inn hj] at this
    exact he this
  refine ⟨?_, hq'⟩
  rw [hp, hs.1]
  simp only [Bool.false_or, decide_eq_false_iff_not]
  intro hin
  have h1 : Inside d ts s.guess := hin
  have e := h.unique h1.inn hi
  rw [e] at hc
  rcases hc with c | c | c
  · have := hi.1
    omega
  · have := hj.2
    omega
  · rw [hq'] at c
    simp at c

/-- Only bulletins in whose inside one of the ends lies are ever kept. -/
theorem kept (h : Monthly srv d) {ts te : Int} (n : Nat) (g : Int) (s' : St)
    (hd : run srv ts te n (start g) = .done s') :
    ∀ f ∈ s'.files, ∃ k, f = bul d k ∧ (Inside d ts k ∨ Inside d te k) := by
  refine (done_inv ts te (fun s => ∀ f ∈ s.files, ∃ k, f = bul d k ∧ (Inside d ts k ∨ Inside d te k))
    ?_ n (start g) s' ?_ hd).1
  · intro s s1 hs hb f hf
    obtain ⟨-, -, hc, -⟩ := body_some h ts te s s1 hb
    rcases hc with e | ⟨e, hin⟩
    · rw [e] at hf
      exact hs f hf
    · rw [e] at hf
      rcases mem_put hf with hf | hf
      · exact hs f hf
      · exact ⟨s.guess, hf, hin⟩
  · intro f hf
    simp [start] at hf

/-- When the merged file holds the interval, its ends lie inside bulletins, at most two in number. -/
theorem covers_only_if (h : Monthly srv d) {ts te i j : Int} (hle : ts ≤ te) (hi : In d ts i)
    (hj : In d te j) (n : Nat) (g : Int) (s' : St) (hd : run srv ts te n (start g) = .done s')
    (hc : Covers s'.files ts te) : Inside d ts i ∧ Inside d te j ∧ j ≤ i + 1 := by
  have hs : Inside d ts i := by
    by_contra hn
    exact edge_start h hi hn n g s' hd
  have hij : i ≤ j := by
    have : d i < d (j + 1) := by have := hi.1; have := hj.2; omega
    have := h.lt_of this
    omega
  have he : Inside d te j := by
    by_contra hn
    rcases eq_or_lt_of_le hij with e | e
    · subst e
      exact edge_end_same h hi hj hn n g s' hd
    · obtain ⟨f, hf, h1, h2⟩ := hc te hle le_rfl
      obtain ⟨k, rfl, hk⟩ := kept h n g s' hd f hf
      rcases hk with hk | hk
      · have := h.unique hk.inn hi
        subst this
        have h3 : te ≤ d (k + 1) - 1 := h2
        have h4 : d (k + 1) ≤ d j := h.le e
        have := hj.1
        omega
      · have := h.unique hk.inn hj
        subst this
        exact hn hk
  refine ⟨hs, he, ?_⟩
  by_contra hgap
  have h1 : d (i + 1) < d (i + 2) := h.lt (by omega)
  have h2 : d (i + 2) ≤ d j := h.le (by omega)
  obtain ⟨f, hf, h3, h4⟩ := hc (d (i + 1)) (by have := hi.2; omega) (by have := hj.1; omega)
  obtain ⟨k, rfl, hk⟩ := kept h n g s' hd f hf
  have h3' : d k ≤ d (i + 1) := h3
  have h4' : d (i + 1) ≤ d (k + 1) - 1 := h4
  rcases hk with hk | hk
  · have := h.unique hk.inn hi
    subst this
    omega
  · have := h.unique hk.inn hj
    subst this
    omega

/-! ### The loop finds the bulletins -/

/-- `k` passes lead from `s` to `s'`. -/
def Steps (srv : Server) (ts te : Int) (k : Nat) (s s' : St) : Prop :=
  ∀ m, run srv ts te (m + k) s = run srv ts te m s'

theorem Steps.refl (ts te : Int) (s : St) : Steps srv ts te 0 s s := fun _ => rfl

theorem Steps.cons {ts te : Int} {k : Nat} {s s1 s2 : St} (hg : goesOn s = true)
    (hb : body srv ts te s = some s1) (h : Steps srv ts te k s1 s2) : Steps srv ts te (k + 1) s s2 := by
  intro m
  have e : m + (k + 1) = (m + k) + 1 := rfl
  rw [e, run_succ ts te _ s hg, hb]
  exact h m

/-- On the way to the bulletin `i` of the start: the start is not yet found, the bulletin `j` of the end
may have been passed. -/
def OnWay (d : Int → Int) (j : Int) (s : St) : Prop :=
  s.prior = false ∧ ((s.post = false ∧ s.files = []) ∨ (s.post = true ∧ s.files = [bul d j]))

theorem body_down (h : Monthly srv d) {ts te : Int} (s : St) (hd : d s.guess > ts) :
    ∃ s', body srv ts te s = some s' ∧ s'.guess = s.guess - 1 ∧ s'.it = s.it + 1 := by
  unfold body
  rw [h.span]
  simp only
  rw [if_pos hd]
  exact ⟨_, rfl, rfl, rfl⟩

theorem body_up (h : Monthly srv d) {ts te : Int} (s : St) (hd : ¬ d s.guess > ts)
    (hu : d (s.guess + 1) - 1 < te) :
    ∃ s', body srv ts te s = some s' ∧ s'.guess = s.guess + 1 ∧ s'.it = s.it + 1 := by
  unfold body
  rw [h.span]
  simp only
  rw [if_neg hd, if_pos hu]
  exact ⟨_, rfl, rfl, rfl⟩

/-- The files after a pass, written out. -/
theorem body_files (h : Monthly srv d) (ts te : Int) (s s' : St) (hb : body srv ts te s = some s') :
    s'.files = if (!s.prior && decide (Inside d ts s.guess)) || (!s.post && decide (Inside d te s.guess))
      then put s.files (bul d s.guess) else s.files := by
  unfold body at hb
  rw [h.span] at hb
  simp only at hb
  have e1 : decide (Inside d ts s.guess) = (decide (d s.guess < ts) && decide (ts < d (s.guess + 1) - 1)) :=
    Bool.decide_and _ _
  have e2 : decide (Inside d te s.guess) = (decide (d s.guess < te) && decide (te < d (s.guess + 1) - 1)) :=
    Bool.decide_and _ _
  rw [e1, e2]
  split at hb
  · cases hb; rfl
  · split at hb
    · cases hb; rfl
    · split at hb
      · cases hb; rfl
      · simp at hb

theorem onWay_step (h : Monthly srv d) {ts te i j : Int} (hi : In d ts i) (hj : In d te j) (s s' : St)
    (hs : OnWay d j s) (hg : s.guess ≠ i) (hb : body srv ts te s = some s') : OnWay d j s' := by
  obtain ⟨hp, hq, -, -⟩ := body_some h ts te s s' hb
  have hf := body_files h ts te s s' hb
  have hA : ¬ Inside d ts s.guess := fun hin => hg (h.unique hin.inn hi)
  refine ⟨?_, ?_⟩
  · rw [hp, hs.1]
    simp only [Bool.false_or, decide_eq_false_iff_not]
    exact hA
  · rw [hs.1, decide_eq_false hA] at hf
    simp only [Bool.not_false, Bool.and_false, Bool.false_or] at hf
    rcases hs.2 with ⟨h1, h2⟩ | ⟨h1, h2⟩
    · by_cases hB : Inside d te s.guess
      · right
        have e := h.unique hB.inn hj
        rw [h1, h2, decide_eq_true hB] at hf
        refine ⟨?_, ?_⟩
        · rw [hq, h1, Bool.false_or, decide_eq_true_eq]
          exact hB
        · rw [hf, e]
          rfl
      · left
        rw [h1, h2, decide_eq_false hB] at hf
        refine ⟨?_, by simpa using hf⟩
        rw [hq, h1]
        simp only [Bool.false_or, decide_eq_false_iff_not]
        exact hB
    · right
      rw [h1] at hf
      refine ⟨by rw [hq, h1]; rfl, ?_⟩
      rw [hf, h2]
      rfl

/-- From any guess, as many passes as bulletins lie between lead to the bulletin of the start. -/
theorem approach (h : Monthly srv d) {ts te i j : Int} (hle : ts ≤ te) (hi : In d ts i) (hj : In d te j)
    (k : Nat) (s : St) (hs : OnWay d j s) (hk : s.guess = i + k ∨ s.guess = i - k) :
    ∃ s', Steps srv ts te k s s' ∧ OnWay d j s' ∧ s'.guess = i ∧ s'.it = s.it + k := by
  induction k generalizing s with
  | zero => exact ⟨s, Steps.refl ts te s, hs, by simpa using hk, rfl⟩
  | succ k ih =>
    have hne : s.guess ≠ i := by push_cast at hk; omega
    have key : ∃ s1, body srv ts te s = some s1 ∧ (s1.guess = i + k ∨ s1.guess = i - k) ∧
        s1.it = s.it + 1 := by
      rcases hk with e | e
      · have hlt : d (i + 1) ≤ d s.guess := h.le (by push_cast at e; omega)
        obtain ⟨s1, h1, h2, h3⟩ := body_down (te := te) h s (ts := ts) (by have := hi.2; omega)
        exact ⟨s1, h1, .inl (by push_cast at e; omega), h3⟩
      · have hlt : d (s.guess + 1) ≤ d i := h.le (by push_cast at e; omega)
        have hlt2 : d s.guess < d (s.guess + 1) := h.lt (by omega)
        obtain ⟨s1, h1, h2, h3⟩ := body_up (te := te) h s (ts := ts) (by have := hi.1; omega)
          (by have := hi.1; omega)
        exact ⟨s1, h1, .inr (by push_cast at e; omega), h3⟩
    obtain ⟨s1, h1, h2, h3⟩ := key
    obtain ⟨s', h4, h5, h6, h7⟩ := ih s1 (onWay_step h hi hj s s1 hs hne h1) h2
    exact ⟨s', Steps.cons (goesOn_prior hs.1) h1 h4, h5, h6, by omega⟩

theorem put_same (f : File) : put [f] f = [f] := by
  unfold put
  simp

theorem put_new (f g : File) (h : f.nr ≠ g.nr) : put [f] g = [f, g] := by
  unfold put
  simp [h]

/-- At the bulletin of the start, when the end lies in the same one. -/
theorem finish_same (h : Monthly srv d) {ts te i : Int} (hi : Inside d ts i) (hj : Inside d te i) (s : St)
    (hs : OnWay d i s) (hg : s.guess = i) :
    ∃ s', run srv ts te 2 s = .done s' ∧ s'.files = [bul d i] := by
  have h1 : ¬ d s.guess > ts := by rw [hg]; have := hi.1; omega
  have h2 : ¬ d (s.guess + 1) - 1 < te := by rw [hg]; have := hj.2; omega
  cases e : body srv ts te s with
  | none =>
    exfalso
    unfold body at e
    rw [h.span] at e
    simp only at e
    rw [if_neg h1, if_neg h2] at e
    have a : decide (d s.guess < ts) = true := by rw [hg]; exact decide_eq_true hi.1
    have b : decide (ts < d (s.guess + 1) - 1) = true := by rw [hg]; exact decide_eq_true hi.2
    have a' : decide (d s.guess < te) = true := by rw [hg]; exact decide_eq_true hj.1
    have b' : decide (te < d (s.guess + 1) - 1) = true := by rw [hg]; exact decide_eq_true hj.2
    rw [a, b, a', b'] at e
    simp at e
  | some s1 =>
    obtain ⟨hp, hq, -, hc⟩ := body_some h ts te s s1 e
    have hf := body_files h ts te s s1 e
    have hpp : s1.prior = true := by
      rw [hp, hg, decide_eq_true (show d i < ts ∧ ts < d (i + 1) - 1 from hi), Bool.or_true]
    have hqq : s1.post = true := by
      rw [hq, hg, decide_eq_true (show d i < te ∧ te < d (i + 1) - 1 from hj), Bool.or_true]
    refine ⟨s1, ?_, ?_⟩
    · rw [run_succ ts te 1 s (goesOn_prior hs.1), e]
      exact run_stop ts te 0 s1 (by simp [goesOn, hpp, hqq])
    · rw [hf, hg, decide_eq_true hi, hs.1]
      simp only [Bool.not_false, Bool.and_self, Bool.true_or, if_true]
      rcases hs.2 with ⟨-, h4⟩ | ⟨-, h4⟩
      · rw [h4]; rfl
      · rw [h4, put_same]

/-- At the bulletin of the start, when the end lies in the next one. -/
theorem finish_next (h : Monthly srv d) {ts te i : Int} (hi : Inside d ts i) (hj : Inside d te (i + 1))
    (s : St) (hs : OnWay d (i + 1) s) (hg : s.guess = i) (hit : s.it < 999) :
    ∃ n s', run srv ts te n s = .done s' ∧
      (s'.files = [bul d i, bul d (i + 1)] ∨ s'.files = [bul d (i + 1), bul d i]) := by
  have hmid : d (i + 1) < d (i + 1 + 1) := h.lt (by omega)
  have h1 : ¬ d s.guess > ts := by rw [hg]; have := hi.1; omega
  have h2 : d (s.guess + 1) - 1 < te := by rw [hg]; have := hj.1; omega
  obtain ⟨s1, e, hg1, hit1⟩ := body_up h s h1 h2
  obtain ⟨hp, hq, -, -⟩ := body_some h ts te s s1 e
  have hf := body_files h ts te s s1 e
  have hpp : s1.prior = true := by
    rw [hp, hg, decide_eq_true (show d i < ts ∧ ts < d (i + 1) - 1 from hi), Bool.or_true]
  have hnB : ¬ Inside d te i := fun hin => by have := h.unique hin.inn hj.inn; omega
  have hqq : s1.post = s.post := by
    rw [hq, hg, decide_eq_false (show ¬ (d i < te ∧ te < d (i + 1) - 1) from hnB), Bool.or_false]
  rw [hs.1, hg, decide_eq_true hi, decide_eq_false hnB] at hf
  simp only [Bool.not_false, Bool.and_self, Bool.true_or, if_true] at hf
  rcases hs.2 with ⟨h3, h4⟩ | ⟨h3, h4⟩
  · -- the end has not been met: one more bulletin
    rw [h4] at hf
    have hf1 : s1.files = [bul d i] := hf
    have hgo : goesOn s1 = true := by
      have : s1.it < 1000 := by omega
      simp [goesOn, hqq, h3, this]
    have hgg : s1.guess = i + 1 := by omega
    obtain ⟨s2, e2, -, -⟩ := body_down (te := te) h s1 (ts := ts) (by rw [hgg]; have := hi.2; omega)
    obtain ⟨hp2, hq2, -, -⟩ := body_some h ts te s1 s2 e2
    have hf2 := body_files h ts te s1 s2 e2
    rw [hgg] at hp2 hq2 hf2
    have hpp2 : s2.prior = true := by rw [hp2, hpp, Bool.true_or]
    have hqq2 : s2.post = true := by
      rw [hq2, decide_eq_true (show d (i + 1) < te ∧ te < d (i + 1 + 1) - 1 from hj), Bool.or_true]
    rw [hqq, h3, decide_eq_true hj, hf1] at hf2
    simp only [Bool.not_false, Bool.and_self, Bool.or_true, if_true] at hf2
    refine ⟨3, s2, ?_, .inl ?_⟩
    · rw [run_succ ts te 2 s (goesOn_prior hs.1), e]
      simp only
      rw [run_succ ts te 1 s1 hgo, e2]
      exact run_stop ts te 0 s2 (by simp [goesOn, hpp2, hqq2])
    · rw [hf2]
      exact put_new _ _ (by simp [bul])
  · refine ⟨2, s1, ?_, .inr ?_⟩
    · rw [run_succ ts te 1 s (goesOn_prior hs.1), e]
      exact run_stop ts te 0 s1 (by simp [goesOn, hpp, hqq, h3])
    · rw [hf, h4]
      exact put_new _ _ (by simp [bul])

/-- Two files come out in the order of their first days. -/
theorem sorted_two (f g : File) : sorted [f, g] = if g.t0 < f.t0 then [g, f] else [f, g] := by
  unfold sorted
  simp only [sortLoop, before, decide_eq_true_eq]
  split <;> simp

theorem sorted_one (f : File) : sorted [f] = [f] := rfl

theorem covers_mono {fs gs : List File} {a b : Int} (h : ∀ f ∈ fs, f ∈ gs) (hc : Covers fs a b) :
    Covers gs a b := by
  intro x h1 h2
  obtain ⟨f, hf, h3⟩ := hc x h1 h2
  exact ⟨f, h f hf, h3⟩

/-- The first guess is near enough for the limit of 1000 passes. -/
theorem guess_near (h : Monthly srv d) {ts i : Int} (hi : In d ts i) (h252 : |d 252 - firstDate| ≤ 3100)
    (hts : |ts - firstDate| ≤ 100000) :
    ∃ k : Nat, k < 998 ∧ (firstGuess ts = i + k ∨ firstGuess ts = i - k) := by
  rw [abs_le] at h252 hts
  have e : firstGuess ts = 252 + (ts - firstDate) / 31 := by
    unfold firstGuess
    rw [Int.fdiv_eq_ediv_of_nonneg _ (by norm_num)]
  have key : |firstGuess ts - i| < 998 := by
    rw [abs_lt, e]
    have hlo := hi.1
    have hhi := hi.2
    rcases le_total 252 i with c | c
    · have h1 := h.diff' 252 i c
      have h2 := h.diff' 252 (i + 1) (by omega)
      constructor <;> omega
    · have h1 := h.diff' i 252 c
      rcases eq_or_lt_of_le c with c' | c'
      · subst c'
        have h2 := h.diff' 252 (252 + 1) (by omega)
        constructor <;> omega
      · have h2 := h.diff' (i + 1) 252 (by omega)
        constructor <;> omega
  refine ⟨(firstGuess ts - i).natAbs, ?_, ?_⟩
  · rw [abs_lt] at key
    omega
  · omega

/-- The script ends with the bulletins of both ends, in chronological order. -/
theorem fetch_finds (h : Monthly srv d) {t limit i j : Int} (hle : 0 ≤ limit) (hi : Inside d (t - limit) i)
    (hj : Inside d (t + limit) j) (hij : j ≤ i + 1) (h252 : |d 252 - firstDate| ≤ 3100)
    (hts : |t - limit - firstDate| ≤ 100000) :
    ∃ n, fetch srv t limit n = some (if j = i then [bul d i] else [bul d i, bul d j]) := by
  have hij' : i ≤ j := by
    have : d i < d (j + 1) := by have := hi.1; have := hj.2; omega
    have := h.lt_of this
    omega
  obtain ⟨k, hk, hgk⟩ := guess_near h hi.inn h252 hts
  obtain ⟨s, h1, h2, h3, h4⟩ := approach h (by omega) hi.inn hj.inn k (start (firstGuess (t - limit)))
    ⟨rfl, .inl ⟨rfl, rfl⟩⟩ hgk
  have h4' : s.it = k := by rw [h4]; simp [start]
  rcases eq_or_lt_of_le hij' with c | c
  · subst c
    obtain ⟨s', h5, h6⟩ := finish_same h hi hj s h2 h3
    refine ⟨2 + k, ?_⟩
    unfold fetch
    rw [h1 2, h5]
    simp only [h6, if_pos, sorted_one]
  · have c' : j = i + 1 := by omega
    subst c'
    obtain ⟨n, s', h5, h6⟩ := finish_next h hi hj s h2 h3 (by omega)
    refine ⟨n + k, ?_⟩
    unfold fetch
    rw [h1 n, h5]
    have hlt : d i < d (i + 1) := h.lt (by omega)
    rw [if_neg (by omega)]
    simp only
    rcases h6 with e | e
    · rw [e, sorted_two, if_neg (show ¬ (bul d (i + 1)).t0 < (bul d i).t0 from by
        show ¬ d (i + 1) < d i
        omega)]
    · rw [e, sorted_two, if_pos (show (bul d i).t0 < (bul d (i + 1)).t0 from hlt)]

/-- C127: a merged file that holds all days from `t - limit` to `t + limit` comes out exactly when both ends
lie strictly inside their bulletins and these are the same one or neighbours. -/
theorem fetch_covers_iff (h : Monthly srv d) {t limit i j : Int} (hle : 0 ≤ limit)
    (hi : In d (t - limit) i) (hj : In d (t + limit) j) (h252 : |d 252 - firstDate| ≤ 3100)
    (hts : |t - limit - firstDate| ≤ 100000) :
    (∃ n fs, fetch srv t limit n = some fs ∧ Covers fs (t - limit) (t + limit)) ↔
      Inside d (t - limit) i ∧ Inside d (t + limit) j ∧ j ≤ i + 1 := by
  constructor
  · rintro ⟨n, fs, hf, hc⟩
    unfold fetch at hf
    split at hf
    · rename_i s' hd
      cases hf
      exact covers_only_if h (by omega) hi hj n _ s' hd (covers_mono (fun f hf => (mem_sorted _ _).mp hf) hc)
    · simp at hf
  · rintro ⟨h1, h2, h3⟩
    obtain ⟨n, hn⟩ := fetch_finds h hle h1 h2 h3 h252 hts
    refine ⟨n, _, hn, ?_⟩
    intro x hx1 hx2
    have hi1 := hi.1
    have hj2 := hj.2
    rcases lt_or_ge x (d (i + 1)) with c | c
    · exact ⟨bul d i, by split <;> simp, by show d i ≤ x; omega, by show x ≤ d (i + 1) - 1; omega⟩
    · have hne : j = i + 1 := by
        have : d (i + 1) < d (j + 1) := by omega
        have := h.lt_of this
        omega
      subst hne
      rw [if_neg (by omega)]
      exact ⟨bul d (i + 1), by simp, by show d (i + 1) ≤ x; omega,
        by show x ≤ d (i + 1 + 1) - 1; omega⟩

/-- Up to 13 days on either side, as with the default of 3, the interval meets two bulletins at most. -/
theorem default_limit (h : Monthly srv d) {t limit i j : Int} (hl : limit ≤ 13)
    (hi : In d (t - limit) i) (hj : In d (t + limit) j) : j ≤ i + 1 := by
  by_contra hn
  have h1 := h.lo (i + 1)
  have h2 : d (i + 1 + 1) ≤ d j := h.le (by omega)
  have := hi.2
  have := hj.1
  omega

/-- A start on the first or last day of a bulletin: the script never ends with a file, however long it
runs (it goes to and fro between two bulletins, or raises an exception). -/
theorem first_day_counterexample (h : Monthly srv d) (t limit i : Int)
    (he : t - limit = d i ∨ t - limit = d (i + 1) - 1) (n : Nat) : fetch srv t limit n = none := by
  have h1 : d i < d (i + 1) := h.lt (by omega)
  have hi : In d (t - limit) i := by constructor <;> omega
  have hn : ¬ Inside d (t - limit) i := fun hin => by
    have := hin.1
    have := hin.2
    omega
  unfold fetch
  split
  · rename_i s' hd
    exact absurd hd (edge_start h hi hn n _ s')
  · rfl

/-- The two bulletins between which the loop goes to and fro until 1000 passes are over. -/
theorem to_and_fro (h : Monthly srv d) {ts te i : Int} (hi : Inside d ts i) (hte : te = d (i + 1)) (m : Nat)
    (s : St) (hm : s.it + m = 1000) (hp : s.prior = true) (hq : s.post = false)
    (hf : s.files = [bul d i]) (hg : s.guess = i ∨ s.guess = i + 1) :
    ∃ s', run srv ts te (m + 1) s = .done s' ∧ s'.files = [bul d i] := by
  induction m generalizing s with
  | zero =>
    refine ⟨s, ?_, hf⟩
    refine run_stop ts te 0 s ?_
    have : ¬ s.it < 1000 := by omega
    simp [goesOn, hp, this]
  | succ m ih =>
    have hgo : goesOn s = true := by
      have : s.it < 1000 := by omega
      simp [goesOn, hp, hq, this]
    have hlt : d i < d (i + 1) := h.lt (by omega)
    have hlt2 : d (i + 1) < d (i + 1 + 1) := h.lt (by omega)
    have hnB : ¬ Inside d te s.guess := by
      intro hin
      have : In d te (i + 1) := ⟨hte.ge, by omega⟩
      have e := h.unique hin.inn this
      rw [e] at hin
      have := hin.1
      omega
    have key : ∃ s1, body srv ts te s = some s1 ∧ (s1.guess = i ∨ s1.guess = i + 1) ∧
        s1.it = s.it + 1 := by
      rcases hg with e | e
      · obtain ⟨s1, h1, h2, h3⟩ := body_up (te := te) h s (ts := ts)
          (by rw [e]; have := hi.1; omega) (by rw [e]; omega)
        exact ⟨s1, h1, .inr (by omega), h3⟩
      · obtain ⟨s1, h1, h2, h3⟩ := body_down (te := te) h s (ts := ts)
          (by rw [e]; have := hi.2; omega)
        exact ⟨s1, h1, .inl (by omega), h3⟩
    obtain ⟨s1, h1, h2, h3⟩ := key
    obtain ⟨hp1, hq1, -, -⟩ := body_some h ts te s s1 h1
    have hf1 := body_files h ts te s s1 h1
    rw [hp, hq, decide_eq_false hnB] at hf1
    simp only [Bool.not_true, Bool.false_and, Bool.and_false, Bool.or_self] at hf1
    obtain ⟨s', h4, h5⟩ := ih s1 (by omega) (by rw [hp1, hp, Bool.true_or])
      (by
        rw [hq1, hq, Bool.false_or, decide_eq_false_iff_not]
        exact hnB)
      (by rw [hf1, ← hf]; rfl) h2
    refine ⟨s', ?_, h5⟩
    rw [run_succ ts te (m + 1) s hgo, h1]
    exact h4

/-- An end on the first day of the next bulletin: after 1000 passes the script gives up without a word and
writes a file that lacks that day. -/
theorem silent_counterexample (h : Monthly srv d) {t limit i : Int} (hle : 0 ≤ limit)
    (hi : Inside d (t - limit) i) (hte : t + limit = d (i + 1)) (h252 : |d 252 - firstDate| ≤ 3100)
    (hts : |t - limit - firstDate| ≤ 100000) :
    ∃ n, fetch srv t limit n = some [bul d i] ∧ ¬ Covers [bul d i] (t - limit) (t + limit) := by
  obtain ⟨k, hk, hgk⟩ := guess_near h hi.inn h252 hts
  have hlt : d (i + 1) < d (i + 1 + 1) := h.lt (by omega)
  have hj : In d (t + limit) (i + 1) := ⟨hte.ge, by omega⟩
  have hnB : ∀ g, ¬ Inside d (t + limit) g := fun g hin => by
    have e := h.unique hin.inn hj
    rw [e] at hin
    have := hin.1
    omega
  obtain ⟨s, h1, h2, h3, h4⟩ := approach h (by omega) hi.inn hj k (start (firstGuess (t - limit)))
    ⟨rfl, .inl ⟨rfl, rfl⟩⟩ hgk
  have h4' : s.it = k := by rw [h4]; simp [start]
  -- the end is never found
  have hpost : s.post = false ∧ s.files = [] := by
    rcases h2.2 with c | ⟨c, -⟩
    · exact c
    · exfalso
      have inv : ∀ (m : Nat) (s0 s1 : St), s0.post = false →
          (∀ n, run srv (t - limit) (t + limit) (n + m) s0 = run srv (t - limit) (t + limit) n s1) →
          s1.post = false := by
        intro m
        induction m with
        | zero =>
          intro s0 s1 h0 hr
          have := hr 0
          simp only [run] at this
          cases this
          exact h0
        | succ m ih =>
          intro s0 s1 h0 hr
          cases hg : goesOn s0 with
          | false =>
            have := hr 0
            rw [Nat.zero_add, run_stop _ _ m s0 hg] at this
            simp [run] at this
          | true =>
            cases e : body srv (t - limit) (t + limit) s0 with
            | none =>
              have := hr 0
              rw [Nat.zero_add, run_succ _ _ m s0 hg, e] at this
              simp [run] at this
            | some s2 =>
              refine ih s2 s1 ?_ ?_
              · obtain ⟨-, hq, -, -⟩ := body_some h _ _ s0 s2 e
                rw [hq, h0, Bool.false_or, decide_eq_false_iff_not]
                exact hnB _
              · intro n
                have := hr n
                rw [← Nat.add_assoc, run_succ _ _ (n + m) s0 hg, e] at this
                exact this
      have := inv k (start (firstGuess (t - limit))) s rfl h1
      rw [this] at c
      simp at c
  have hup : d (s.guess + 1) - 1 < t + limit := by rw [h3]; omega
  obtain ⟨s1, e, hg1, hit1⟩ := body_up (ts := t - limit) h s (by rw [h3]; have := hi.1; omega) hup
  obtain ⟨hp, hq, -, -⟩ := body_some h _ _ s s1 e
  have hf := body_files h _ _ s s1 e
  rw [h2.1, h3, decide_eq_true hi, hpost.1, hpost.2, decide_eq_false (hnB i)] at hf
  obtain ⟨s', h5, h6⟩ := to_and_fro h hi hte (1000 - (k + 1)) s1 (by omega)
    (by rw [hp, h3, decide_eq_true (show d i < t - limit ∧ t - limit < d (i + 1) - 1 from hi), Bool.or_true])
    (by rw [hq, hpost.1, Bool.false_or, decide_eq_false_iff_not]; exact hnB _)
    (by rw [hf]; rfl) (.inr (by omega))
  refine ⟨1000 - (k + 1) + 1 + 1 + k, ?_, ?_⟩
  · unfold fetch
    rw [h1 (1000 - (k + 1) + 1 + 1), run_succ _ _ _ s (goesOn_prior h2.1), e]
    simp only
    rw [h5]
    simp only [h6, sorted_one]
  · intro hc
    obtain ⟨f, hf, -, h7⟩ := hc (t + limit) (by omega) le_rfl
    rw [List.mem_singleton] at hf
    subst hf
    have : t + limit ≤ d (i + 1) - 1 := h7
    omega

/-- Three files do not come out in order: the list is not sorted in general. -/
theorem sorted_counterexample : sorted [⟨1, 10, 19⟩, ⟨3, 30, 39⟩, ⟨2, 20, 29⟩] =
    [⟨1, 10, 19⟩, ⟨3, 30, 39⟩, ⟨2, 20, 29⟩] := by decide

/-! ### Witnesses -/

/-- Bulletins of 30 days each, the first of them at the date that the script takes. -/
def thirty (i : Int) : Int := firstDate + 30 * (i - 252)

def srv30 : Server := fun i => some (thirty i, thirty (i + 1) - 1)

theorem monthly30 : Monthly srv30 thirty where
  span _ := rfl
  lo i := by unfold thirty; omega
  hi i := by unfold thirty; omega

/-- The middle of bulletin 300: found. -/
example : ∃ n, fetch srv30 (thirty 300 + 15) 3 n = some [bul thirty 300] :=
  fetch_finds (i := 300) (j := 300) monthly30 (by norm_num) (by unfold Inside thirty firstDate; norm_num)
    (by unfold Inside thirty firstDate; norm_num) (by norm_num) (by unfold thirty firstDate; norm_num)
    (by unfold thirty firstDate; norm_num)

/-- A day near the end of bulletin 300: two bulletins. -/
example : ∃ n, fetch srv30 (thirty 300 + 28) 3 n = some [bul thirty 300, bul thirty 301] :=
  fetch_finds (i := 300) (j := 301) monthly30 (by norm_num) (by unfold Inside thirty firstDate; norm_num)
    (by unfold Inside thirty firstDate; norm_num) (by norm_num) (by unfold thirty firstDate; norm_num)
    (by unfold thirty firstDate; norm_num)

/-- Three days after the first of bulletin 300: never a file. -/
example (n : Nat) : fetch srv30 (thirty 300 + 3) 3 n = none :=
  first_day_counterexample monthly30 _ 3 300 (.inl (by omega)) n

/-- Three days before the first of bulletin 301: that day is missing. -/
example : ∃ n, fetch srv30 (thirty 300 + 27) 3 n = some [bul thirty 300] ∧
    ¬ Covers [bul thirty 300] (thirty 300 + 27 - 3) (thirty 300 + 27 + 3) :=
  silent_counterexample (i := 300) monthly30 (by norm_num) (by unfold Inside thirty firstDate; norm_num)
    (by unfold thirty firstDate; norm_num) (by unfold thirty firstDate; norm_num)
    (by unfold thirty firstDate; norm_num)

/-- With forty days on either side the bulletin in the middle is left out. -/
example : ¬ ∃ n fs, fetch srv30 (thirty 301 + 15) 40 n = some fs ∧
    Covers fs (thirty 301 + 15 - 40) (thirty 301 + 15 + 40) := by
  rw [fetch_covers_iff (i := 300) (j := 302) monthly30 (by norm_num)
    (by unfold In thirty firstDate; norm_num) (by unfold In thirty firstDate; norm_num)
    (by unfold thirty firstDate; norm_num) (by unfold thirty firstDate; norm_num)]
  omega

end Verif.Script.Fetch
