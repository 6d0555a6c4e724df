import Verif.EnumBitset.Model
import Mathlib.Tactic.ByContra

set_option linter.unusedSectionVars false

/-!
C01, C02: a flag set behaves like a set of enumerators.
-/
namespace Verif.EnumBitset

/-! ### Specification: sets of enumerators as predicates, independent of bits -/

/-- What a client expects of one call on a set of enumerators. -/
def specStep {E : Type} [DecidableEq E] (s : E → Bool) : Op E → (E → Bool)
  | .set e => fun x => if x = e then true else s x
  | .clear e => fun x => if x = e then false else s x
  | .clearAll => fun _ => false

/-- What a client expects after a history of calls on an empty set. -/
def specRun {E : Type} [DecidableEq E] (ops : List (Op E)) : E → Bool :=
  ops.foldl specStep (fun _ => false)

/-- The enumerators are distinct single bits: enumerator `e` has value `1 << pos e`. -/
structure OneHot {w : Nat} {E : Type} (val : E → BitVec w) where
  pos : E → Nat
  pos_lt : ∀ e, pos e < w
  pos_inj : ∀ a b, pos a = pos b → a = b
  val_eq : ∀ e, val e = BitVec.twoPow w (pos e)

namespace OneHot
variable {w : Nat} {E : Type} {val : E → BitVec w}

theorem getLsbD_val (h : OneHot val) (e : E) (i : Nat) :
    (val e).getLsbD i = decide (i = h.pos e) := by
  rw [h.val_eq, BitVec.getLsbD_twoPow]
  have := h.pos_lt e
  by_cases hi : h.pos e = i
  · subst hi; simp [this]
  · simp [hi, Ne.symm hi]

/-- `check` on a one-hot flag is the test of its bit. -/
theorem check_eq (h : OneHot val) (s : FlagSet w) (e : E) :
    s.check (val e) = s.bits.getLsbD (h.pos e) := by
  unfold FlagSet.check
  rw [Bool.eq_iff_iff, bne_iff_ne]
  constructor
  · intro hne
    by_contra hb
    apply hne
    apply BitVec.eq_of_getLsbD_eq
    intro i hi
    rw [BitVec.getLsbD_and, h.getLsbD_val]
    by_cases hp : i = h.pos e
    · subst hp; simp at hb; simp [hb]
    · simp [hp]
  · intro hb heq
    have : (s.bits &&& val e).getLsbD (h.pos e) = (0 : BitVec w).getLsbD (h.pos e) := by rw [heq]
    rw [BitVec.getLsbD_and, h.getLsbD_val] at this
    simp [hb] at this

variable [DecidableEq E]

theorem check_step (h : OneHot val) (s : FlagSet w) (m : E → Bool)
    (hm : ∀ e, s.check (val e) = m e) (op : Op E) (e : E) :
    (step val s op).check (val e) = specStep m op e := by
  have hm' := hm e
  rw [h.check_eq] at hm'
  rw [h.check_eq]
  cases op with
  | set a =>
    simp only [step, FlagSet.set, specStep, BitVec.getLsbD_or, hm', h.getLsbD_val]
    by_cases hea : e = a
    · subst hea; simp
    · have : h.pos e ≠ h.pos a := fun hp => hea (h.pos_inj _ _ hp)
      simp [hea, this]
  | clear a =>
    simp only [step, FlagSet.clear, specStep, BitVec.getLsbD_and, BitVec.getLsbD_not, hm',
      h.getLsbD_val]
    by_cases hea : e = a
    · subst hea; simp
    · have : h.pos e ≠ h.pos a := fun hp => hea (h.pos_inj _ _ hp)
      simp [hea, this, h.pos_lt e]
  | clearAll => simp [step, FlagSet.clearAll, specStep]

/-- bits that belong to no enumerator are never set -/
theorem foreign_step (h : OneHot val) (s : FlagSet w) (i : Nat) (hi : ∀ e, h.pos e ≠ i)
    (hs : s.bits.getLsbD i = false) (op : Op E) : (step val s op).bits.getLsbD i = false := by
  cases op with
  | set a => simp [step, FlagSet.set, hs, h.getLsbD_val, Ne.symm (hi a)]
  | clear a => simp [step, FlagSet.clear, hs]
  | clearAll => simp [step, FlagSet.clearAll]

theorem foreign_run (h : OneHot val) (ops : List (Op E)) (i : Nat) (hi : ∀ e, h.pos e ≠ i) :
    (run val ops).bits.getLsbD i = false := by
  unfold run
  suffices H : ∀ s : FlagSet w, s.bits.getLsbD i = false →
      (ops.foldl (step val) s).bits.getLsbD i = false from H _ (by simp [FlagSet.empty])
  induction ops with
  | nil => intro s hs; exact hs
  | cons op t ih => intro s hs; exact ih _ (h.foreign_step s i hi hs op)

end OneHot

variable {w : Nat} {E : Type} [DecidableEq E] {val : E → BitVec w}

/-- **C01 (a)** After every history of calls, `check` answers what the set of enumerators
built by the same history answers. -/
theorem check_run (h : OneHot val) (ops : List (Op E)) (e : E) :
    (run val ops).check (val e) = specRun ops e := by
  unfold run specRun
  suffices H : ∀ (s : FlagSet w) (m : E → Bool), (∀ e, s.check (val e) = m e) →
      ∀ e, (ops.foldl (step val) s).check (val e) = (ops.foldl specStep m) e from
    H _ _ (by intro e; rw [h.check_eq]; simp [FlagSet.empty]) e
  induction ops with
  | nil => intro s m hm e; exact hm e
  | cons op t ih => intro s m hm e; exact ih _ _ (h.check_step s m hm op) e

/-- **C01 (b)** A call on one flag never disturbs another flag. -/
theorem check_other (h : OneHot val) (s : FlagSet w) {a b : E} (hab : a ≠ b) :
    (s.set (val a)).check (val b) = s.check (val b) ∧
    (s.clear (val a)).check (val b) = s.check (val b) := by
  have h1 := h.check_step s (fun e => s.check (val e)) (fun _ => rfl) (.set a) b
  have h2 := h.check_step s (fun e => s.check (val e)) (fun _ => rfl) (.clear a) b
  simp only [step, specStep] at h1 h2
  simp [h1, h2, Ne.symm hab]

/-- **C01 (c)** `is_clean` is true exactly when no flag is set, after every history. -/
theorem isClean_run (h : OneHot val) (ops : List (Op E)) :
    (run val ops).isClean = true ↔ ∀ e, specRun ops e = false := by
  constructor
  · intro hc e
    rw [← check_run h]
    unfold FlagSet.isClean at hc
    rw [beq_iff_eq] at hc
    simp [FlagSet.check, hc]
  · intro hs
    unfold FlagSet.isClean
    rw [beq_iff_eq]
    apply BitVec.eq_of_getLsbD_eq
    intro i _
    by_cases hi : ∃ e, h.pos e = i
    · obtain ⟨e, rfl⟩ := hi
      rw [← h.check_eq, check_run h, hs e]; simp
    · rw [h.foreign_run ops i (fun e he => hi ⟨e, he⟩)]; simp

/-- **C01 (d)** Two flag sets compare equal exactly when the same flags are set in them,
whatever the histories that produced them. -/
theorem eq_run_iff (h : OneHot val) (ops ops' : List (Op E)) :
    (run val ops).eq (run val ops') = true ↔ ∀ e, specRun ops e = specRun ops' e := by
  unfold FlagSet.eq
  rw [beq_iff_eq]
  constructor
  · intro he e
    rw [← check_run h, ← check_run h]
    simp [FlagSet.check, he]
  · intro hs
    apply BitVec.eq_of_getLsbD_eq
    intro i _
    by_cases hi : ∃ e, h.pos e = i
    · obtain ⟨e, rfl⟩ := hi
      rw [← h.check_eq, ← h.check_eq, check_run h, check_run h, hs e]
    · rw [h.foreign_run ops i (fun e he => hi ⟨e, he⟩),
        h.foreign_run ops' i (fun e he => hi ⟨e, he⟩)]

/-- `!=` is the negation of `==`. -/
theorem ne_run_iff (h : OneHot val) (ops ops' : List (Op E)) :
    (run val ops).ne (run val ops') = true ↔ ∃ e, specRun ops e ≠ specRun ops' e := by
  unfold FlagSet.ne
  rw [Bool.not_eq_true', ← Bool.not_eq_true, eq_run_iff h]
  simp

/-! ### C02: initializer lists -/

theorem ofList_getLsbD (h : OneHot val) (l : List E) (i : Nat) :
    (FlagSet.ofList (l.map val)).bits.getLsbD i = l.any (fun e => decide (i = h.pos e)) := by
  unfold FlagSet.ofList
  suffices H : ∀ acc : BitVec w, ((l.map val).foldl (fun acc f => acc ||| f) acc).getLsbD i
      = (acc.getLsbD i || l.any (fun e => decide (i = h.pos e))) by
    rw [H]; simp
  induction l with
  | nil => intro acc; simp
  | cons a t ih => intro acc; simp [ih, h.getLsbD_val, Bool.or_assoc]

/-- **C02 (a)** A flag set built from a list is the one obtained by setting the flags one by
one on an empty set (any width, any list, duplicates allowed). -/
theorem ofList_eq_run (l : List E) :
    FlagSet.ofList (l.map val) = run val (l.map Op.set) := by
  unfold run FlagSet.ofList
  suffices H : ∀ s : FlagSet w,
      (⟨(l.map val).foldl (fun acc f => acc ||| f) s.bits⟩ : FlagSet w)
        = (l.map Op.set).foldl (step val) s from H FlagSet.empty
  induction l with
  | nil => intro s; rfl
  | cons a t ih => intro s; exact ih (s.set (val a))

/-- **C02 (b)** The flags of a set built from a list are exactly the listed ones. -/
theorem check_ofList (h : OneHot val) (l : List E) (e : E) :
    (FlagSet.ofList (l.map val)).check (val e) = true ↔ e ∈ l := by
  rw [h.check_eq, ofList_getLsbD h, List.any_eq_true]
  constructor
  · rintro ⟨x, hx, hp⟩
    rw [decide_eq_true_eq] at hp
    rw [h.pos_inj _ _ hp]; exact hx
  · intro he; exact ⟨e, he, by simp⟩

/-- **C02 (c)** Order and multiplicity of the list are irrelevant. -/
theorem ofList_eq_iff (h : OneHot val) (l l' : List E) :
    (FlagSet.ofList (l.map val)).eq (FlagSet.ofList (l'.map val)) = true ↔
      ∀ e, e ∈ l ↔ e ∈ l' := by
  constructor
  · intro heq e
    unfold FlagSet.eq at heq
    rw [beq_iff_eq] at heq
    rw [← check_ofList h, ← check_ofList h]
    simp [FlagSet.check, heq]
  · intro hs
    unfold FlagSet.eq
    rw [beq_iff_eq]
    apply BitVec.eq_of_getLsbD_eq
    intro i _
    rw [ofList_getLsbD h, ofList_getLsbD h, Bool.eq_iff_iff, List.any_eq_true, List.any_eq_true]
    constructor
    · rintro ⟨x, hx, hp⟩; exact ⟨x, (hs x).1 hx, hp⟩
    · rintro ⟨x, hx, hp⟩; exact ⟨x, (hs x).2 hx, hp⟩

/-! ### The one-hot hypothesis is needed, and satisfiable -/

/-- Without it, `check` only tests overlap: with enumerators `1` and `3`, setting `1` makes
`check(3)` true although `3` was never set. -/
theorem check_overlap_counterexample :
    ∃ val : Bool → BitVec 8, (run val [Op.set false]).check (val true) = true ∧
      specRun [Op.set false] true = false :=
  ⟨fun b => if b then 3 else 1, by decide, by decide⟩

/-- An enumerator with value zero can never be found set. -/
theorem check_zero (s : FlagSet w) : s.check 0 = false := by
  simp [FlagSet.check]

/-- A concrete three-flag enum in an 8-bit integer. -/
def exVal : Fin 3 → BitVec 8 := fun i => BitVec.twoPow 8 i.val

/-- Its one-hot witness. -/
def exOneHot : OneHot exVal where
  pos := fun i => i.val
  pos_lt := fun i => by omega
  pos_inj := fun a b h => Fin.ext h
  val_eq := fun _ => rfl

example : (run exVal [.set 0, .set 2, .clear 0]).check (exVal 2) = true := by
  rw [check_run exOneHot]; decide
example : (run exVal [.set 0, .set 2, .clear 0]).check (exVal 0) = false := by
  rw [check_run exOneHot]; decide
example : (run exVal [.set 0, .set 2]).eq (run exVal [.set 2, .set 1, .clear 1, .set 0]) = true := by
  rw [eq_run_iff exOneHot]; decide

end Verif.EnumBitset
