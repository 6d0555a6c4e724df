import Verif.Attitude.Model
import Verif.Rinex.StreamLemmas
import Mathlib.Tactic.Linarith
import Mathlib.Tactic.NormNum
import Mathlib.Algebra.Order.Field.Basic

/-! C38: attitude lookup. -/
namespace Verif.Attitude

open Verif.Rinex

variable {Q : Type}

/-! ### Lemmas -/

theorem between_iff (h : Hunter Q) (t : ℚ) (i : Nat) :
    h.between t i = true ↔ (h.at i).mjd ≤ t ∧ t < (h.at (i + 1)).mjd := by
  simp [Hunter.between]

theorem findInterval_spec (h : Hunter Q) (t : ℚ) :
    (∃ i : Nat, i ≤ 3 ∧ h.findInterval t = i ∧ h.between t i = true) ∨
      ((∀ i, i ≤ 3 → ¬ h.between t i = true) ∧
        ((h.findInterval t = -1 ∧ t < h.b0.mjd) ∨
         (h.findInterval t = 6 ∧ h.b0.mjd ≤ t ∧ h.b4.mjd ≤ t) ∨
         (h.findInterval t = -100 ∧ h.b0.mjd ≤ t ∧ t < h.b4.mjd))) := by
  unfold Hunter.findInterval
  by_cases h3 : h.between t 3 = true
  · exact .inl ⟨3, by omega, by simp [h3], h3⟩
  by_cases h2 : h.between t 2 = true
  · exact .inl ⟨2, by omega, by simp [h3, h2], h2⟩
  by_cases h1 : h.between t 1 = true
  · exact .inl ⟨1, by omega, by simp [h3, h2, h1], h1⟩
  by_cases h0 : h.between t 0 = true
  · exact .inl ⟨0, by omega, by simp [h3, h2, h1, h0], h0⟩
  refine .inr ⟨?_, ?_⟩
  · intro i hi
    have : i = 0 ∨ i = 1 ∨ i = 2 ∨ i = 3 := by omega
    rcases this with hh | hh | hh | hh <;> rw [hh] <;> assumption
  · simp only [h3, h2, h1, h0]
    by_cases ha : t < h.b0.mjd
    · exact .inl ⟨by simp [ha], ha⟩
    · by_cases hb : h.b4.mjd ≤ t
      · exact .inr (.inl ⟨by simp [ha, hb], not_lt.1 ha, hb⟩)
      · exact .inr (.inr ⟨by simp [ha, hb], not_lt.1 ha, not_le.1 hb⟩)

/-- A buffer in chronological order. -/
def Sorted (h : Hunter Q) : Prop :=
  h.b0.mjd ≤ h.b1.mjd ∧ h.b1.mjd ≤ h.b2.mjd ∧ h.b2.mjd ≤ h.b3.mjd ∧ h.b3.mjd ≤ h.b4.mjd

theorem searchLoop_ok (e : Ext Q) (t : ℚ) : ∀ (n : Nat) (h : Hunter Q) (tmp : Rec Q) (h' : Hunter Q),
    searchLoop e t n h tmp = (0, h') → h'.between t 3 = true := by
  intro n
  induction n with
  | zero => intro h tmp h' hr; simp [searchLoop] at hr
  | succ n ih =>
    intro h tmp h' hr
    simp only [searchLoop] at hr
    split at hr
    · exact ih _ _ _ hr
    · rename_i hc
      simp only [Prod.mk.injEq] at hr
      obtain ⟨h1, h2⟩ := hr
      by_contra hb
      exact hc ⟨h1, by rw [h2]; exact hb⟩

/-! ### C38 -/

/-- **C38 (a)** Whatever the state of the hunter, a successful answer uses two neighbouring slots of
the buffer whose records bracket the epoch. -/
theorem success_brackets (e : Ext Q) (tmp0 : Rec Q) (h h' : Hunter Q) (t : ℚ) (i : Nat)
    (hr : setAt e tmp0 h t = .ret 0 i h') :
    i ≤ 3 ∧ (h'.at i).mjd ≤ t ∧ t < (h'.at (i + 1)).mjd := by
  unfold setAt at hr
  simp only at hr
  rcases findInterval_spec h t with ⟨k, hk, hf, hb⟩ | ⟨-, hcase⟩
  · rw [hf] at hr
    rw [if_neg (by omega), if_pos (by omega)] at hr
    simp only [Out.ret.injEq, true_and] at hr
    obtain ⟨hi, rfl⟩ := hr
    simp only [Int.toNat_natCast] at hi
    subst hi
    exact ⟨hk, (between_iff h t k).1 hb⟩
  · rcases hcase with ⟨hf, -⟩ | ⟨hf, hb0, hb4⟩ | ⟨hf, -⟩
    · rw [hf] at hr; simp at hr
    · rw [hf] at hr
      rw [if_neg (by omega), if_neg (by omega)] at hr
      split at hr
      · rename_i s tmp hg
        split at hr
        · rename_i hc
          simp only [Out.ret.injEq, true_and] at hr
          obtain ⟨hi, rfl⟩ := hr
          subst hi
          exact ⟨by omega, hc⟩
        · split at hr
          · simp at hr
          · simp only [Out.ret.injEq] at hr
            obtain ⟨he, hi, hh⟩ := hr
            rw [if_pos he] at hi
            subst hi
            have hs : searchLoop e t (s.lines.length + 1) { h.push tmp with s := s } tmp = (0, h') :=
              Prod.ext he hh
            exact ⟨by omega, (between_iff h' t 3).1 (searchLoop_ok e t _ _ _ _ hs)⟩
      · simp at hr
    · rw [hf] at hr; simp at hr

/-- **C38 (b)** The interpolation parameter of an answer lies in `[0, 1)`. -/
theorem slerp_param_range (e : Ext Q) (tmp0 : Rec Q) (h h' : Hunter Q) (t : ℚ) (i : Nat)
    (hr : setAt e tmp0 h t = .ret 0 i h') : 0 ≤ slerpParam h' t i ∧ slerpParam h' t i < 1 := by
  obtain ⟨-, h1, h2⟩ := success_brackets e tmp0 h h' t i hr
  have hpos : 0 < (h'.at (i + 1)).mjd - (h'.at i).mjd := by linarith
  unfold slerpParam
  refine ⟨div_nonneg (by linarith) hpos.le, ?_⟩
  rw [div_lt_one hpos]
  linarith

/-- **C38 (c)** An epoch before a buffer in chronological order is never answered: the program
stops on an assertion. -/
theorem before_buffer_reported (e : Ext Q) (tmp0 : Rec Q) (h : Hunter Q) (t : ℚ) (hs : Sorted h)
    (ht : t < h.b0.mjd) : setAt e tmp0 h t = .abort ∧ getAt e tmp0 h t = none := by
  have hab : setAt e tmp0 h t = .abort := by
    unfold setAt
    simp only
    rcases findInterval_spec h t with ⟨k, hk, -, hb⟩ | ⟨-, hcase⟩
    · exfalso
      have hb' := ((between_iff h t k).1 hb).1
      obtain ⟨s0, s1, s2, s3⟩ := hs
      have : k = 0 ∨ k = 1 ∨ k = 2 ∨ k = 3 := by omega
      rcases this with hh | hh | hh | hh <;> rw [hh] at hb' <;> simp only [Hunter.at] at hb' <;> linarith
    · rcases hcase with ⟨hf, -⟩ | ⟨-, hb, -⟩ | ⟨-, hb, -⟩
      · rw [hf, if_pos (by omega)]
      · exact absurd hb (not_le.2 ht)
      · exact absurd hb (not_le.2 ht)
  exact ⟨hab, by simp only [getAt, hab]⟩

/-! ### Records of the file -/

/-- The records that the file yields from a stream position on. -/
inductive Yields (e : Ext Q) : Stream → List (Rec Q) → Prop where
  | nil (s : Stream) (h : ∀ r, (getNext e s r).1 ≠ 0) : Yields e s []
  | cons (s s' : Stream) (r : Rec Q) (rs : List (Rec Q)) (h : ∀ r0, getNext e s r0 = (0, s', r))
      (t : Yields e s' rs) : Yields e s (r :: rs)

/-- The buffer holds records `p … p+4` of the list and the stream yields those that follow. -/
structure Window (e : Ext Q) (recs : List (Rec Q)) (p : Nat) (h : Hunter Q) : Prop where
  slots : ∀ i, i ≤ 4 → recs[p + i]? = some (h.at i)
  rest : Yields e h.s (recs.drop (p + 5))

theorem getNext_shrinks (e : Ext Q) (s s' : Stream) (r r' : Rec Q)
    (h : getNext e s r = (0, s', r')) : s'.lines.length < s.lines.length := by
  have hskip : ∀ (n : Nat) (s : Stream) (b : Buf), (skipComments n s b).1.lines.length ≤ s.lines.length := by
    intro n
    induction n with
    | zero => intro s b; exact Nat.le_refl _
    | succ n ih =>
      intro s b
      simp only [skipComments]
      split
      · refine Nat.le_trans (ih _ _) ?_
        unfold getline
        split
        · exact Nat.le_refl _
        · split
          · rename_i hl; simp [hl]
          · rename_i l rest hl
            split
            · simp [hl]
            · simp [hl]
      · exact Nat.le_refl _
  unfold getNext at h
  simp only at h
  split at h
  · simp at h
  · rename_i hf
    obtain ⟨l, rest, hl, -, -, hg⟩ := getline_ok (cap := 256) (s := s) (b := e.junk) (by simpa using hf)
    split at h
    · simp only [Prod.mk.injEq, true_and] at h
      have := hskip ((getline 256 s e.junk).1.lines.length + 1) (getline 256 s e.junk).1
        (getline 256 s e.junk).2
      rw [h.1] at this
      have h2 : (getline 256 s e.junk).1.lines.length = rest.length := by rw [hg]
      rw [h2] at this
      rw [hl]
      simp only [List.length_cons]
      omega
    · simp at h
    · simp at h

/-- One more record. -/
theorem window_push (e : Ext Q) (recs : List (Rec Q)) (p : Nat) (h : Hunter Q) (s' : Stream) (r : Rec Q)
    (hw : Window e recs p h) (r0 : Rec Q) (hg : getNext e h.s r0 = (0, s', r)) :
    Window e recs (p + 1) { h.push r with s := s' } ∧ recs[p + 5]? = some r := by
  have hy := hw.rest
  generalize hd : recs.drop (p + 5) = ds at hy
  cases hy with
  | nil _ hn => exact absurd (by rw [hg]) (hn r0)
  | cons _ s1 r1 rs hc ht =>
    have := hc r0
    rw [hg] at this
    simp only [Prod.mk.injEq, true_and] at this
    obtain ⟨rfl, rfl⟩ := this
    have hget : recs[p + 5]? = some r := by
      have : (recs.drop (p + 5))[0]? = some r := by rw [hd]; rfl
      rw [List.getElem?_drop] at this
      exact this
    refine ⟨⟨?_, ?_⟩, hget⟩
    · intro i hi
      have hcases : i = 0 ∨ i = 1 ∨ i = 2 ∨ i = 3 ∨ i = 4 := by omega
      rcases hcases with hh | hh | hh | hh | hh <;> rw [hh]
      · exact hw.slots 1 (by omega)
      · exact hw.slots 2 (by omega)
      · exact hw.slots 3 (by omega)
      · exact hw.slots 4 (by omega)
      · exact hget
    · have : recs.drop (p + 1 + 5) = rs := by
        have h1 : recs.drop (p + 1 + 5) = (recs.drop (p + 5)).drop 1 := by
          rw [List.drop_drop]
        rw [h1, hd]; rfl
      rw [this]
      exact ht

theorem search_window (e : Ext Q) (recs : List (Rec Q)) (t : ℚ) : ∀ (n p : Nat) (h : Hunter Q)
    (tmp : Rec Q) (h' : Hunter Q), Window e recs p h → searchLoop e t n h tmp = (0, h') →
    ∃ p', p < p' ∧ Window e recs p' h' := by
  intro n
  induction n with
  | zero => intro p h tmp h' _ hr; simp [searchLoop] at hr
  | succ n ih =>
    intro p h tmp h' hw hr
    simp only [searchLoop] at hr
    split at hr
    · rename_i hc
      have hg : getNext e h.s tmp = (0, (getNext e h.s tmp).2.1, (getNext e h.s tmp).2.2) :=
        Prod.ext hc.1 rfl
      obtain ⟨hw', -⟩ := window_push e recs p h _ _ hw tmp hg
      obtain ⟨p', hp, hw''⟩ := ih (p + 1) _ _ _ hw' hr
      exact ⟨p', by omega, hw''⟩
    · simp only [Prod.mk.injEq] at hr
      have hg : getNext e h.s tmp = (0, (getNext e h.s tmp).2.1, (getNext e h.s tmp).2.2) :=
        Prod.ext hr.1 rfl
      obtain ⟨hw', -⟩ := window_push e recs p h _ _ hw tmp hg
      exact ⟨p + 1, by omega, hr.2 ▸ hw'⟩

/-- **C38 (d)** When the buffer holds five consecutive records of the file, a successful answer is
computed from two consecutive records of the file that bracket the epoch, and the buffer again
holds consecutive records, never earlier ones.

Partial: the buffer does not hold five records of the file until five more records have been read,
see `uninitialised_counterexample`. -/
theorem success_uses_file_records_partial (e : Ext Q) (tmp0 : Rec Q) (recs : List (Rec Q)) (p : Nat)
    (h h' : Hunter Q) (t : ℚ) (q : Q) (hw : Window e recs p h)
    (hr : getAt e tmp0 h t = some (q, h')) :
    ∃ k ra rb p', recs[k]? = some ra ∧ recs[k + 1]? = some rb ∧ ra.mjd ≤ t ∧ t < rb.mjd ∧
      q = e.slerp ((t - ra.mjd) / (rb.mjd - ra.mjd)) ra.q rb.q ∧ p ≤ p' ∧ p' ≤ k ∧
      Window e recs p' h' := by
  unfold getAt at hr
  split at hr
  swap
  · cases hr
  rename_i i h'' hset
  simp only [Option.some.injEq, Prod.mk.injEq] at hr
  obtain ⟨hq, rfl⟩ := hr
  obtain ⟨hi, ha, hb⟩ := success_brackets e tmp0 h h'' t i hset
  obtain ⟨p', hp, hw'⟩ : ∃ p', p ≤ p' ∧ Window e recs p' h'' := by
    unfold setAt at hset
    simp only at hset
    split at hset
    · cases hset
    split at hset
    · simp only [Out.ret.injEq, true_and] at hset
      exact ⟨p, le_refl _, hset.2 ▸ hw⟩
    split at hset
    · rename_i s tmp hg
      obtain ⟨hw1, -⟩ := window_push e recs p h s tmp hw tmp0 hg
      split at hset
      · simp only [Out.ret.injEq, true_and] at hset
        exact ⟨p + 1, by omega, hset.2 ▸ hw1⟩
      · split at hset
        · simp at hset
        · simp only [Out.ret.injEq] at hset
          obtain ⟨p', hp, hw2⟩ := search_window e recs t _ (p + 1) _ tmp h'' hw1
            (Prod.ext hset.1 hset.2.2)
          exact ⟨p', by omega, hw2⟩
    · simp at hset
  refine ⟨p' + i, h''.at i, h''.at (i + 1), p', hw'.slots i (by omega), ?_, ha, hb, ?_, hp, by omega, hw'⟩
  · have := hw'.slots (i + 1) (by omega)
    rw [← Nat.add_assoc] at this
    exact this
  · rw [← hq]; rfl

/-- **C38 (e)** Conversely, for a file in chronological order every epoch from the first buffered
record on and before the last record of the file is answered. -/
theorem epoch_in_file_answered (e : Ext Q) (tmp0 : Rec Q) (recs : List (Rec Q)) (p : Nat)
    (h : Hunter Q) (t : ℚ) (hw : Window e recs p h)
    (hsort : recs.Pairwise (fun a b => a.mjd < b.mjd))
    (h0 : h.b0.mjd ≤ t) (k : Nat) (rb : Rec Q) (hk : recs[k]? = some rb) (ht : t < rb.mjd) :
    ∃ q h', getAt e tmp0 h t = some (q, h') := by
  have hmono : ∀ (i j : Nat) (a b : Rec Q), recs[i]? = some a → recs[j]? = some b → a.mjd < b.mjd → i < j := by
    intro i j a b hia hjb hab
    by_contra hc
    rcases Nat.lt_or_eq_of_le (not_lt.1 hc) with hlt | heq
    · have h1 := (List.getElem?_eq_some_iff.1 hia)
      have h2 := (List.getElem?_eq_some_iff.1 hjb)
      obtain ⟨l1, e1⟩ := h1
      obtain ⟨l2, e2⟩ := h2
      have := List.pairwise_iff_getElem.1 hsort j i l2 l1 hlt
      rw [e1, e2] at this
      linarith
    · subst heq
      rw [hia] at hjb
      cases hjb
      linarith
  have hstep : ∀ (i : Nat) (a b : Rec Q), recs[i]? = some a → recs[i + 1]? = some b → a.mjd < b.mjd := by
    intro i a b hia hib
    obtain ⟨l1, e1⟩ := List.getElem?_eq_some_iff.1 hia
    obtain ⟨l2, e2⟩ := List.getElem?_eq_some_iff.1 hib
    have := List.pairwise_iff_getElem.1 hsort i (i + 1) l1 l2 (by omega)
    rw [e1, e2] at this
    exact this
  -- reading on from a window whose last record is not later than the epoch succeeds
  have hread : ∀ (p : Nat) (h : Hunter Q), Window e recs p h → h.b4.mjd ≤ t →
      ∀ r0, ∃ s r, getNext e h.s r0 = (0, s, r) := by
    intro p h hw hb r0
    have hlt : p + 4 < k := hmono (p + 4) k h.b4 rb (hw.slots 4 (by omega)) hk (by linarith)
    have hy := hw.rest
    generalize hd : recs.drop (p + 5) = ds at hy
    cases hy with
    | nil _ hn =>
      exfalso
      have hl : recs.length ≤ p + 5 := by
        have := congrArg List.length hd
        simp only [List.length_drop, List.length_nil] at this
        omega
      obtain ⟨l1, -⟩ := List.getElem?_eq_some_iff.1 hk
      omega
    | cons _ s1 r1 rs hc _ => exact ⟨s1, r1, hc r0⟩
  have hloop : ∀ (n p : Nat) (h : Hunter Q) (tmp : Rec Q), Window e recs p h → h.b4.mjd ≤ t →
      h.s.lines.length < n → ∃ h', searchLoop e t n h tmp = (0, h') := by
    intro n
    induction n with
    | zero => intro p h tmp _ _ hn; omega
    | succ n ih =>
      intro p h tmp hw hb hn
      obtain ⟨s, r, hg⟩ := hread p h hw hb tmp
      obtain ⟨hw', hnew⟩ := window_push e recs p h s r hw tmp hg
      simp only [searchLoop, hg]
      by_cases hbt : t < r.mjd
      · have : ({ h.push r with s := s } : Hunter Q).between t 3 = true := by
          rw [between_iff]; exact ⟨hb, hbt⟩
        rw [if_neg (by simp [this])]
        exact ⟨_, rfl⟩
      · have hnb : ¬ ({ h.push r with s := s } : Hunter Q).between t 3 = true := by
          rw [between_iff]; exact fun hh => hbt hh.2
        rw [if_pos ⟨trivial, hnb⟩]
        exact ih (p + 1) _ r hw' (not_lt.1 hbt) (by
          have := getNext_shrinks e h.s s tmp r hg
          show s.lines.length < n
          omega)
  have s01 := hstep p _ _ (hw.slots 0 (by omega)) (hw.slots 1 (by omega))
  have s12 := hstep (p + 1) _ _ (hw.slots 1 (by omega)) (hw.slots 2 (by omega))
  have s23 := hstep (p + 2) _ _ (hw.slots 2 (by omega)) (hw.slots 3 (by omega))
  have s34 := hstep (p + 3) _ _ (hw.slots 3 (by omega)) (hw.slots 4 (by omega))
  simp only [Hunter.at] at s01 s12 s23 s34
  suffices hset : ∃ i h', setAt e tmp0 h t = .ret 0 i h' by
    obtain ⟨i, h', hr⟩ := hset
    exact ⟨e.slerp (slerpParam h' t i) (h'.at i).q (h'.at (i + 1)).q, h', by simp only [getAt, hr]⟩
  unfold setAt
  simp only
  rcases findInterval_spec h t with ⟨j, hj, hf, hb⟩ | ⟨hno, hcase⟩
  · rw [hf, if_neg (by omega), if_pos (by omega)]
    exact ⟨_, _, rfl⟩
  · rcases hcase with ⟨-, hlt⟩ | ⟨hf, -, hb4⟩ | ⟨-, -, hlt⟩
    · linarith
    · rw [hf, if_neg (by omega), if_neg (by omega)]
      obtain ⟨s, r, hg⟩ := hread p h hw hb4 tmp0
      obtain ⟨hw', -⟩ := window_push e recs p h s r hw tmp0 hg
      rw [hg]
      simp only
      by_cases hbt : t < r.mjd
      · rw [if_pos ⟨hb4, hbt⟩]
        exact ⟨_, _, rfl⟩
      · rw [if_neg (fun hh => hbt hh.2), if_neg (not_lt.2 h0)]
        obtain ⟨h', hs⟩ := hloop (s.lines.length + 1) (p + 1) { h.push r with s := s } r hw'
          (not_lt.1 hbt) (Nat.lt_succ_self _)
        rw [hs]
        exact ⟨_, _, rfl⟩
    · exfalso
      have n0 := hno 0 (by omega)
      have n1 := hno 1 (by omega)
      have n2 := hno 2 (by omega)
      have n3 := hno 3 (by omega)
      rw [between_iff] at n0 n1 n2 n3
      simp only [Hunter.at] at n0 n1 n2 n3
      by_cases c1 : t < h.b1.mjd
      · exact n0 ⟨h0, c1⟩
      by_cases c2 : t < h.b2.mjd
      · exact n1 ⟨not_lt.1 c1, c2⟩
      by_cases c3 : t < h.b3.mjd
      · exact n2 ⟨not_lt.1 c2, c3⟩
      exact n3 ⟨not_lt.1 c3, hlt⟩

/-! ### Concrete instances -/

/-- Lines are one letter: `a`, `b`, … are the records of days 1, 2, …, with the day as quaternion;
`!` is a line whose quaternion cannot be read. -/
def sampleExt : Ext ℚ where
  resolve b :=
    let c := at' b 0
    if c = '!' then .badQuat 100
    else if 'a' ≤ c ∧ c ≤ 'z' then .ok ⟨(c.toNat : ℚ) - 96, (c.toNat : ℚ) - 96⟩
    else .badDate
  slerp x a b := a + x * (b - a)
  junk := List.replicate 256 'x'

def lines (s : String) : List Line := s.toList.map fun c => ⟨[c], true⟩

def zeroHunter : Hunter ℚ := ⟨Stream.open [], ⟨0, 0⟩, ⟨0, 0⟩, ⟨0, 0⟩, ⟨0, 0⟩, ⟨0, 0⟩⟩

/-- Answers of a newly constructed hunter with zeroed memory to a sequence of epochs. -/
def answers (f : String) (ts : List ℚ) : List (Option ℚ) :=
  match construct sampleExt (lines f) zeroHunter with
  | none => []
  | some h =>
    (ts.foldl (fun (acc : Hunter ℚ × List (Option ℚ)) t =>
      match getAt sampleExt ⟨0, 0⟩ acc.1 t with
      | some (q, h') => (h', acc.2 ++ [some q])
      | none => (acc.1, acc.2 ++ [none])) (h, [])).2

/-- After a far jump all is well (the hunter has read enough records). -/
example : answers "abc#defghij" [17 / 2, 37 / 4] = [some (17 / 2), some (37 / 4)] := by
  decide +kernel

/-- A window as in the hypotheses of (d) and (e). -/
def sampleWindow : Hunter ℚ := ⟨Stream.open (lines "fg"), ⟨1, 1⟩, ⟨2, 2⟩, ⟨3, 3⟩, ⟨4, 4⟩, ⟨5, 5⟩⟩

theorem getNext_line (r0 : Rec ℚ) (c : Char) (rest : List Line) (r : Rec ℚ) (hc : c ≠ '#')
    (hr : ∀ b, at' b 0 = c → sampleExt.resolve b = .ok r) :
    getNext sampleExt (Stream.open (⟨[c], true⟩ :: rest)) r0 = (0, Stream.open rest, r) := by
  have hg : getline 256 (Stream.open (⟨[c], true⟩ :: rest)) sampleExt.junk =
      (⟨rest, false, false⟩, fill sampleExt.junk [c]) := by
    rw [getline_good (s := Stream.open (⟨[c], true⟩ :: rest)) sampleExt.junk rfl rfl (by simp)]
    rfl
  have hat : at' (fill sampleExt.junk [c]) 0 = c := rfl
  unfold getNext
  rw [hg]
  simp only [Bool.false_eq_true, if_false, skipComments]
  rw [if_neg (by rw [hat]; exact fun h => hc h.1)]
  simp only [hr _ hat]
  rfl

example : Window sampleExt [⟨1, 1⟩, ⟨2, 2⟩, ⟨3, 3⟩, ⟨4, 4⟩, ⟨5, 5⟩, ⟨6, 6⟩, ⟨7, 7⟩] 0 sampleWindow := by
  refine ⟨?_, ?_⟩
  · intro i hi
    have : i = 0 ∨ i = 1 ∨ i = 2 ∨ i = 3 ∨ i = 4 := by omega
    rcases this with hh | hh | hh | hh | hh <;> rw [hh] <;> rfl
  · refine .cons _ (Stream.open (lines "g")) _ _ (fun r0 => ?_) (.cons _ (Stream.open []) _ _ (fun r0 => ?_) (.nil _ ?_))
    · exact getNext_line r0 'f' _ _ (by decide) (fun b hb => by
        simp only [sampleExt, hb]
        rw [if_neg (by decide), if_pos (by decide)]
        rw [show ('f'.toNat) = 102 from rfl]
        norm_num)
    · exact getNext_line r0 'g' _ _ (by decide) (fun b hb => by
        simp only [sampleExt, hb]
        rw [if_neg (by decide), if_pos (by decide)]
        rw [show ('g'.toNat) = 103 from rfl]
        norm_num)
    · intro r h
      simp [getNext, getline, Stream.open, Stream.good] at h

/-- **C38, where it fails (1).**  The constructor reads two records and leaves three uninitialised.
If these happen to hold day 0 and the quaternion 100, an epoch between the second and the third
record of the file (days 2 and 3) is answered by interpolation between day 0 and day 3, from the
value 100 on. -/
theorem uninitialised_counterexample :
    (match construct sampleExt (lines "abcdefgh")
        ⟨Stream.open [], ⟨0, 0⟩, ⟨0, 0⟩, ⟨0, 100⟩, ⟨0, 100⟩, ⟨0, 100⟩⟩ with
      | none => none
      | some h => (getAt sampleExt ⟨0, 0⟩ h (5 / 2)).map (·.1)) = some (100 + 5 / 2 / 3 * (3 - 100)) := by
  decide +kernel

/-- **C38, where it fails (2).**  A first line that cannot be resolved is not noticed by the
constructor. -/
theorem first_line_counterexample :
    (construct sampleExt (lines "!bcd") zeroHunter).map (fun h => (h.b0.mjd, h.b1.mjd)) =
      some (100, 0) := by
  decide +kernel

/-- **C38, where it fails (3).**  After a line whose quaternion cannot be read, a query fails, but
a record made of the new date and the previous quaternion stays in the buffer and is used by the
next query: day 50 is answered from the quaternions of days 8 and 8. -/
theorem mixed_record_counterexample :
    (match setAt sampleExt ⟨0, 0⟩
        ⟨Stream.open (lines "h!"), ⟨3, 3⟩, ⟨4, 4⟩, ⟨5, 5⟩, ⟨6, 6⟩, ⟨7, 7⟩⟩ 50 with
      | .ret 1 _ h => (getAt sampleExt ⟨0, 0⟩ h 50).map (·.1)
      | _ => none) = some 8 := by
  decide +kernel

end Verif.Attitude
