import Verif.Rinex.DataModel
import Verif.Rinex.HeaderLemmas
import Verif.Rinex.StreamLemmas

namespace Verif.Rinex
open Verif.Text Verif.SystemInfo

theorem readField_fill (e : Ext) (st line : List Char) (k : Nat) (f : Int)
    (h : 3 + k * 16 + 16 ≤ line.length) :
    readField e (fill st line) k f = readField e (fill [] line) k f := by
  simp only [readField, take_drop_fill st line (3 + k * 16) 14 (by omega),
    getD_fill st line (3 + k * 16 + 14) (by omega), getD_fill st line (3 + k * 16 + 15) (by omega)]

/-- Values of one beacon, read directly from its lines. -/
def specObs (e : Ext) (L : List Line) : List Int → Nat → Except Nat (List ObsValue)
  | [], _ => .ok []
  | f :: fs, cur =>
    match readField e (fill [] (L.getD (cur / 5) ⟨[], true⟩).text) (cur % 5) f with
    | .error x => .error x
    | .ok v =>
      match specObs e L fs (cur + 1) with
      | .error x => .error x
      | .ok vs => .ok (v :: vs)

/-- The lines of a beacon with `k` observation codes carry all their fields. -/
def FullLines (L : List Line) (k : Nat) : Prop :=
  ∀ c < k, ∃ l, L[c / 5]? = some l ∧ 3 + c % 5 * 16 + 16 ≤ l.text.length ∧
    l.text.length ≤ 123 ∧ l.eol = true

theorem good_open (L : List Line) : (Stream.open L).good = true := rfl

/-- Past the first line, the loop reads exactly the fields of the remaining lines. -/
theorem readObs_spec (e : Ext) (L : List Line) (k : Nat) (hL : FullLines L k) :
    ∀ (fs : List Int) (cur : Nat) (st : Buf) (b : Buf) (id : List Char),
      0 < cur → cur + fs.length = k →
      (cur % 5 ≠ 0 → b = fill st (L.getD (cur / 5) ⟨[], true⟩).text) →
      (∀ vs, specObs e L fs cur = .ok vs → ∃ b',
        readObs e fs cur (Stream.open (L.drop ((cur + 4) / 5))) b id =
          .ok (id, vs, Stream.open (L.drop ((k + 4) / 5)), b')) ∧
      (∀ x, specObs e L fs cur = .error x →
        readObs e fs cur (Stream.open (L.drop ((cur + 4) / 5))) b id = .error x) := by
  intro fs
  induction fs with
  | nil =>
    intro cur st b id h0 hk hb
    simp at hk; subst hk
    constructor
    · intro vs hvs
      simp [specObs] at hvs; subst hvs
      exact ⟨b, by simp [readObs]⟩
    · intro x hx; simp [specObs] at hx
  | cons f fs ih =>
    intro cur st b id h0 hk hb
    obtain ⟨l, hl, hlen1, hlen2, heol⟩ := hL cur (by simp at hk; omega)
    have hgd : L.getD (cur / 5) ⟨[], true⟩ = l := by
      rw [List.getD_eq_getElem?_getD, hl]; rfl
    -- the line the field is read from
    have hsb : ∃ st', (if cur % 5 = 0 then
          getline 124 (Stream.open (L.drop ((cur + 4) / 5))) b
          else (Stream.open (L.drop ((cur + 4) / 5)), b)) =
        (Stream.open (L.drop ((cur + 1 + 4) / 5)), fill st' l.text) := by
      by_cases h5 : cur % 5 = 0
      · simp only [h5, if_true]
        have hd : L.drop ((cur + 4) / 5) = l :: L.drop ((cur + 1 + 4) / 5) := by
          have e1 : (cur + 4) / 5 = cur / 5 := by omega
          have e2 : (cur + 1 + 4) / 5 = cur / 5 + 1 := by omega
          rw [e1, e2]
          have hlt : cur / 5 < L.length := by
            rw [List.getElem?_eq_some_iff] at hl; exact hl.1
          rw [List.drop_eq_getElem_cons hlt]
          rw [List.getElem?_eq_getElem hlt] at hl
          rw [Option.some.injEq] at hl
          rw [hl]
        refine ⟨b, ?_⟩
        rw [getline_good b (good_open _) hd (by omega)]
        simp [heol, Stream.open]
      · refine ⟨st, ?_⟩
        simp only [h5, if_false]
        have e1 : (cur + 1 + 4) / 5 = (cur + 4) / 5 := by omega
        rw [e1, hb h5, hgd]
    obtain ⟨st', hsb⟩ := hsb
    have hc0 : ¬ cur = 0 := by omega
    simp only [readObs, hsb, hc0, false_and, if_false, specObs, hgd,
      readField_fill e st' l.text (cur % 5) f hlen1]
    have ih' := ih (cur + 1) st' (fill st' l.text) id (by omega) (by simp at hk; omega) (by
      intro h5
      have : (cur + 1) / 5 = cur / 5 := by omega
      rw [this, hgd])
    cases readField e (fill [] l.text) (cur % 5) f with
    | error x => simp
    | ok v =>
      simp only
      cases hs : specObs e L fs (cur + 1) with
      | error x =>
        simp only [reduceCtorEq, false_implies, implies_true, true_and, Except.error.injEq,
          forall_eq']
        rw [ih'.2 x hs]
      | ok vs =>
        obtain ⟨b', hb'⟩ := ih'.1 vs hs
        simp only [Except.ok.injEq, forall_eq', reduceCtorEq, false_implies, implies_true, and_true]
        exact ⟨b', by rw [hb']⟩

/-- The whole record of one beacon, read directly from its lines. -/
def specBeacon (e : Ext) (sf : List Int) (L : List Line) : Except Nat BeaconObs :=
  let b := fill [] (L.getD 0 ⟨[], true⟩).text
  if at' b 0 ≠ 'D' then .error 1
  else
    match specObs e L sf 0 with
    | .error x => .error x
    | .ok vs => .ok ⟨b.take 3, vs⟩

theorem readObs_first (e : Ext) (L : List Line) (sf : List Int) (hL : FullLines L sf.length)
    (hsf : sf ≠ []) (b : Buf) :
    (∀ o, specBeacon e sf L = .ok o → ∃ b',
      readObs e sf 0 (Stream.open L) b [] =
        .ok (o.id, o.values, Stream.open (L.drop ((sf.length + 4) / 5)), b')) ∧
    (∀ x, specBeacon e sf L = .error x → readObs e sf 0 (Stream.open L) b [] = .error x) := by
  cases sf with
  | nil => exact absurd rfl hsf
  | cons f fs =>
    obtain ⟨l, hl, hlen1, hlen2, heol⟩ := hL 0 (by simp)
    simp at hl hlen1
    obtain ⟨rest, rfl⟩ : ∃ rest, L = l :: rest := by
      cases L with
      | nil => simp at hl
      | cons a rest => simp at hl; subst hl; exact ⟨rest, rfl⟩
    have hget : getline 124 (Stream.open (l :: rest)) b = (Stream.open rest, fill b l.text) := by
      rw [getline_good b (good_open _) rfl (by omega)]
      simp [heol, Stream.open]
    have hd : at' (fill b l.text) 0 = at' (fill [] l.text) 0 := getD_fill b l.text 0 (by omega)
    have htk : (fill b l.text).take 3 = (fill [] l.text).take 3 := take_fill b l.text 3 (by omega)
    have hrf : readField e (fill b l.text) 0 f = readField e (fill [] l.text) 0 f :=
      readField_fill e b l.text 0 f (by omega)
    simp only [specBeacon, specObs, readObs, Nat.zero_mod, if_true, hget, hd, htk, hrf,
      true_and, List.getD_cons_zero, Nat.zero_div]
    split
    · simp
    · have key := readObs_spec e (l :: rest) (f :: fs).length hL fs 1 b (fill b l.text)
        ((fill [] l.text).take 3) (by omega) (by simp; omega) (by intro _; simp)
      simp only [Nat.reduceAdd, Nat.reduceDiv, List.drop_one, List.tail_cons] at key
      cases readField e (fill [] l.text) 0 f with
      | error x => simp
      | ok v =>
        simp only [Nat.zero_add]
        cases hs : specObs e (l :: rest) fs 1 with
        | error x =>
          simp only [reduceCtorEq, false_implies, implies_true, true_and, Except.error.injEq,
            forall_eq']
          rw [key.2 x hs]
        | ok vs =>
          obtain ⟨b', hb'⟩ := key.1 vs hs
          simp only [Except.ok.injEq, forall_eq', reduceCtorEq, false_implies, implies_true,
            and_true]
          exact ⟨b', by rw [hb']⟩

/-- A block of `n` beacons, read directly from its lines (`lpb` lines per beacon). -/
def specBlock (e : Ext) (sf : List Int) : Nat → List Line → Except Nat (List BeaconObs)
  | 0, _ => .ok []
  | n + 1, L =>
    match specBeacon e sf L with
    | .error x => .error x
    | .ok o =>
      match specBlock e sf n (L.drop ((sf.length + 4) / 5)) with
      | .error x => .error x
      | .ok l => .ok (o :: l)

theorem readBlock_spec (e : Ext) (sf : List Int) (hsf : sf ≠ []) (n : Nat) :
    ∀ (L : List Line) (b : Buf),
      (∀ i < n, FullLines (L.drop (i * ((sf.length + 4) / 5))) sf.length) →
      (∀ os, specBlock e sf n L = .ok os → ∃ b',
        readBlock e sf n (Stream.open L) b =
          .ok (os, Stream.open (L.drop (n * ((sf.length + 4) / 5))), b')) ∧
      (∀ x, specBlock e sf n L = .error x → readBlock e sf n (Stream.open L) b = .error x) := by
  induction n with
  | zero =>
    intro L b _
    constructor
    · intro os h; simp [specBlock] at h; subst h; exact ⟨b, by simp [readBlock]⟩
    · intro x h; simp [specBlock] at h
  | succ n ih =>
    intro L b hL
    have h0 := hL 0 (by omega)
    simp only [Nat.zero_mul, List.drop_zero] at h0
    have first := readObs_first e L sf h0 hsf b
    simp only [specBlock, readBlock]
    cases hs : specBeacon e sf L with
    | error x =>
      simp only [reduceCtorEq, false_implies, implies_true, true_and, Except.error.injEq,
        forall_eq']
      rw [first.2 x hs]
    | ok o =>
      obtain ⟨b1, hb1⟩ := first.1 o hs
      simp only [hb1]
      have ih' := ih (L.drop ((sf.length + 4) / 5)) b1 (by
        intro i hi
        rw [List.drop_drop]
        have := hL (i + 1) (by omega)
        rw [Nat.add_mul, Nat.one_mul, Nat.add_comm] at this
        exact this)
      cases hsb : specBlock e sf n (L.drop ((sf.length + 4) / 5)) with
      | error x =>
        simp only [reduceCtorEq, false_implies, implies_true, true_and, Except.error.injEq,
          forall_eq']
        rw [ih'.2 x hsb]
      | ok l =>
        obtain ⟨b2, hb2⟩ := ih'.1 l hsb
        simp only [Except.ok.injEq, forall_eq', reduceCtorEq, false_implies, implies_true,
          and_true]
        refine ⟨b2, ?_⟩
        rw [hb2, List.drop_drop]
        have : (sf.length + 4) / 5 + n * ((sf.length + 4) / 5) = (n + 1) * ((sf.length + 4) / 5) := by
          rw [Nat.add_mul, Nat.one_mul, Nat.add_comm]
        simp only [this, true_and]

theorem skipLines_buf (n : Nat) : ∀ (s : Stream) (b b' : Buf), skipLines n s b = skipLines n s b' := by
  induction n with
  | zero => intros; rfl
  | succ n ih =>
    intro s b b'
    simp only [skipLines, getline_stream 124 s b b']
    exact ih _ _ _

theorem skipLines_add (m n : Nat) : ∀ (s : Stream) (b : Buf),
    skipLines (m + n) s b = skipLines n (skipLines m s b) b := by
  induction m with
  | zero => intro s b; simp [skipLines]
  | succ m ih =>
    intro s b
    rw [Nat.add_right_comm]
    simp only [skipLines]
    rw [ih, skipLines_buf m _ _ (getline 124 s b).2]
    exact skipLines_buf n _ _ _

/-- The number of lines read for `k` further values, `cur` already done. -/
theorem readObs_lines (e : Ext) : ∀ (fs : List Int) (cur : Nat) (s : Stream) (b : Buf)
    (id : List Char) (i : List Char) (vs : List ObsValue) (s' : Stream) (b' : Buf),
    readObs e fs cur s b id = .ok (i, vs, s', b') →
      s' = skipLines ((cur + fs.length + 4) / 5 - (cur + 4) / 5) s b ∧ vs.length = fs.length := by
  intro fs
  induction fs with
  | nil =>
    intro cur s b id i vs s' b' h
    simp [readObs] at h
    obtain ⟨-, rfl, rfl, -⟩ := h
    simp [skipLines]
  | cons f fs ih =>
    intro cur s b id i vs s' b' h
    simp only [readObs] at h
    generalize hsb : (if cur % 5 = 0 then getline 124 s b else (s, b)) = sb at h
    split at h
    · simp at h
    · split at h
      · simp at h
      · split at h
        · simp at h
        · rename_i i1 vs1 s1 b1 hr
          simp at h
          obtain ⟨rfl, rfl, rfl, rfl⟩ := h
          obtain ⟨h1, h2⟩ := ih _ _ _ _ _ _ _ _ hr
          refine ⟨?_, by simp [h2]⟩
          rw [h1]
          by_cases h5 : cur % 5 = 0
          · simp only [h5, if_true] at hsb
            subst hsb
            simp only [List.length_cons]
            have : (cur + (fs.length + 1) + 4) / 5 - (cur + 4) / 5 =
                1 + ((cur + 1 + fs.length + 4) / 5 - (cur + 1 + 4) / 5) := by omega
            rw [this, skipLines_add]
            simp only [skipLines]
            exact skipLines_buf _ _ _ _
          · simp only [h5, if_false] at hsb
            subst hsb
            simp only [List.length_cons]
            have : (cur + (fs.length + 1) + 4) / 5 - (cur + 4) / 5 =
                ((cur + 1 + fs.length + 4) / 5 - (cur + 1 + 4) / 5) := by omega
            rw [this]

end Verif.Rinex
