import Verif.Rinex.DataProps

/-! C16 without conditions on the fields: the ids of a block read with success come from its own lines. -/
namespace Verif.Rinex
open Verif.Text Verif.SystemInfo

theorem skipLines_fail (n : Nat) : ∀ (s : Stream) (b : Buf), s.fail = true → (skipLines n s b).fail = true := by
  induction n with
  | zero => intro s b h; simpa [skipLines] using h
  | succ n ih => intro s b h; simp only [skipLines]; exact ih _ _ (getline_fail_mono h)

/-- Lines that were skipped without failure are exactly the lines in front. -/
theorem skipLines_lines (n : Nat) : ∀ (s : Stream) (b : Buf), (skipLines n s b).good = true →
    (skipLines n s b).lines = s.lines.drop n := by
  induction n with
  | zero => intro s b _; simp [skipLines]
  | succ n ih =>
    intro s b h
    simp only [skipLines] at h ⊢
    have h2 : (getline 124 s b).1.fail = false := by
      cases hx : (getline 124 s b).1.fail with
      | false => rfl
      | true =>
        have := skipLines_fail n _ (getline 124 s b).2 hx
        simp [Stream.good, this] at h
    obtain ⟨l, rest, hl, -, -, he⟩ := getline_ok h2
    rw [ih _ _ h, he, hl]
    rfl

theorem fill_take3 (b : Buf) (t : List Char) (h : 3 ≤ t.length) : (fill b (t.take 123)).take 3 = t.take 3 := by
  unfold fill
  rw [List.take_append_of_le_length (by rw [List.length_take]; omega), List.take_take]
  congr 1

/-- The characters that a line leaves at the start of the buffer. -/
theorem getline_first (s : Stream) (b : Buf) (hg : s.good = true) (l : Line) (rest : List Line) (hl : s.lines = l :: rest) :
    (getline 124 s b).2 = fill b (l.text.take 123) := by
  unfold getline
  rw [if_neg (by simp [hg]), hl]
  simp only
  split
  · rfl
  · rename_i hle
    rw [List.take_of_length_le (by omega)]

/-- **C16** Whatever the stream, the buffer and the lines hold: when a block is read with success, the record of beacon `i` takes
its id from the first line of the block that belongs to it, which starts with `D`; the id is its first three characters whenever
it has three. -/
theorem block_ids (e : Ext) (sf : List Int) (hsf : sf ≠ []) (n : Nat) : ∀ (s : Stream) (b : Buf) (os : List BeaconObs)
    (s' : Stream) (b' : Buf), readBlock e sf n s b = .ok (os, s', b') → ∀ i < n, ∃ o l, os[i]? = some o ∧
      s.lines[i * linesFor sf.length]? = some l ∧ l.text.head? = some 'D' ∧ (3 ≤ l.text.length → o.id = l.text.take 3) := by
  induction n with
  | zero => intro s b os s' b' _ i hi; omega
  | succ n ih =>
    intro s b os s' b' h i hi
    simp only [readBlock] at h
    split at h
    · simp at h
    · rename_i id vs s1 b1 hr
      split at h
      · simp at h
      · rename_i l s2 b2 hb
        simp only [Except.ok.injEq, Prod.mk.injEq] at h
        obtain ⟨rfl, rfl, rfl⟩ := h
        cases i with
        | zero =>
          obtain ⟨f, fs, rfl⟩ := List.exists_cons_of_ne_nil hsf
          obtain ⟨hg, hne⟩ := readObs_needs_line e f fs s b _ hr
          obtain ⟨hid, hd⟩ := readObs_id e f fs s b id vs s1 b1 hr
          obtain ⟨l0, rest, hl⟩ := List.exists_cons_of_ne_nil hne
          rw [getline_first s b hg l0 rest hl] at hid hd
          refine ⟨_, l0, rfl, by simp [hl], ?_, ?_⟩
          · cases ht : l0.text with
            | nil => rw [ht] at hd; simp [at', fill] at hd
            | cons c r => rw [ht] at hd; simpa [at', fill] using hd
          · intro h3
            rw [hid, fill_take3 b _ h3]
        | succ i =>
          obtain ⟨o, l1, ho, hl1, hD, h3⟩ := ih s1 b1 l s2 b2 hb i (by omega)
          refine ⟨o, l1, by simpa using ho, ?_, hD, h3⟩
          have hs1 := (readObs_lines e _ _ _ _ _ _ _ _ _ hr).1
          simp only [Nat.zero_add] at hs1
          have hs1' : s1 = skipLines (linesFor sf.length) s b := hs1
          have hgood : s1.good = true := by
            cases n with
            | zero => omega
            | succ n =>
              obtain ⟨f, fs, rfl⟩ := List.exists_cons_of_ne_nil hsf
              simp only [readBlock] at hb
              split at hb
              · simp at hb
              · rename_i hr2
                exact (readObs_needs_line e f fs s1 b1 _ hr2).1
          have hlines : s1.lines = s.lines.drop (linesFor sf.length) := by
            rw [hs1'] at hgood ⊢
            exact skipLines_lines _ s b hgood
          rw [hlines, List.getElem?_drop] at hl1
          rw [Nat.add_mul, Nat.one_mul, Nat.add_comm]
          exact hl1

/-- A line of fewer than three characters is accepted, and the rest of the id comes from whatever the buffer held before: the same
block gives different ids. -/
theorem short_line_counterexample : ∃ (line old₁ old₂ : Line),
    (match readBlock extInt [1] 1 (Stream.open [line]) (fill [] old₁.text),
           readBlock extInt [1] 1 (Stream.open [line]) (fill [] old₂.text) with
      | .ok (o₁, _), .ok (o₂, _) => o₁.map (·.id) == [['D', '\x00', '1']] && o₂.map (·.id) == [['D', '\x00', '2']]
      | _, _ => false) = true :=
  ⟨⟨"D".toList, true⟩, rec "D01" ["             5 0"], rec "D02" ["             5 0"], by decide +kernel⟩

example : (match readBlock extInt [1, 1, 1, 1, 1, 10, 1] 2 (Stream.open sampleBlock) [] with
    | .ok (os, _, _) => os.map (·.id) == ["D01".toList, "D02".toList]
    | .error _ => false) = true := by decide +kernel

end Verif.Rinex
