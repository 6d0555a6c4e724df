import Verif.Rinex.DataLemmas
import Mathlib.Tactic.NormNum
import Mathlib.Tactic.Ring
import Mathlib.Algebra.Order.Ring.Rat
import Mathlib.Algebra.Order.Floor.Ring
import Mathlib.Data.Rat.Floor
import Mathlib.Tactic.Positivity
import Mathlib.Tactic.Linarith

/-
C16 (shape of a block), C17 (skip/read), C18 (missing values and scaling), C19 (truncation),
C20 (epoch line), C21 (lookups), C22 (iteration), C23 (L1 epoch).
-/
namespace Verif.Rinex
open Verif.Text Verif.SystemInfo

/-- Lines needed for `k` observation codes, five per line. -/
def linesFor (k : Nat) : Nat := (k + 4) / 5

/-! ### C16 -/

theorem readObs_id (e : Ext) (f : Int) (fs : List Int) (s : Stream) (b : Buf) (i : List Char)
    (vs : List ObsValue) (s' : Stream) (b' : Buf)
    (h : readObs e (f :: fs) 0 s b [] = .ok (i, vs, s', b')) :
    i = (getline 124 s b).2.take 3 ∧ at' (getline 124 s b).2 0 = 'D' := by
  have keep : ∀ (fs : List Int) (cur : Nat) (s : Stream) (b : Buf) (id i : List Char)
      (vs : List ObsValue) (s' : Stream) (b' : Buf), 0 < cur →
      readObs e fs cur s b id = .ok (i, vs, s', b') → i = id := by
    intro fs
    induction fs with
    | nil => intro cur s b id i vs s' b' _ h; simp [readObs] at h; exact h.1.symm
    | cons f fs ih =>
      intro cur s b id i vs s' b' h0 h
      simp only [readObs] at h
      generalize (if cur % 5 = 0 then getline 124 s b else (s, b)) = sb at h
      have hc : ¬ cur = 0 := by omega
      simp only [hc, false_and, if_false] at h
      split at h
      · simp at h
      · split at h
        · simp at h
        · rename_i hr
          simp at h
          obtain ⟨rfl, -, -, -⟩ := h
          exact ih _ _ _ _ _ _ _ _ (by omega) hr
  simp only [readObs, Nat.zero_mod, if_true, true_and] at h
  split at h
  · simp at h
  · rename_i hd
    split at h
    · simp at h
    · split at h
      · simp at h
      · rename_i hr
        simp at h
        obtain ⟨rfl, -, -, -⟩ := h
        exact ⟨keep _ _ _ _ _ _ _ _ _ (by omega) hr, by simpa using hd⟩

/-- **C16.** A block read with success has one record per announced station, one value per
observation code in each, and ids starting with `D`. -/
theorem block_shape (e : Ext) (sf : List Int) (n : Nat) : ∀ (s : Stream) (b : Buf)
    (os : List BeaconObs) (s' : Stream) (b' : Buf), readBlock e sf n s b = .ok (os, s', b') →
    os.length = n ∧ ∀ o ∈ os, o.values.length = sf.length ∧ (sf ≠ [] → o.id.head? = some 'D') := by
  induction n with
  | zero => intro s b os s' b' h; simp [readBlock] at h; obtain ⟨rfl, -, -⟩ := h; simp
  | succ n ih =>
    intro s b os s' b' h
    simp only [readBlock] at h
    split at h
    · simp at h
    · rename_i id vs s1 b1 hr
      split at h
      · simp at h
      · rename_i l s2 b2 hb
        simp at h
        obtain ⟨rfl, rfl, rfl⟩ := h
        obtain ⟨h1, h2⟩ := ih _ _ _ _ _ hb
        refine ⟨by simp [h1], fun o ho => ?_⟩
        rcases List.mem_cons.1 ho with rfl | ho
        · refine ⟨(readObs_lines e _ _ _ _ _ _ _ _ _ hr).2, fun hne => ?_⟩
          cases sf with
          | nil => exact absurd rfl hne
          | cons f fs =>
            obtain ⟨hi, hd⟩ := readObs_id e f fs s b id vs s1 b1 hr
            simp only [hi]
            unfold at' at hd
            generalize (getline 124 s b).2 = bb at hd ⊢
            cases bb with
            | nil => simp at hd
            | cons c r => simpa using hd
        · exact h2 o ho

/-! ### C17 -/

/-- `lines_per_beacon` is the number of lines needed. -/
theorem linesPerBeacon_eq (k : Nat) : linesPerBeacon k = (linesFor k : Int) := by
  unfold linesPerBeacon linesFor
  simp only
  split <;> omega

/-- **C17.** Whatever the stream holds, a successful read leaves it exactly where skipping the
same block does; and skipping performs `stations × ⌈codes/5⌉` line reads. -/
theorem skip_eq_read (e : Ext) (sf : List Int) (num : Int) (s : Stream) (b c : Buf)
    (os : List BeaconObs) (s' : Stream) (b' : Buf)
    (h : readBlock e sf num.toNat s b = .ok (os, s', b')) :
    skipBlock sf.length num s c = s' := by
  have key : ∀ (n : Nat) (s : Stream) (b c : Buf) (os : List BeaconObs) (s' : Stream) (b' : Buf),
      readBlock e sf n s b = .ok (os, s', b') → skipLines (n * linesFor sf.length) s c = s' := by
    intro n
    induction n with
    | zero => intro s b c os s' b' h; simp [readBlock] at h; simp [skipLines, h]
    | succ n ih =>
      intro s b c os s' b' h
      simp only [readBlock] at h
      split at h
      · simp at h
      · rename_i id vs s1 b1 hr
        split at h
        · simp at h
        · rename_i l s2 b2 hb
          simp at h
          obtain ⟨rfl, rfl, rfl⟩ := h
          have h1 := (readObs_lines e _ _ _ _ _ _ _ _ _ hr).1
          simp only [Nat.zero_add] at h1
          rw [Nat.add_mul, Nat.one_mul, Nat.add_comm, skipLines_add]
          have h2 : skipLines (linesFor sf.length) s c = s1 := by
            rw [h1, skipLines_buf _ s c b]; rfl
          rw [h2]
          exact ih s1 b1 c l s2 b2 hb
  unfold skipBlock
  rw [linesPerBeacon_eq]
  have : (num * (linesFor sf.length : Int)).toNat = num.toNat * linesFor sf.length := by
    rcases Int.le_total 0 num with hn | hn
    · obtain ⟨m, rfl⟩ := Int.eq_ofNat_of_zero_le hn
      have : ((m : Int) * (linesFor sf.length : Int)) = ((m * linesFor sf.length : Nat) : Int) := by
        push_cast; rfl
      rw [this]
      rfl
    · have h1 : num.toNat = 0 := by omega
      have h2 : num * (linesFor sf.length : Int) ≤ 0 :=
        Int.mul_nonpos_of_nonpos_of_nonneg hn (by omega)
      rw [h1]
      omega
  rw [this]
  exact key _ _ _ _ _ _ _ h

/-- Skipping consumes as many lines as that, when the file has them. -/
theorem skipLines_drop (n : Nat) : ∀ (L : List Line) (b : Buf), n ≤ L.length →
    (∀ l ∈ L, l.text.length ≤ 123 ∧ l.eol = true) →
    skipLines n (Stream.open L) b = Stream.open (L.drop n) := by
  induction n with
  | zero => intro L b _ _; simp [skipLines]
  | succ n ih =>
    intro L b h hL
    cases L with
    | nil => simp at h
    | cons l rest =>
      have hl := hL l (by simp)
      simp only [skipLines]
      rw [getline_good b (good_open _) rfl (by omega)]
      have : (⟨rest, false, !l.eol⟩ : Stream) = Stream.open rest := by simp [hl.2, Stream.open]
      rw [this]
      simpa using ih rest _ (by simpa using h) (fun x hx => hL x (by simp [hx]))

theorem skip_consumes (codes : Nat) (n : Nat) (L : List Line) (b : Buf)
    (h : n * linesFor codes ≤ L.length) (hL : ∀ l ∈ L, l.text.length ≤ 123 ∧ l.eol = true) :
    skipBlock codes n (Stream.open L) b = Stream.open (L.drop (n * linesFor codes)) := by
  unfold skipBlock
  rw [linesPerBeacon_eq]
  have : ((n : Int) * (linesFor codes : Int)).toNat = n * linesFor codes := by
    rw [show ((n : Int) * (linesFor codes : Int)) = ((n * linesFor codes : Nat) : Int) by
      push_cast; rfl]
    rfl
  rw [this]
  exact skipLines_drop _ L b h hL

/-! ### C18 -/

/-- The 14 characters of observation column `k`. -/
def obsText (line : List Char) (k : Nat) : List Char := (line.drop (3 + 16 * k)).take 14

/-- What column `k` of a line must decode to, for scale factor `f`: flags from the two columns
after the value; a blank or zero value is the missing sentinel; otherwise the number divided by
the factor. -/
structure Decodes (e : Ext) (line : List Char) (k : Nat) (f : Int) (v : ObsValue) : Prop where
  flag1 : line[3 + 16 * k + 14]? = some v.flag1
  flag2 : line[3 + 16 * k + 15]? = some v.flag2
  blank : (obsText line k).all isSpace → v.value = missing
  zero : ¬ (obsText line k).all isSpace → e.strtod (obsText line k) = some 0 → v.value = missing
  number : ∀ x, ¬ (obsText line k).all isSpace → e.strtod (obsText line k) = some x → x ≠ 0 →
    v.value = x / f

theorem takeWhile_of_not_mem (l : List Char) (h : '\x00' ∉ l) :
    l.takeWhile (· != '\x00') = l := by
  induction l with
  | nil => rfl
  | cons c l ih =>
    simp only [List.mem_cons, not_or] at h
    have : (c != '\x00') = true := by simp; exact fun h' => h.1 h'.symm
    rw [List.takeWhile_cons, this, ih h.2]; rfl

theorem readField_line (e : Ext) (line : List Char) (k : Nat) (f : Int) (v : ObsValue)
    (hlen : 3 + k * 16 + 16 ≤ line.length) (hn : '\x00' ∉ line)
    (h : readField e (fill [] line) k f = .ok v) :
    line[3 + 16 * k + 14]? = some v.flag1 ∧ line[3 + 16 * k + 15]? = some v.flag2 ∧
    (((obsText line k).all isSpace = true ∧ v.value = missing / f) ∨
     ((obsText line k).all isSpace = false ∧ ∃ x, e.strtod (obsText line k) = some x ∧
        v.value = (if x = 0 then missing else x) / f)) := by
  have htext : (((fill [] line).drop (3 + k * 16)).take 14).takeWhile (· != '\x00') =
      obsText line k := by
    have : ((fill [] line).drop (3 + k * 16)).take 14 = obsText line k := by
      unfold fill obsText
      rw [List.drop_append_of_le_length (by omega), List.take_append_of_le_length (by simp; omega),
        Nat.mul_comm 16 k]
    rw [this]
    apply takeWhile_of_not_mem
    intro hm
    exact hn (List.mem_of_mem_drop (List.mem_of_mem_take hm))
  have hfl : ∀ j, j < line.length → line[j]? = some (at' (fill [] line) j) := by
    intro j hj
    unfold at' fill
    rw [List.getD_eq_getElem?_getD, List.getElem?_append_left hj, List.getElem?_eq_getElem hj]
    rfl
  have f1 := hfl (3 + k * 16 + 14) (by omega)
  have f2 := hfl (3 + k * 16 + 15) (by omega)
  rw [Nat.mul_comm k 16] at f1 f2
  simp only [readField, htext] at h
  rw [Nat.mul_comm k 16] at h
  split at h
  · rename_i hall
    split at h
    · simp at h
    · simp at h; subst h
      exact ⟨f1, f2, Or.inl ⟨hall, rfl⟩⟩
  · rename_i hall
    split at h
    · simp at h
    · rename_i x hx
      simp at h; subst h
      exact ⟨f1, f2, Or.inr ⟨by simpa using hall, x, hx, rfl⟩⟩

theorem specObs_get (e : Ext) (L : List Line) : ∀ (fs : List Int) (cur : Nat)
    (vs : List ObsValue), specObs e L fs cur = .ok vs → ∀ j < fs.length, ∃ f v,
      fs[j]? = some f ∧ vs[j]? = some v ∧
      readField e (fill [] (L.getD ((cur + j) / 5) ⟨[], true⟩).text) ((cur + j) % 5) f = .ok v := by
  intro fs
  induction fs with
  | nil => intro cur vs _ j hj; simp at hj
  | cons f fs ih =>
    intro cur vs h j hj
    simp only [specObs] at h
    split at h
    · simp at h
    · rename_i v hv
      split at h
      · simp at h
      · rename_i vs' hvs
        simp at h; subst h
        cases j with
        | zero => exact ⟨f, v, by simp, by simp, by simpa using hv⟩
        | succ j =>
          obtain ⟨f', v', h1, h2, h3⟩ := ih (cur + 1) vs' hvs j (by simpa using hj)
          exact ⟨f', v', by simpa using h1, by simpa using h2, by
            rw [show cur + (j + 1) = cur + 1 + j by omega]; exact h3⟩

theorem specBlock_get (e : Ext) (sf : List Int) (n : Nat) : ∀ (L : List Line)
    (os : List BeaconObs), specBlock e sf n L = .ok os → ∀ i < n, ∃ o, os[i]? = some o ∧
      specBeacon e sf (L.drop (i * ((sf.length + 4) / 5))) = .ok o := by
  induction n with
  | zero => intro L os _ i hi; omega
  | succ n ih =>
    intro L os h i hi
    simp only [specBlock] at h
    split at h
    · simp at h
    · rename_i o ho
      split at h
      · simp at h
      · rename_i l hl
        simp at h; subst h
        cases i with
        | zero => exact ⟨o, by simp, by simpa using ho⟩
        | succ i =>
          obtain ⟨o', h1, h2⟩ := ih _ _ hl i (by omega)
          refine ⟨o', by simpa using h1, ?_⟩
          rw [List.drop_drop] at h2
          rw [Nat.add_mul, Nat.one_mul, Nat.add_comm]
          exact h2

/-- All lines of a block for `n` beacons carry their fields and no NUL. -/
def FullBlock (L : List Line) (k n : Nat) : Prop :=
  (∀ i < n, FullLines (L.drop (i * linesFor k)) k) ∧ ∀ l ∈ L, '\x00' ∉ l.text

/-- **C16, C18 (partial).** In a block whose lines carry all their fields, a successful read
takes the id of beacon `i` from the first three columns of its first line, and its `c`-th value
from column `c mod 5` of its line `c / 5`, scaled by its own code's factor; it is exactly the
value prescribed by `Decodes` when the factor is 1 or the observation is present.

Missing: with a factor other than 1 a missing observation is returned as `missing / f`
(`missing_scaled_counterexample`); lines that end before their last field take values from an
older line (`trimmed_line_counterexample`). -/
theorem block_values_partial (e : Ext) (sf : List Int) (n : Nat) (L : List Line) (b : Buf)
    (hL : FullBlock L sf.length n) (os : List BeaconObs) (s' : Stream) (b' : Buf)
    (h : readBlock e sf n (Stream.open L) b = .ok (os, s', b'))
    (i c : Nat) (hi : i < n) (hc : c < sf.length) :
    ∃ o v l first f, os[i]? = some o ∧ o.values[c]? = some v ∧ sf[c]? = some f ∧
      L[i * linesFor sf.length + c / 5]? = some l ∧ L[i * linesFor sf.length]? = some first ∧
      o.id = first.text.take 3 ∧ l.text[3 + 16 * (c % 5) + 14]? = some v.flag1 ∧
      l.text[3 + 16 * (c % 5) + 15]? = some v.flag2 ∧
      ((obsText l.text (c % 5)).all isSpace = true → v.value = missing / f) ∧
      ((obsText l.text (c % 5)).all isSpace = false → ∃ x,
        e.strtod (obsText l.text (c % 5)) = some x ∧
        v.value = (if x = 0 then missing else x) / f) ∧
      (f = 1 ∨ ((obsText l.text (c % 5)).all isSpace = false ∧
          e.strtod (obsText l.text (c % 5)) ≠ some 0) → Decodes e l.text (c % 5) f v) := by
  have hne : sf ≠ [] := by intro h0; subst h0; simp at hc
  have spec := readBlock_spec e sf hne n L b hL.1
  obtain ⟨os', hos⟩ : ∃ os', specBlock e sf n L = .ok os' := by
    cases hs : specBlock e sf n L with
    | ok os' => exact ⟨os', rfl⟩
    | error x => rw [spec.2 x hs] at h; simp at h
  obtain ⟨b1, hb1⟩ := spec.1 os' hos
  rw [h] at hb1
  simp at hb1
  obtain ⟨rfl, -, -⟩ := hb1
  obtain ⟨o, ho1, ho2⟩ := specBlock_get e sf n L os hos i hi
  have hfull := hL.1 i hi
  unfold specBeacon at ho2
  simp only at ho2
  split at ho2
  · simp at ho2
  · split at ho2
    · simp at ho2
    · rename_i vs hvs
      simp at ho2
      subst ho2
      obtain ⟨f, v, hf, hv, hrf⟩ := specObs_get e _ sf 0 vs hvs c hc
      obtain ⟨l, hl1, hl2, -, -⟩ := hfull c hc
      obtain ⟨l0, hl01, hl02, -, -⟩ := hfull 0 (by omega)
      simp only [Nat.zero_add] at hrf
      have e1 : (L.drop (i * ((sf.length + 4) / 5))).getD (c / 5) ⟨[], true⟩ = l := by
        rw [List.getD_eq_getElem?_getD]
        unfold linesFor at hl1
        rw [hl1]; rfl
      have e2 : (L.drop (i * ((sf.length + 4) / 5))).getD 0 ⟨[], true⟩ = l0 := by
        rw [List.getD_eq_getElem?_getD]
        unfold linesFor at hl01
        simp only [Nat.zero_div] at hl01
        rw [hl01]; rfl
      rw [e1] at hrf
      rw [List.getElem?_drop] at hl1 hl01
      simp only [Nat.zero_div, Nat.add_zero] at hl01
      have hmem : l ∈ L := List.mem_of_getElem? hl1
      obtain ⟨g1, g2, g3⟩ := readField_line e l.text (c % 5) f v hl2 (hL.2 l hmem) hrf
      refine ⟨_, v, l, l0, f, ho1, hv, hf, hl1, hl01, ?_, g1, g2, ?_, ?_, ?_⟩
      · have h3 : 3 ≤ l0.text.length := by omega
        rw [List.getD_eq_getElem?_getD, List.getElem?_drop, Nat.add_zero] at e2
        show List.take 3 (fill [] _) = _
        rw [e2]
        unfold fill
        rw [List.take_append_of_le_length h3]
      · intro hb
        rcases g3 with ⟨_, g⟩ | ⟨g, _⟩
        · exact g
        · rw [hb] at g; simp at g
      · intro hb
        rcases g3 with ⟨g, _⟩ | ⟨_, g⟩
        · rw [hb] at g; simp at g
        · exact g
      · intro hcase
        refine ⟨g1, g2, ?_, ?_, ?_⟩
        · intro hb
          rcases g3 with ⟨_, g⟩ | ⟨g, _⟩
          · rcases hcase with rfl | ⟨h1, _⟩
            · simpa using g
            · rw [h1] at hb; simp at hb
          · rw [hb] at g; simp at g
        · intro hb hx
          rcases hcase with rfl | ⟨_, h1⟩
          · rcases g3 with ⟨g, _⟩ | ⟨_, x, gx, g⟩
            · exact absurd g hb
            · rw [hx] at gx
              simp at gx
              subst gx
              simpa using g
          · exact absurd hx h1
        · intro x hb hx hx0
          rcases g3 with ⟨g, _⟩ | ⟨_, y, gy, g⟩
          · exact absurd g hb
          · rw [hx] at gy
            simp at gy
            subst gy
            simpa [hx0] using g

/-- A numeric reader for the examples: the leading integer. -/
def extInt : Ext :=
  ⟨fun s => (strtol s).map fun r => (r.value : Rat), fun _ => some 1, fun _ => some 0⟩

/-- A record line with the given 16-character fields. -/
def rec (id : String) (fields : List String) : Line :=
  ⟨id.toList ++ fields.flatMap String.toList, true⟩

/-- A block that meets the hypotheses: seven codes, two beacons. -/
def sampleBlock : List Line :=
  [rec "D01" ["            11 0", "            12 0", "            13 0", "            14 0",
              "              00"],
   rec "   " ["            16 7", "                "],
   rec "D02" ["            21 0", "            22 0", "            23 0", "            24 0",
              "            25 0"],
   rec "   " ["            26 0", "            27 1"]]

theorem sampleBlock_full : FullBlock sampleBlock 7 2 := by
  refine ⟨?_, by decide +kernel⟩
  have key : ∀ i < 2, ∀ c < 7, ∃ l, (sampleBlock.drop (i * 2))[c / 5]? = some l ∧
      3 + c % 5 * 16 + 16 ≤ l.text.length ∧ l.text.length ≤ 123 ∧ l.eol = true := by
    intro i hi c hc
    have : ∀ i < 2, ∀ c < 7, ((sampleBlock.drop (i * 2))[c / 5]?.any fun l =>
      decide (3 + c % 5 * 16 + 16 ≤ l.text.length ∧ l.text.length ≤ 123 ∧ l.eol = true)) = true := by
      decide +kernel
    have h := this i hi c hc
    cases hl : (sampleBlock.drop (i * 2))[c / 5]? with
    | none => rw [hl] at h; simp at h
    | some l => rw [hl] at h; exact ⟨l, rfl, by simpa using h⟩
  exact key

example : (match readBlock extInt [1, 1, 1, 1, 1, 10, 1] 2 (Stream.open sampleBlock) [] with
    | .ok (os, _, _) => os.map (fun o => (o.id, o.values.map (·.value))) ==
        [("D01".toList, [11, 12, 13, 14, missing, 16 / 10, missing]),
         ("D02".toList, [21, 22, 23, 24, 25, 26 / 10, 27])]
    | .error _ => false) = true := by
  decide +kernel

/-- The sentinel is divided by the scale factor, too: a missing observation is then not
recognisable. -/
theorem missing_scaled_counterexample :
    ∃ (L : List Line) (os : List BeaconObs) (s : Stream) (b : Buf),
      readBlock extInt [10] 1 (Stream.open L) [] = .ok (os, s, b) ∧
      os.map (fun o => o.values.map (·.value)) = [[missing / 10]] ∧ missing / 10 ≠ missing := by
  refine ⟨[rec "D01" ["                "]], _, _, _, rfl, rfl, ?_⟩
  decide +kernel

/-- A line whose trailing blanks were removed takes the missing value from an older line: with
different lines left in the buffer the same line gives different values. -/
theorem trimmed_line_counterexample :
    ∃ (line old₁ old₂ : Line),
      (match readBlock extInt [1, 1] 1 (Stream.open [line]) (fill [] old₁.text),
             readBlock extInt [1, 1] 1 (Stream.open [line]) (fill [] old₂.text) with
        | .ok (o₁, _), .ok (o₂, _) =>
          o₁.map (fun o => o.values.map (·.value)) == [[5, 77]] &&
          o₂.map (fun o => o.values.map (·.value)) == [[5, 88]]
        | _, _ => false) = true :=
  ⟨rec "D01" ["             5"], rec "D09" ["             1 0", "            77 0"],
   rec "D09" ["             1 0", "            88 0"], by decide +kernel⟩

/-! ### C19 -/

theorem readObs_needs_line (e : Ext) (f : Int) (fs : List Int) (s : Stream) (b : Buf)
    (r : List Char × List ObsValue × Stream × Buf)
    (h : readObs e (f :: fs) 0 s b [] = .ok r) : s.good = true ∧ s.lines ≠ [] := by
  have hd : at' (getline 124 s b).2 0 = 'D' := by
    obtain ⟨i, vs, s', b'⟩ := r
    exact (readObs_id e f fs s b i vs s' b' h).2
  by_cases hg : s.good = true
  · refine ⟨hg, fun hl => ?_⟩
    rw [getline_end b hg hl] at hd
    simp [at', fill] at hd
  · rw [getline_bad b (by simpa using hg)] at hd
    simp [at', fill] at hd

theorem getline_lines_length (cap : Nat) (s : Stream) (b : Buf) :
    (getline cap s b).1.fail = false → (getline cap s b).1.lines.length + 1 = s.lines.length := by
  intro h
  obtain ⟨l, rest, hl, -, -, he⟩ := getline_ok h
  rw [he, hl]
  rfl

theorem skipLines_length (n : Nat) : ∀ (s : Stream) (b : Buf), (skipLines n s b).good = true →
    (skipLines n s b).lines.length + n = s.lines.length := by
  induction n with
  | zero => intro s b _; simp [skipLines]
  | succ n ih =>
    intro s b h
    simp only [skipLines] at h ⊢
    have mono : ∀ (m : Nat) (s : Stream) (b : Buf), s.fail = true → (skipLines m s b).fail = true := by
      intro m
      induction m with
      | zero => intro s b h; simpa [skipLines] using h
      | succ m ihm => intro s b h; simp only [skipLines]; exact ihm _ _ (getline_fail_mono h)
    have h1 := ih _ _ h
    have h2 : (getline 124 s b).1.fail = false := by
      cases hx : (getline 124 s b).1.fail with
      | false => rfl
      | true =>
        have := mono n _ (getline 124 s b).2 hx
        simp [Stream.good, this] at h
    have h3 := getline_lines_length 124 s b h2
    omega

/-- **C19 (partial).** A successful read of `n + 1` beacons needs every line of the first `n`
beacons and the first line of the last one: a file that ends before that is reported.

Missing: a file that ends inside the continuation lines of the last beacon is not reported
(`truncated_counterexample`). -/
theorem truncated_reported_partial (e : Ext) (sf : List Int) (hsf : sf ≠ []) (n : Nat) :
    ∀ (s : Stream) (b : Buf) (r : List BeaconObs × Stream × Buf),
      readBlock e sf (n + 1) s b = .ok r → n * linesFor sf.length + 1 ≤ s.lines.length := by
  obtain ⟨f, fs, rfl⟩ : ∃ f fs, sf = f :: fs := by
    cases sf with
    | nil => exact absurd rfl hsf
    | cons f fs => exact ⟨f, fs, rfl⟩
  induction n with
  | zero =>
    intro s b r h
    simp only [readBlock] at h
    split at h
    · simp at h
    · rename_i hr
      have := (readObs_needs_line e f fs s b _ hr).2
      have : s.lines.length ≠ 0 := fun h0 => this (List.eq_nil_of_length_eq_zero h0)
      omega
  | succ n ih =>
    intro s b r h
    rw [readBlock] at h
    split at h
    · simp at h
    · rename_i id vs s1 b1 hr
      split at h
      · simp at h
      · rename_i l s2 b2 hb
        have h1 := ih s1 b1 _ hb
        have hg1 : s1.good = true := by
          simp only [readBlock] at hb
          split at hb
          · simp at hb
          · rename_i hr1
            exact (readObs_needs_line e f fs s1 b1 _ hr1).1
        have hs1 := (readObs_lines e _ _ _ _ _ _ _ _ _ hr).1
        simp only [Nat.zero_add] at hs1
        have h2 := skipLines_length _ s b (hs1 ▸ hg1)
        rw [← hs1] at h2
        have h3 : ((f :: fs).length + 4) / 5 - 4 / 5 = linesFor (f :: fs).length := by
          simp [linesFor]
        rw [h3] at h2
        rw [Nat.add_mul, Nat.one_mul]
        omega

/-- In particular every truncation is reported when a beacon needs one line only. -/
theorem truncated_reported_one_line (e : Ext) (sf : List Int) (hsf : sf ≠ [])
    (h5 : sf.length ≤ 5) (n : Nat) (s : Stream) (b : Buf) (hlt : s.lines.length < n) :
    ∃ x, readBlock e sf n s b = .error x := by
  cases hr : readBlock e sf n s b with
  | error x => exact ⟨x, rfl⟩
  | ok r =>
    cases n with
    | zero => omega
    | succ n =>
      have := truncated_reported_partial e sf hsf n s b r hr
      have hl : linesFor sf.length = 1 := by
        have : sf.length ≠ 0 := fun h0 => hsf (List.eq_nil_of_length_eq_zero h0)
        unfold linesFor
        omega
      rw [hl] at this
      omega

/-- A file cut after the first line of a two-line record: success is reported, and values 6 and
7 are those of columns 1 and 2 of the first line. -/
theorem truncated_counterexample :
    (match readBlock extInt [1, 1, 1, 1, 1, 1, 1] 1 (Stream.open (sampleBlock.take 1)) [] with
      | .ok (os, _, _) => os.map (fun o => o.values.map (·.value)) ==
          [[11, 12, 13, 14, missing, 11, 12]]
      | .error _ => false) = true := by
  decide +kernel

/-! ### C20 -/

theorem int3_fill (st line : List Char) (k : Nat) (h : k + 3 ≤ line.length) :
    int3 (fill st line) k = int3 (fill [] line) k := by
  simp only [int3, take_drop_fill st line k 3 h]

/-- Columns `[k, k+3)` as an integer. -/
def intCols (line : List Char) (k : Nat) : Option Int :=
  match strtol ((line.drop k).take 3) with
  | none => none
  | some r => if r.erange then none else some r.value

/-- What an epoch line must resolve to, by columns: '>' in column 0, epoch from column 2, flag
in columns 31-33, number of stations in 34-36, clock offset in 43-55 (blank: missing), clock flag
from column 56; the first failing field gives the status. -/
def epochSpec (e : Ext) (line : List Char) : Except Nat RecHdr :=
  if line.head? ≠ some '>' then .error 1
  else if e.strptime (line.drop 2) = none then .error 2
  else if intCols line 31 = none then .error 3
  else if intCols line 34 = none then .error 4
  else if (line.drop 43).take 13 ≠ List.replicate 13 ' ' ∧ e.strtod (line.drop 43) = none then
    .error 5
  else if (match strtol (line.drop 56) with | none => true | some r => r.erange) then .error 6
  else .ok
    { epoch := (e.strptime (line.drop 2)).getD 0
      clockOffset := if (line.drop 43).take 13 = List.replicate 13 ' ' then missing
        else (e.strtod (line.drop 43)).getD 0
      numStations := (intCols line 34).getD 0
      flag := toInt8 ((intCols line 31).getD 0)
      clockFlag := toInt8 (((strtol (line.drop 56)).map LongResult.value).getD 0) }

theorem at'_line (st line : List Char) (k : Nat) (h : k < line.length) :
    at' (fill st line) k = line[k] := by
  unfold at' fill
  rw [List.getD_eq_getElem?_getD, List.getElem?_append_left h, List.getElem?_eq_getElem h]
  rfl

theorem blank13 (st line : List Char) (h : 56 ≤ line.length) :
    (List.range 13).any (fun i => at' (fill st line) (43 + i) != ' ') = false ↔
      (line.drop 43).take 13 = List.replicate 13 ' ' := by
  rw [List.any_eq_false]
  constructor
  · intro hh
    apply List.ext_getElem
    · simp; omega
    · intro i h1 h2
      have hi : i < 13 := by simpa using h2
      have := hh i (by simpa using hi)
      rw [at'_line st line (43 + i) (by omega)] at this
      rw [List.getElem_replicate]
      simpa using this
  · intro hh i hi
    have hi' : i < 13 := by simpa using hi
    have hx : ((line.drop 43).take 13)[i]? = some ' ' := by
      rw [hh, List.getElem?_replicate]; simp [hi']
    rw [List.getElem?_take_of_lt hi', List.getElem?_drop, List.getElem?_eq_getElem (by omega)] at hx
    rw [at'_line st line (43 + i) (by omega)]
    simpa using hx

/-- **C20 (partial).** An epoch line of at least 56 characters (all fixed columns present)
resolves to its columns, whatever the buffer held before.

Missing: shorter lines, e.g. those without the optional clock fields, for which the outcome
depends on uninitialised memory (`short_epoch_counterexample`). -/
theorem epoch_columns_partial (e : Ext) (st line : List Char) (h : 56 ≤ line.length)
    (hn : '\x00' ∉ line) : resolveEpoch e (fill st line) = epochSpec e line := by
  have hcs : ∀ k ≤ 56, cstr (fill st line) k = line.drop k := by
    intro k hk
    rw [cstr_fill st line k (by omega)]
    exact takeWhile_of_not_mem _ fun hm => hn (List.mem_of_mem_drop hm)
  have hi3 : ∀ k, k + 3 ≤ 56 → int3 (fill st line) k = intCols line k := by
    intro k hk
    have : ((fill st line).drop k).take 3 = (line.drop k).take 3 := by
      unfold fill
      rw [List.drop_append_of_le_length (by omega), List.take_append_of_le_length (by simp; omega)]
    unfold int3 intCols
    rw [this, takeWhile_of_not_mem _ fun hm => hn (List.mem_of_mem_drop (List.mem_of_mem_take hm))]
    rfl
  have hhd : at' (fill st line) 0 ≠ '>' ↔ line.head? ≠ some '>' := by
    rw [at'_line st line 0 (by omega)]
    cases line with
    | nil => simp at h
    | cons c r => simp
  unfold resolveEpoch epochSpec
  simp only [hcs 2 (by omega), hcs 43 (by omega), hcs 56 (by omega), hi3 31 (by omega),
    hi3 34 (by omega), hhd]
  split
  · rfl
  · cases h1 : e.strptime (line.drop 2) with
    | none => simp
    | some t =>
      simp only [reduceCtorEq, if_false]
      cases h2 : intCols line 31 with
      | none => simp
      | some fl =>
        simp only [reduceCtorEq, if_false]
        cases h3 : intCols line 34 with
        | none => simp
        | some nst =>
          simp only [reduceCtorEq, if_false]
          by_cases hb : (line.drop 43).take 13 = List.replicate 13 ' '
          · have hb' := (blank13 st line h).2 hb
            simp only [hb', hb, Bool.false_eq_true, if_false, ne_eq, not_true_eq_false, false_and,
              if_true]
            cases h5 : strtol (line.drop 56) with
            | none => simp
            | some r =>
              by_cases hr : r.erange = true <;> simp [hr]
          · have hb' : (List.range 13).any (fun i => at' (fill st line) (43 + i) != ' ') = true := by
              cases hx : (List.range 13).any (fun i => at' (fill st line) (43 + i) != ' ') with
              | true => rfl
              | false => exact absurd ((blank13 st line h).1 hx) hb
            simp only [hb', hb, if_true, ne_eq, not_false_eq_true, true_and, if_false]
            cases h4 : e.strtod (line.drop 43) with
            | none => simp
            | some off =>
              simp only [reduceCtorEq, if_false]
              cases h5 : strtol (line.drop 56) with
              | none => simp
              | some r =>
                by_cases hr : r.erange = true <;> simp [hr]

/-- Only lines starting with '>' are accepted, short or long. -/
theorem epoch_marker (e : Ext) (b : Buf) (r : RecHdr) (h : resolveEpoch e b = .ok r) :
    at' b 0 = '>' := by
  unfold resolveEpoch at h
  split at h
  · simp at h
  · rename_i h0; simpa using h0

/-- The example line of the documentation (src/rinex/doris_rinex.cpp:210). -/
def sampleEpoch : List Char := "> 2020 01 01 01 41 53.279947800  0  4       -4.432841287 0 ".toList

example : resolveEpoch extInt (fill [] sampleEpoch) = .ok ⟨0, -4, 4, 0, 0⟩ ∧
    56 ≤ sampleEpoch.length ∧ '\x00' ∉ sampleEpoch := by
  decide +kernel

/-- A line that ends after the number of stations: clock offset and flag come from whatever the
buffer holds. -/
theorem short_epoch_counterexample :
    ∃ (line st₁ st₂ : List Char),
      resolveEpoch extInt (fill st₁ line) = .error 6 ∧
      resolveEpoch extInt (fill st₂ line) = .ok ⟨0, 7, 4, 0, 1⟩ := by
  refine ⟨"> 2020 01 01 01 41 53.279947800  0  4".toList, List.replicate 124 ' ',
    List.replicate 42 ' ' ++ "            7 1".toList, by decide +kernel, by decide +kernel⟩

/-! ### C21 -/

/-- An id of `n` characters other than NUL. -/
def IsId (n : Nat) (a : List Char) : Prop := a.length = n ∧ '\x00' ∉ a

theorem strncmpEq_refl (n : Nat) : ∀ a : List Char, strncmpEq n a a = true := by
  induction n with
  | zero => intro a; rfl
  | succ n ih =>
    intro a
    simp only [strncmpEq, bne_self_eq_false, Bool.false_eq_true, if_false]
    split
    · rfl
    · exact ih _

theorem strncmpEq_iff (n : Nat) : ∀ (a b : List Char), IsId n a → IsId n b →
    (strncmpEq n a b = true ↔ a = b) := by
  intro a b ha hb
  constructor
  · induction n generalizing a b with
    | zero =>
      intro _
      rw [List.eq_nil_of_length_eq_zero ha.1, List.eq_nil_of_length_eq_zero hb.1]
    | succ n ih =>
      intro h
      cases a with
      | nil => simp [IsId] at ha
      | cons x a =>
        cases b with
        | nil => simp [IsId] at hb
        | cons y b =>
          obtain ⟨ha1, ha2⟩ := ha
          obtain ⟨hb1, hb2⟩ := hb
          simp only [List.mem_cons, not_or] at ha2 hb2
          simp only [strncmpEq, List.headD_cons, List.tail_cons] at h
          by_cases hxy : x = y
          · subst hxy
            have : (x == '\x00') = false := by simp; exact fun h' => ha2.1 h'.symm
            simp [this] at h
            rw [ih a b ⟨by simpa using ha1, ha2.2⟩ ⟨by simpa using hb1, hb2.2⟩ h]
          · simp [hxy] at h
  · rintro rfl; exact strncmpEq_refl n a

theorem same3_iff (a b : List Char) (ha : a.length = 3) (hb : b.length = 3) :
    same3 a b = true ↔ a = b := by
  match a, b, ha, hb with
  | [x, y, z], [x', y', z'], _, _ => simp [same3, and_assoc]

/-- First element with a property, as an index. -/
def IsFirst {α : Type} (l : List α) (p : α → Prop) (i : Nat) (x : α) : Prop :=
  l[i]? = some x ∧ p x ∧ ∀ j < i, ∀ y, l[j]? = some y → ¬ p y

theorem find?_isFirst {α : Type} (p : α → Bool) (l : List α) (x : α) (h : l.find? p = some x) :
    ∃ i, IsFirst l (fun y => p y = true) i x := by
  induction l with
  | nil => simp at h
  | cons a l ih =>
    rw [List.find?_cons] at h
    split at h
    · rename_i ha
      simp at h; subst h
      exact ⟨0, by simp, ha, by intro j hj; omega⟩
    · rename_i ha
      obtain ⟨i, h1, h2, h3⟩ := ih h
      refine ⟨i + 1, by simpa using h1, h2, ?_⟩
      intro j hj y hy
      cases j with
      | zero => simp at hy; subst hy; simpa using ha
      | succ j => exact h3 j (by omega) y (by simpa using hy)

/-- Station lists as produced by the header reader. -/
def GoodStations (st : List Beacon) : Prop :=
  ∀ s ∈ st, IsId 3 s.internalCode ∧ IsId 4 s.stationId

/-- **C21.** Lookup by internal id: the first station carrying it, nothing exactly when there is
none. -/
theorem internal_lookup (st : List Beacon) (hst : GoodStations st) (id : List Char)
    (hid : IsId 3 id) :
    (∀ r, internalId2Id st id = some r →
      ∃ i s, IsFirst st (fun s => s.internalCode = id) i s ∧ s.stationId = r) ∧
    (internalId2Id st id = none ↔ ∀ s ∈ st, s.internalCode ≠ id) := by
  have hiff : ∀ s ∈ st, (strncmpEq 3 id s.internalCode = true ↔ s.internalCode = id) := by
    intro s hs
    rw [strncmpEq_iff 3 _ _ hid (hst s hs).1]
    exact eq_comm
  constructor
  · intro r hr
    unfold internalId2Id at hr
    rw [Option.map_eq_some_iff] at hr
    obtain ⟨s, hs, rfl⟩ := hr
    obtain ⟨i, h1, h2, h3⟩ := find?_isFirst _ _ _ hs
    refine ⟨i, s, ⟨h1, (hiff s (List.mem_of_getElem? h1)).1 h2, ?_⟩, rfl⟩
    intro j hj y hy hc
    exact h3 j hj y hy ((hiff y (List.mem_of_getElem? hy)).2 hc)
  · unfold internalId2Id
    rw [Option.map_eq_none_iff, List.find?_eq_none]
    constructor
    · intro h s hs hc; exact h s hs ((hiff s hs).2 hc)
    · intro h s hs hc; exact h s hs ((hiff s hs).1 hc)

/-- **C21.** Lookup by station id. -/
theorem station_lookup (st : List Beacon) (hst : GoodStations st) (id : List Char)
    (hid : IsId 4 id) :
    (∀ r, id2InternalId st id = some r →
      ∃ i s, IsFirst st (fun s => s.stationId = id) i s ∧ s.internalCode = r) ∧
    (id2InternalId st id = none ↔ ∀ s ∈ st, s.stationId ≠ id) := by
  have hiff : ∀ s ∈ st, (strncmpEq 4 id s.stationId = true ↔ s.stationId = id) := by
    intro s hs
    rw [strncmpEq_iff 4 _ _ hid (hst s hs).2]
    exact eq_comm
  constructor
  · intro r hr
    unfold id2InternalId at hr
    rw [Option.map_eq_some_iff] at hr
    obtain ⟨s, hs, rfl⟩ := hr
    obtain ⟨i, h1, h2, h3⟩ := find?_isFirst _ _ _ hs
    refine ⟨i, s, ⟨h1, (hiff s (List.mem_of_getElem? h1)).1 h2, ?_⟩, rfl⟩
    intro j hj y hy hc
    exact h3 j hj y hy ((hiff y (List.mem_of_getElem? hy)).2 hc)
  · unfold id2InternalId
    rw [Option.map_eq_none_iff, List.find?_eq_none]
    constructor
    · intro h s hs hc; exact h s hs ((hiff s hs).2 hc)
    · intro h s hs hc; exact h s hs ((hiff s hs).1 hc)

/-- **C21.** The two lookups are inverse to each other when ids are not repeated. -/
theorem lookups_inverse (st : List Beacon) (hst : GoodStations st)
    (hu : ∀ s ∈ st, ∀ t ∈ st, s.internalCode = t.internalCode ↔ s.stationId = t.stationId)
    (a b : List Char) (ha : IsId 3 a) (hb : IsId 4 b) :
    internalId2Id st a = some b ↔ id2InternalId st b = some a := by
  constructor
  · intro h
    obtain ⟨i, s, ⟨h1, h2, -⟩, h3⟩ := (internal_lookup st hst a ha).1 b h
    have hs := List.mem_of_getElem? h1
    cases hq : id2InternalId st b with
    | none => exact absurd h3 ((station_lookup st hst b hb).2.1 hq s hs)
    | some c =>
      obtain ⟨j, t, ⟨g1, g2, -⟩, g3⟩ := (station_lookup st hst b hb).1 c hq
      have ht := List.mem_of_getElem? g1
      have := (hu s hs t ht).2 (h3.trans g2.symm)
      rw [← g3, ← this, h2]
  · intro h
    obtain ⟨i, s, ⟨h1, h2, -⟩, h3⟩ := (station_lookup st hst b hb).1 a h
    have hs := List.mem_of_getElem? h1
    cases hq : internalId2Id st a with
    | none => exact absurd h3 ((internal_lookup st hst a ha).2.1 hq s hs)
    | some c =>
      obtain ⟨j, t, ⟨g1, g2, -⟩, g3⟩ := (internal_lookup st hst a ha).1 c hq
      have ht := List.mem_of_getElem? g1
      have := (hu s hs t ht).1 (h3.trans g2.symm)
      rw [← g3, ← this, h2]

/-- **C21.** The shift factor is that of the first station with the id; the station lookup and
the shift-factor lookup agree. -/
theorem shift_lookup (st : List Beacon) (id : List Char) :
    shiftFactor st id = (internalId2Station st id).map Beacon.shift := by
  unfold shiftFactor internalId2Station
  congr 2
  funext s
  unfold same3
  rw [Bool.beq_comm (a := s.internalCode.getD 0 _), Bool.beq_comm (a := s.internalCode.getD 1 _),
    Bool.beq_comm (a := s.internalCode.getD 2 _)]

theorem station_by_internal (st : List Beacon) (hst : GoodStations st) (id : List Char)
    (hid : IsId 3 id) :
    (∀ s, internalId2Station st id = some s →
      ∃ i, IsFirst st (fun s => s.internalCode = id) i s) ∧
    (internalId2Station st id = none ↔ ∀ s ∈ st, s.internalCode ≠ id) := by
  have hiff : ∀ s ∈ st, (same3 id s.internalCode = true ↔ s.internalCode = id) := by
    intro s hs
    rw [same3_iff _ _ hid.1 (hst s hs).1.1]
    exact eq_comm
  constructor
  · intro s hs
    unfold internalId2Station at hs
    obtain ⟨i, h1, h2, h3⟩ := find?_isFirst _ _ _ hs
    refine ⟨i, h1, (hiff s (List.mem_of_getElem? h1)).1 h2, ?_⟩
    intro j hj y hy hc
    exact h3 j hj y hy ((hiff y (List.mem_of_getElem? hy)).2 hc)
  · unfold internalId2Station
    rw [List.find?_eq_none]
    constructor
    · intro h s hs hc; exact h s hs ((hiff s hs).2 hc)
    · intro h s hs hc; exact h s hs ((hiff s hs).1 hc)

/-- **C21.** Lookup in a block. -/
theorem block_lookup (blk : List BeaconObs) (hb : ∀ o ∈ blk, o.id.length = 3) (id : List Char)
    (hid : id.length = 3) :
    (∀ o, containsBeacon blk id = some o → ∃ i, IsFirst blk (fun o => o.id = id) i o) ∧
    (containsBeacon blk id = none ↔ ∀ o ∈ blk, o.id ≠ id) := by
  have hiff : ∀ o ∈ blk, (same3 o.id id = true ↔ o.id = id) :=
    fun o ho => same3_iff _ _ (hb o ho) hid
  constructor
  · intro o ho
    unfold containsBeacon at ho
    obtain ⟨i, h1, h2, h3⟩ := find?_isFirst _ _ _ ho
    refine ⟨i, h1, (hiff o (List.mem_of_getElem? h1)).1 h2, ?_⟩
    intro j hj y hy hc
    exact h3 j hj y hy ((hiff y (List.mem_of_getElem? hy)).2 hc)
  · unfold containsBeacon
    rw [List.find?_eq_none]
    constructor
    · intro h s hs hc; exact h s hs ((hiff s hs).2 hc)
    · intro h s hs hc; exact h s hs ((hiff s hs).1 hc)

/-- **C21.** Observation-code index: first matching position, or -1 exactly when absent. -/
theorem code_lookup (codes : List ObsCode) (a : ObsCode) :
    (a ∉ codes ∧ codeIndex codes a = -1) ∨
    (∃ i : Nat, codeIndex codes a = i ∧ IsFirst codes (fun o => o = a) i a) := by
  have hiff : ∀ o : ObsCode, o.eq a = true ↔ o = a := by
    intro o
    cases o; cases a
    simp [ObsCode.eq]
  unfold codeIndex
  by_cases h : codes.any (fun o => o.eq a) = true
  · right
    rw [if_pos h]
    refine ⟨_, rfl, ?_⟩
    have hlt : codes.findIdx (fun o => o.eq a) < codes.length := by
      rw [List.findIdx_lt_length]
      rw [List.any_eq_true] at h
      exact h
    have hp := List.findIdx_getElem (w := hlt)
    refine ⟨?_, rfl, ?_⟩
    · rw [List.getElem?_eq_getElem hlt, (hiff _).1 hp]
    · intro j hj y hy hc
      have := List.not_of_lt_findIdx hj
      rw [List.getElem?_eq_getElem (by omega)] at hy
      simp at hy
      rw [hy, hc] at this
      exact absurd ((hiff a).2 rfl) (by simpa using this)
  · left
    rw [if_neg h]
    refine ⟨fun hm => h ?_, rfl⟩
    rw [List.any_eq_true]
    exact ⟨a, hm, (hiff a).2 rfl⟩

example : GoodStations [⟨"D01".toList, "PAUB".toList, [], [], 3, 0⟩,
    ⟨"D02".toList, "KRWB".toList, [], [], 3, -3⟩] := by
  intro s hs
  simp at hs
  rcases hs with rfl | rfl <;> simp [IsId]

/-! ### C22 -/

/-- A well-formed block: an epoch line and its body. -/
structure WFBlock where
  epoch : Line
  body : List Line

def WFBlock.lines (w : WFBlock) : List Line := w.epoch :: w.body

/-- The block is complete (all lines terminated and with all their columns), and read on its own
gives `h`, `o`. -/
structure WFBlock.Gives (e : Ext) (sf : List Int) (w : WFBlock) (h : RecHdr)
    (o : List BeaconObs) : Prop where
  epochCols : 56 ≤ w.epoch.text.length ∧ w.epoch.text.length ≤ 123 ∧ w.epoch.eol = true ∧
    '\x00' ∉ w.epoch.text
  bodyLen : w.body.length = h.numStations.toNat * linesFor sf.length
  full : FullBlock w.body sf.length h.numStations.toNat
  epochOk : resolveEpoch e (fill [] w.epoch.text) = .ok h
  bodyOk : ∃ s b, readBlock e sf h.numStations.toNat (Stream.open w.body) [] = .ok (o, s, b)

theorem specBlock_append (e : Ext) (sf : List Int) (hsf : sf ≠ []) (n : Nat) :
    ∀ (L M : List Line), (∀ i < n, FullLines (L.drop (i * linesFor sf.length)) sf.length) →
    n * linesFor sf.length ≤ L.length →
    specBlock e sf n (L ++ M) = specBlock e sf n L := by
  have hobs : ∀ (fs : List Int) (cur k : Nat) (L M : List Line), FullLines L k →
      cur + fs.length ≤ k → specObs e (L ++ M) fs cur = specObs e L fs cur := by
    intro fs
    induction fs with
    | nil => intros; rfl
    | cons f fs ih =>
      intro cur k L M hL hk
      obtain ⟨l, hl, -⟩ := hL cur (by simp at hk; omega)
      have hlt : cur / 5 < L.length := by
        rw [List.getElem?_eq_some_iff] at hl; exact hl.1
      have : (L ++ M).getD (cur / 5) ⟨[], true⟩ = L.getD (cur / 5) ⟨[], true⟩ := by
        rw [List.getD_eq_getElem?_getD, List.getD_eq_getElem?_getD, List.getElem?_append_left hlt]
      simp only [specObs, this, ih (cur + 1) k L M hL (by simp at hk; omega)]
  induction n with
  | zero => intros; rfl
  | succ n ih =>
    intro L M hL hlen
    have h0 := hL 0 (by omega)
    simp only [Nat.zero_mul, List.drop_zero] at h0
    rw [Nat.add_mul, Nat.one_mul] at hlen
    have hpos : 0 < sf.length := List.length_pos_iff.2 hsf
    have hL0 : 0 < L.length := by
      obtain ⟨l, hl, -⟩ := h0 0 hpos
      rw [List.getElem?_eq_some_iff] at hl
      exact Nat.lt_of_le_of_lt (Nat.zero_le _) hl.1
    have hget : (L ++ M).getD 0 ⟨[], true⟩ = L.getD 0 ⟨[], true⟩ := by
      rw [List.getD_eq_getElem?_getD, List.getD_eq_getElem?_getD, List.getElem?_append_left hL0]
    have hb : specBeacon e sf (L ++ M) = specBeacon e sf L := by
      unfold specBeacon
      rw [hget, hobs sf 0 sf.length L M h0 (by omega)]
    have hrec := ih (L.drop (linesFor sf.length)) M (by
      intro i hi
      rw [List.drop_drop]
      have := hL (i + 1) (by omega)
      rw [Nat.add_mul, Nat.one_mul, Nat.add_comm] at this
      exact this) (by simp; omega)
    have hdrop : (L ++ M).drop (linesFor sf.length) = L.drop (linesFor sf.length) ++ M :=
      List.drop_append_of_le_length (by omega)
    simp only [specBlock, hb]
    unfold linesFor at hdrop hrec
    rw [hdrop, hrec]

/-- Stream at the start of a well-formed block followed by `rest`: one step returns the block and
leaves the stream at `rest`. -/
theorem next_block (e : Ext) (sf : List Int) (hsf : sf ≠ []) (stack : Buf) (w : WFBlock)
    (h : RecHdr) (o : List BeaconObs) (hw : w.Gives e sf h o) (rest : List Line) (b : Buf) :
    ∃ b', next e sf stack (Stream.open (w.lines ++ rest)) b =
      (.block h o, Stream.open rest, b') := by
  obtain ⟨⟨c1, c2, c3, c4⟩, hlen, hfull, hep, ⟨s0, b0, hbody0⟩⟩ := hw
  have hbody : specBlock e sf h.numStations.toNat w.body = .ok o := by
    have spec := readBlock_spec e sf hsf h.numStations.toNat w.body [] hfull.1
    cases hs : specBlock e sf h.numStations.toNat w.body with
    | ok os' =>
      obtain ⟨b1, hb1⟩ := spec.1 os' hs
      rw [hbody0] at hb1
      simp at hb1
      rw [hb1.1]
    | error x => rw [spec.2 x hs] at hbody0; simp at hbody0
  have hget : getline 124 (Stream.open (w.lines ++ rest)) stack =
      (Stream.open (w.body ++ rest), fill stack w.epoch.text) := by
    rw [getline_good (cap := 124) (s := Stream.open (w.lines ++ rest)) stack (good_open _)
      (l := w.epoch) (rest := w.body ++ rest) rfl (by omega)]
    simp [c3, Stream.open]
  have hfull' : ∀ i < h.numStations.toNat,
      FullLines ((w.body ++ rest).drop (i * linesFor sf.length)) sf.length := by
    intro i hi c hc
    obtain ⟨l, hl, h2⟩ := hfull.1 i hi c hc
    refine ⟨l, ?_, h2⟩
    rw [List.getElem?_drop] at hl ⊢
    rw [List.getElem?_append_left (by rw [List.getElem?_eq_some_iff] at hl; exact hl.1)]
    exact hl
  have hspec := specBlock_append e sf hsf h.numStations.toNat w.body rest hfull.1 (by omega)
  obtain ⟨b', hb'⟩ := (readBlock_spec e sf hsf h.numStations.toNat (w.body ++ rest) b hfull').1 o
    (by rw [hspec, hbody])
  refine ⟨b', ?_⟩
  unfold next
  simp only [hget]
  rw [epoch_columns_partial e stack w.epoch.text c1 c4,
    ← epoch_columns_partial e [] w.epoch.text c1 c4, hep]
  simp only [Stream.open, Bool.false_eq_true, if_false]
  unfold Stream.open at hb'
  rw [hb']
  have : (w.body ++ rest).drop (h.numStations.toNat * ((sf.length + 4) / 5)) = rest := by
    unfold linesFor at hlen
    rw [← hlen]; simp
  simp only [this]

/-- **C22.** Iterating over a file made of well-formed blocks yields each block's content exactly
once, in order, and then reports end of file. -/
theorem iterate_visits_all (e : Ext) (sf : List Int) (hsf : sf ≠ []) (stack : Buf) :
    ∀ (ws : List (WFBlock × RecHdr × List BeaconObs)) (b : Buf) (fuel : Nat),
      (∀ w ∈ ws, w.1.Gives e sf w.2.1 w.2.2) → ws.length < fuel →
      iterate e sf stack fuel (Stream.open (ws.flatMap fun w => w.1.lines)) b =
        (ws.map (fun w => w.2), some (-1)) := by
  intro ws
  induction ws with
  | nil =>
    intro b fuel _ hf
    cases fuel with
    | zero => omega
    | succ fuel => simp [iterate, next, getline, Stream.open, Stream.good]
  | cons w ws ih =>
    intro b fuel hws hf
    cases fuel with
    | zero => omega
    | succ fuel =>
      obtain ⟨b', hb'⟩ := next_block e sf hsf stack w.1 w.2.1 w.2.2 (hws w (by simp))
        (ws.flatMap fun w => w.1.lines) b
      rw [List.flatMap_cons]
      simp only [iterate, hb']
      rw [ih b' fuel (fun x hx => hws x (by simp [hx])) (by simpa using hf)]
      simp

/-- Two stations, seven codes. -/
def sampleWF : WFBlock :=
  ⟨⟨"> 2020 01 01 01 41 53.279947800  0  2       -4.432841287 0 ".toList, true⟩, sampleBlock⟩

example : ∃ h o, sampleWF.Gives extInt [1, 1, 1, 1, 1, 10, 1] h o ∧ o.length = 2 := by
  refine ⟨⟨0, -4, 2, 0, 0⟩, [⟨_, _⟩, ⟨_, _⟩], ⟨by decide +kernel, by decide +kernel,
    sampleBlock_full, by decide +kernel, ⟨_, _, rfl⟩⟩, rfl⟩

/-- **C22.** On a stream in good state, end of file is reported only when no line is left: no
other failure is reported as end of file. -/
theorem eof_only_at_end (e : Ext) (sf : List Int) (stack : Buf) (s : Stream) (b : Buf)
    (hg : s.good = true) :
    (∃ p, next e sf stack s b = (.stop (-1), p)) ↔ s.lines = [] := by
  constructor
  · rintro ⟨p, hp⟩
    unfold next at hp
    simp only at hp
    split at hp
    · rename_i hf
      split at hp
      · rename_i he
        by_contra hl
        obtain ⟨l, rest, hl⟩ := List.exists_cons_of_ne_nil hl
        unfold getline at hf he
        simp only [hg, hl, Bool.true_eq_false, if_false] at hf he
        split at hf
        · rename_i h1; simp [h1] at he
        · simp at hf
      · simp at hp
    · split at hp
      · simp at hp
      · split at hp <;> simp at hp
  · intro hl
    refine ⟨({ s with fail := true, eof := true }, b), ?_⟩
    unfold next
    simp only [getline_end stack hg hl, if_true]

/-! ### C23 -/

/-- Whole part of a rational, toward zero. -/
theorem truncInt_eq (x : Rat) : truncInt x = if 0 ≤ x then ⌊x⌋ else ⌈x⌉ := by
  have hd : (x.den : Int) ≠ 0 := by exact_mod_cast x.den_nz
  unfold truncInt
  split
  · rename_i h
    rw [Int.tdiv_eq_ediv_of_nonneg (Rat.num_nonneg.2 h), Rat.floor_def']
  · rename_i h
    have hneg : x.num < 0 := by
      by_contra h'
      exact h (Rat.num_nonneg.1 (by omega))
    have : ⌈x⌉ = -⌊-x⌋ := by rw [Int.floor_neg, neg_neg]
    rw [this, Rat.floor_def']
    have h1 : (-x).num = - x.num := Rat.num_neg_eq_neg_num x
    have h2 : (-x).den = x.den := Rat.den_neg_eq_den x
    rw [h1, h2, ← Int.tdiv_eq_ediv_of_nonneg (by omega), Int.neg_tdiv, neg_neg]

/-- The spec: the record epoch, moved by the receiver clock offset in whole nanoseconds unless
the file says it was already applied or there is none. -/
def l1Spec (applied : Bool) (epoch : Int) (offset : Option Rat) : Int :=
  match applied, offset with
  | true, _ => epoch
  | false, none => epoch
  | false, some x => epoch + (if 0 ≤ x then ⌊x * 1000000000⌋ else ⌈x * 1000000000⌉)

/-- Reading of the offset member: the sentinel stands for "none". -/
def offsetOf (h : RecHdr) : Option Rat := if h.clockOffset = missing then none else some h.clockOffset

theorem nonneg_scale (x : Rat) : 0 ≤ x * 1000000000 ↔ 0 ≤ x := by
  constructor
  · intro h; by_contra hx; have : x * 1000000000 < 0 := by linarith
    linarith
  · intro h; positivity

/-- **C23.** The corrected L1 epoch. -/
theorem l1_epoch (applied : Bool) (h : RecHdr) :
    l1Epoch applied h = l1Spec applied h.epoch (offsetOf h) := by
  unfold l1Epoch l1Spec offsetOf
  cases applied with
  | true => simp
  | false =>
    by_cases hm : h.clockOffset = missing
    · simp [hm, truncInt]
    · simp only [hm, ne_eq, not_false_eq_true, if_true, if_false, one_mul, Bool.false_eq_true]
      rw [show (10 : Rat) ^ 9 = 1000000000 by norm_num, truncInt_eq]
      simp only [nonneg_scale]

/-- **C18** The missing-value sentinel is the smallest normal double, so it is smaller than every number other than zero that
fits into the columns of a value or of a clock offset (at most fourteen digits after the point). -/
theorem missing_least (k : Nat) (hk : 0 < k) : missing = 1 / 2 ^ 1022 ∧ missing < (k : ℚ) / 10 ^ 14 := by
  have h0 : missing = 1 / 2 ^ 1022 := by
    unfold missing
    rw [Rat.mkRat_eq_div]
    norm_num
  refine ⟨h0, ?_⟩
  rw [h0, div_lt_div_iff₀ (by positivity) (by positivity)]
  have h1 : (1 : ℚ) ≤ k := by exact_mod_cast hk
  have h2 : (10 : ℚ) ^ 14 < 2 ^ 1022 :=
    lt_of_lt_of_le (show (10 : ℚ) ^ 14 < 2 ^ 47 by norm_num) (pow_le_pow_right₀ (by norm_num) (by norm_num))
  have h3 : (1 : ℚ) * 2 ^ 1022 ≤ k * 2 ^ 1022 := mul_le_mul_of_nonneg_right h1 (by positivity)
  rw [one_mul] at h3 ⊢
  exact lt_of_lt_of_le h2 h3

theorem truncInt_missing : truncInt (missing * 10 ^ 9) = 0 := by
  decide +kernel

/-- **C23.** Both overloads give the same L1 epoch, also when the offset is missing, and the L2
epoch is the L1 epoch plus the L2/L1 date offset in whole nanoseconds. -/
theorem overloads_agree (applied : Bool) (us : Rat) (h : RecHdr) :
    (l1l2Epochs applied us h).1 = l1Epoch applied h ∧
    (l1l2Epochs applied us h).2 = l1Epoch applied h +
      (if 0 ≤ us then ⌊us * 1000⌋ else ⌈us * 1000⌉) := by
  have h1 : (l1l2Epochs applied us h).1 = l1Epoch applied h := by
    unfold l1l2Epochs l1Epoch
    cases applied with
    | true => simp
    | false =>
      by_cases hm : h.clockOffset = missing
      · simp only [hm, truncInt_missing]
        simp [truncInt]
      · simp [hm]
  refine ⟨h1, ?_⟩
  have h2 : (l1l2Epochs applied us h).2 = (l1l2Epochs applied us h).1 + truncInt (us * 1000) := by
    unfold l1l2Epochs l21Offset
    norm_num
  rw [h2, h1, truncInt_eq (us * 1000)]
  have : 0 ≤ us * 1000 ↔ 0 ≤ us := by
    constructor
    · intro h; by_contra hx; have : us * 1000 < 0 := by linarith
      linarith
    · intro h; positivity
  by_cases h0 : 0 ≤ us
  · rw [if_pos (this.2 h0), if_pos h0]
  · rw [if_neg (fun h => h0 (this.1 h)), if_neg h0]

example : l1Epoch false ⟨1000, -4432841287 / 1000000000, 4, 0, 0⟩ = 1000 - 4432841287 := by
  decide +kernel

/-- The blanks of a field are the six white-space characters of C. -/
theorem isSpace_iff (c : Char) : isSpace c = true ↔ c.toNat = 32 ∨ (9 ≤ c.toNat ∧ c.toNat ≤ 13) := by
  have h : ∀ d : Char, c = d ↔ c.toNat = d.toNat := fun d => ⟨fun e => by rw [e], Char.toNat_inj.1⟩
  simp only [isSpace, Bool.or_eq_true, beq_iff_eq, h]
  have h1 : ' '.toNat = 32 := rfl
  have h2 : '\t'.toNat = 9 := rfl
  have h3 : '\n'.toNat = 10 := rfl
  have h4 : '\x0b'.toNat = 11 := rfl
  have h5 : '\x0c'.toNat = 12 := rfl
  have h6 : '\r'.toNat = 13 := rfl
  rw [h1, h2, h3, h4, h5, h6]
  omega

end Verif.Rinex
