import Verif.Rinex.HeaderProps

/-! C78: observation codes and scale factors of the header are those of its lines. -/
namespace Verif.Rinex
open Verif.Text Verif.SystemInfo

/-! ### Specification -/

/-- The four columns from `pos` on hold a code: blank, letter, frequency number or blank, blank. -/
structure CodeAt (text : List Char) (pos : Nat) (c : ObsCode) : Prop where
  cols : ∃ r, text.drop pos =
    ' ' :: toChar c.type :: (if hasFrequency c.type then digitChar c.freq else ' ') :: ' ' :: r
  freq : if hasFrequency c.type then c.freq = 1 ∨ c.freq = 2 else c.freq = 0

/-- Consecutive fields of four columns. -/
def CodesAt (text : List Char) (pos : Nat) (cs : List ObsCode) : Prop :=
  ∀ (k : Nat) (hk : k < cs.length), CodeAt text (pos + k * 4) cs[k]

/-- A number (read in the way of `strtol`, fitting into `int`) starts at column `pos`. -/
def NumberAt (text : List Char) (pos : Nat) (n : Int) : Prop :=
  (∃ r, strtol (text.drop pos) = some ⟨n, r, false⟩) ∧ -2 ^ 31 ≤ n ∧ n < 2 ^ 31

/-- A line announcing the codes `cs`. -/
structure ObsTypesLine (l : Line) (cs : List ObsCode) : Prop where
  label : "SYS / # / OBS TYPES".toList <+: l.text.drop 60
  nul : '\x00' ∉ l.text
  system : l.text[0]? = some 'D'
  number : NumberAt l.text 1 cs.length
  some : cs ≠ []
  most : cs.length ≤ 12
  codes : CodesAt l.text 6 cs

/-- A line giving the factor `f` for the codes `cs`. -/
structure ScaleLine (l : Line) (f : Int) (cs : List ObsCode) : Prop where
  label : "SYS / SCALE FACTOR".toList <+: l.text.drop 60
  nul : '\x00' ∉ l.text
  system : l.text[0]? = some 'D'
  factor : NumberAt l.text 2 f
  nonzero : f ≠ 0
  counted : ¬ (l.text[8]? = some ' ' ∧ l.text[9]? = some ' ')
  number : NumberAt l.text 8 cs.length
  some : cs ≠ []
  codes : CodesAt l.text 10 cs

/-! ### Lines -/

theorem takeWhile_noNul (t : List Char) (h : '\x00' ∉ t) : t.takeWhile (· != '\x00') = t := by
  induction t with
  | nil => rfl
  | cons c t ih =>
    have hc : c ≠ '\x00' := fun he => h (by simp [he])
    have hr : '\x00' ∉ t := fun hm => h (by simp [hm])
    simp [hc, ih hr]

theorem intAt_number (st text : List Char) (pos : Nat) (n : Int) (hp : pos ≤ text.length) (h0 : '\x00' ∉ text)
    (h : NumberAt text pos n) : intAt (fill st text) pos = some n := by
  obtain ⟨⟨r, hr⟩, h1, h2⟩ := h
  unfold intAt
  rw [cstr_fill st text pos hp, takeWhile_noNul _ (fun h => h0 (List.mem_of_mem_drop h)), hr]
  simp only [Bool.false_eq_true, if_false, Option.some.injEq]
  unfold toInt32
  rw [Int.bmod_eq_of_le (by omega) (by omega)]

theorem ofChar_toChar (t : ObsType) : ofChar (toChar t) = some t := by cases t <;> rfl

theorem toChar_ne_blank (t : ObsType) : (toChar t == ' ') = false := by cases t <;> rfl

theorem strtol_one (r : List Char) : strtol ('1' :: ' ' :: r) = some ⟨1, ' ' :: r, false⟩ := rfl
theorem strtol_two (r : List Char) : strtol ('2' :: ' ' :: r) = some ⟨2, ' ' :: r, false⟩ := rfl

theorem parseCode_field (st text : List Char) (pos : Nat) (c : ObsCode) (z : Bool) (e1 e2 : Int)
    (h0 : '\x00' ∉ text) (h : CodeAt text pos c) : parseCode (fill st text) pos z e1 e2 = .ok c := by
  obtain ⟨⟨r, hr⟩, hf⟩ := h
  have hp : pos ≤ text.length := by
    by_contra hh
    rw [List.drop_eq_nil_of_le (by omega)] at hr
    simp at hr
  have hn : '\x00' ∉ r := fun hm => h0 (List.mem_of_mem_drop (i := pos) (by rw [hr]; simp [hm]))
  obtain ⟨t, f⟩ := c
  unfold parseCode fill
  rw [List.drop_append_of_le_length hp, hr]
  simp only [List.cons_append]
  rw [List.dropWhile_cons_of_pos (by rfl), List.dropWhile_cons_of_neg (by simp [toChar_ne_blank])]
  simp only [ofChar_toChar]
  simp only at hf
  by_cases hq : hasFrequency t = true
  · simp only [hq, if_true] at hf ⊢
    rcases hf with rfl | rfl
    · have e : digitChar 1 = '1' := rfl
      rw [e, List.takeWhile_cons_of_pos (by rfl), List.takeWhile_cons_of_pos (by rfl), takeWhile_append_nul,
        takeWhile_noNul r hn, strtol_one]
      cases z <;> simp [toInt32, ObsCode.make, hq, toInt8]
    · have e : digitChar 2 = '2' := rfl
      rw [e, List.takeWhile_cons_of_pos (by rfl), List.takeWhile_cons_of_pos (by rfl), takeWhile_append_nul,
        takeWhile_noNul r hn, strtol_two]
      cases z <;> simp [toInt32, ObsCode.make, hq, toInt8]
  · simp only [hq, if_false, Bool.false_eq_true] at hf ⊢
    simp [ObsCode.make, hq, hf]

theorem parseCodes_fields (st text : List Char) (h0 : '\x00' ∉ text) (cs : List ObsCode) :
    ∀ k, CodesAt text (6 + k * 4) cs → parseCodes (fill st text) k cs.length = .ok cs := by
  induction cs with
  | nil => intro k _; rfl
  | cons c cs ih =>
    intro k h
    have h1 := h 0 (by simp)
    simp only [Nat.zero_mul, Nat.add_zero, List.getElem_cons_zero] at h1
    have h2 : CodesAt text (6 + (k + 1) * 4) cs := by
      intro i hi
      have := h (i + 1) (by simpa using hi)
      simp only [List.getElem_cons_succ] at this
      have e : 6 + k * 4 + (i + 1) * 4 = 6 + (k + 1) * 4 + i * 4 := by omega
      rwa [e] at this
    simp only [List.length_cons, parseCodes, parseCode_field st text _ c _ _ _ h0 h1, ih (k + 1) h2]

theorem applyFactors_fields (st text : List Char) (h0 : '\x00' ∉ text) (codes : List ObsCode) (f : Int)
    (cs : List ObsCode) : ∀ (k : Nat) (sf : List Int), CodesAt text (10 + k * 4) cs → (∀ c ∈ cs, c ∈ codes) →
    codes.Nodup → sf.length = codes.length →
    ∃ sf', applyFactors (fill st text) codes f k cs.length sf = .ok sf' ∧ sf'.length = codes.length ∧
      ∀ (i : Nat) (hi : i < codes.length), sf'[i]? = if codes[i] ∈ cs then some f else sf[i]? := by
  induction cs with
  | nil => intro k sf _ _ _ hl; exact ⟨sf, rfl, hl, by simp⟩
  | cons c cs ih =>
    intro k sf h hm hnd hl
    have h1 := h 0 (by simp)
    simp only [Nat.zero_mul, Nat.add_zero, List.getElem_cons_zero] at h1
    have h2 : CodesAt text (10 + (k + 1) * 4) cs := by
      intro i hi
      have := h (i + 1) (by simpa using hi)
      simp only [List.getElem_cons_succ] at this
      have e : 10 + k * 4 + (i + 1) * 4 = 10 + (k + 1) * 4 + i * 4 := by omega
      rwa [e] at this
    have heq : ∀ o : ObsCode, o.eq c = decide (o = c) := by
      intro o
      obtain ⟨t, q⟩ := o
      obtain ⟨t', q'⟩ := c
      rw [Bool.eq_iff_iff]
      simp [ObsCode.eq]
    have hc := hm c (by simp)
    have hany : (codes.any fun o => o.eq c) = true := by
      rw [List.any_eq_true]
      exact ⟨c, hc, by simp [heq]⟩
    have hlt : (codes.findIdx fun o => o.eq c) < codes.length := List.findIdx_lt_length.2 ⟨c, hc, by simp [heq]⟩
    have hget : codes[codes.findIdx fun o => o.eq c] = c := by
      have := List.findIdx_getElem (w := hlt)
      simpa [heq] using this
    obtain ⟨sf', e1, e2, e3⟩ := ih (k + 1) (sf.set (codes.findIdx fun o => o.eq c) f) h2
      (fun x hx => hm x (by simp [hx])) hnd (by simpa using hl)
    refine ⟨sf', ?_, e2, ?_⟩
    · simp only [List.length_cons, applyFactors, parseCode_field st text _ c _ _ _ h0 h1, hany, if_true, e1]
    · intro i hi
      rw [e3 i hi]
      by_cases hx : codes[i] ∈ cs
      · simp [hx]
      · simp only [hx, if_false, List.mem_cons, or_false]
        by_cases hic : codes[i] = c
        · have : i = codes.findIdx fun o => o.eq c := by
            have hp := List.pairwise_iff_getElem.1 hnd
            rcases Nat.lt_trichotomy i (codes.findIdx fun o => o.eq c) with h | h | h
            · exact absurd (by rw [hic, hget]) (hp _ _ hi hlt h)
            · exact h
            · exact absurd (by rw [hic, hget]) (hp _ _ hlt hi h)
          rw [if_pos hic, ← this, List.getElem?_set_self (by omega)]
        · rw [if_neg hic, List.getElem?_set_ne]
          intro hh
          exact hic (by simp only [← hh]; exact hget)

/-- **C78** A line announcing codes is read as these codes. -/
theorem obsTypes_line (e : Ext) (st : List Char) (l : Line) (cs : List ObsCode) (h : Hdr) (hl : ObsTypesLine l cs) :
    onLabel e (fill st l.text) h .obsTypes = .ok { h with obsTypesNum := cs.length, codes := cs } := by
  have h0 := hl.system
  have hlen : 0 < l.text.length := by
    by_contra hh
    rw [List.getElem?_eq_none (by omega)] at h0
    simp at h0
  have hpos : 0 < cs.length := List.length_pos_of_ne_nil hl.some
  simp only [onLabel, onObsTypes]
  have ha : at' (fill st l.text) 0 = 'D' := by
    unfold at' fill
    rw [List.getD_eq_getElem?_getD, List.getElem?_append_left hlen, h0]
    rfl
  rw [if_neg (by simp [ha]), intAt_number st l.text 1 _ (by omega) hl.nul hl.number]
  have h13 : ((cs.length : Int)) < 13 := by have := hl.most; omega
  simp only [Int.toNat_natCast, parseCodes_fields st l.text hl.nul cs 0 (by simpa using hl.codes)]
  rw [if_neg (by omega), if_neg (by omega)]

/-- **C78** A line of scale factors gives its factor to the codes it names and 1 to the others. -/
theorem scaleFactor_line (e : Ext) (st : List Char) (l : Line) (f : Int) (cs : List ObsCode) (h : Hdr)
    (hl : ScaleLine l f cs) (h60 : 60 ≤ l.text.length) (hnd : h.codes.Nodup) (hm : ∀ c ∈ cs, c ∈ h.codes)
    (hle : cs.length ≤ h.codes.length) :
    onLabel e (fill st l.text) h .scaleFactor =
      .ok { h with scale := h.codes.map fun c => if c ∈ cs then f else 1 } := by
  have hat : ∀ k, k < 60 → ∃ c, l.text[k]? = some c ∧ at' (fill st l.text) k = c := by
    intro k hk
    refine ⟨l.text[k], List.getElem?_eq_getElem (by omega), ?_⟩
    unfold at' fill
    rw [List.getD_eq_getElem?_getD, List.getElem?_append_left (by omega), List.getElem?_eq_getElem (by omega)]
    rfl
  obtain ⟨c0, a0, b0⟩ := hat 0 (by omega)
  obtain ⟨c8, a8, b8⟩ := hat 8 (by omega)
  obtain ⟨c9, a9, b9⟩ := hat 9 (by omega)
  have hD : c0 = 'D' := by
    have := hl.system
    rw [a0] at this
    exact Option.some.inj this
  have hcnt : ¬ (c8 = c9 ∧ c8 = ' ') := by
    rintro ⟨x, y⟩
    exact hl.counted ⟨by rw [a8, y], by rw [a9, ← x, y]⟩
  have hpos : 0 < cs.length := List.length_pos_of_ne_nil hl.some
  obtain ⟨sf', e1, e2, e3⟩ := applyFactors_fields st l.text hl.nul h.codes f cs 0
    (List.replicate h.codes.length 1) (by simpa using hl.codes) hm hnd (by simp)
  simp only [onLabel, onScaleFactor]
  rw [if_neg (by simp [b0, hD]), intAt_number st l.text 2 _ (by omega) hl.nul hl.factor]
  simp only [hl.nonzero, if_false, b8, b9, hcnt]
  rw [intAt_number st l.text 8 _ (by omega) hl.nul hl.number]
  simp only [Int.toNat_natCast, e1, List.length_replicate]
  rw [if_neg (by omega)]
  congr 2
  apply List.ext_getElem? 
  intro i
  by_cases hi : i < h.codes.length
  · rw [e3 i hi, List.getElem?_map, List.getElem?_eq_getElem hi]
    by_cases hc : h.codes[i] ∈ cs
    · simp [hc]
    · simp [hc, hi]
  · rw [List.getElem?_eq_none (by omega), List.getElem?_eq_none (by simp; omega)]

/-! ### The whole header -/

/-- Reading the lines one after the other: lines without a known label are passed over. -/
inductive Reads (e : Ext) : Hdr → List Line → Hdr → Prop where
  | nil (h : Hdr) : Reads e h [] h
  | skip {h h' : Hdr} {l : Line} {ls : List Line} (hno : ∀ lab : Label, ¬ lab.text <+: l.text.drop 60)
    (hr : Reads e h ls h') : Reads e h (l :: ls) h'
  | line {h h1 h' : Hdr} {l : Line} {ls : List Line} (lab : Label) (hl : lab.text <+: l.text.drop 60)
    (st : List Char) (ho : onLabel e (fill st l.text) h lab = .ok h1) (hr : Reads e h1 ls h') :
    Reads e h (l :: ls) h'

theorem headerLoop_reads (e : Ext) (fuel : Nat) : ∀ (s : Stream) (b : Buf) (h h' : Hdr)
    (s' : Stream), Wide s → headerLoop e fuel s b h = .ok (h', s') →
    ∃ pre last post, s.lines = pre ++ last :: post ∧ IsEnd last ∧ (∀ l ∈ pre, ¬ IsEnd l) ∧ Reads e h pre h' := by
  induction fuel with
  | zero => intro s b h h' s' _ hl; simp [headerLoop] at hl
  | succ fuel ih =>
    intro s b h h' s' hw hl
    simp only [headerLoop] at hl
    split at hl
    · simp at hl
    · split at hl
      · simp at hl
      · rename_i hf
        have hf' : (getline 81 s b).1.fail = false := by simpa using hf
        obtain ⟨l, rest, hlines, hgood, hlen, hget⟩ := getline_ok hf'
        have h60 : 60 ≤ l.text.length := hw l (by simp [hlines])
        have hw' : Wide ⟨rest, false, !l.eol⟩ := fun x hx =>
          hw x (by rw [hlines]; exact List.mem_cons_of_mem _ hx)
        rw [hget] at hl
        simp only at hl
        split at hl
        · rename_i hd
          have hno : ∀ lab : Label, ¬ lab.text <+: l.text.drop 60 := by
            intro lab hp
            rw [(dispatch_line b l.text h60 lab).2 hp] at hd
            simp at hd
          obtain ⟨pre, last, post, e1, e3, e4, e5⟩ := ih _ _ _ _ _ hw' hl
          refine ⟨l :: pre, last, post, by simp only at e1; rw [hlines, e1]; rfl, e3, ?_, .skip hno e5⟩
          intro x hx
          rcases List.mem_cons.1 hx with rfl | hx
          · exact hno .endOfHeader
          · exact e4 x hx
        · rename_i hd
          split at hl
          · simp at hl
            obtain ⟨rfl, rfl⟩ := hl
            exact ⟨[], l, rest, by simp [hlines], (dispatch_line b l.text h60 _).1 hd, by simp, .nil _⟩
          · simp at hl
        · rename_i lab hend hd
          have hlab := (dispatch_line b l.text h60 lab).1 hd
          have hne : lab ≠ .endOfHeader := fun hh => hend (hh ▸ rfl)
          split at hl
          · simp at hl
          · rename_i h1 hs
            obtain ⟨pre, last, post, e1, e3, e4, e5⟩ := ih _ _ _ _ _ hw' hl
            refine ⟨l :: pre, last, post, by simp only at e1; rw [hlines, e1]; rfl, e3, ?_,
              .line lab hlab _ hs e5⟩
            intro x hx
            rcases List.mem_cons.1 hx with rfl | hx
            · intro hx
              have := (dispatch_line b x.text h60 .endOfHeader).2 hx
              rw [this] at hd
              simp at hd
              exact hne hd.symm
            · exact e4 x hx

theorem onLabel_codes {e : Ext} {b : Buf} {h h' : Hdr} {l : Label} (hl : l ≠ .obsTypes)
    (hs : onLabel e b h l = .ok h') : h'.codes = h.codes := by
  cases l
  case obsTypes => exact absurd rfl hl
  case scaleFactor =>
    simp only [onLabel, onScaleFactor] at hs
    repeat' (split at hs)
    all_goals first
      | (simp at hs; done)
      | (simp at hs; subst hs; rfl)
  case timeRefStation =>
    simp only [onLabel, onTimeRefStation] at hs
    repeat' (split at hs)
    all_goals first
      | (simp at hs; done)
      | (simp at hs; subst hs; rfl)
  all_goals
    simp only [onLabel] at hs
    repeat' (split at hs)
    all_goals first
      | (simp at hs; done)
      | (simp at hs; subst hs; rfl)

theorem onLabel_scale {e : Ext} {b : Buf} {h h' : Hdr} {l : Label} (hl : l ≠ .scaleFactor)
    (hs : onLabel e b h l = .ok h') : h'.scale = h.scale := by
  cases l
  case scaleFactor => exact absurd rfl hl
  case obsTypes =>
    simp only [onLabel, onObsTypes] at hs
    repeat' (split at hs)
    all_goals first
      | (simp at hs; done)
      | (simp at hs; subst hs; rfl)
  case timeRefStation =>
    simp only [onLabel, onTimeRefStation] at hs
    repeat' (split at hs)
    all_goals first
      | (simp at hs; done)
      | (simp at hs; subst hs; rfl)
  all_goals
    simp only [onLabel] at hs
    repeat' (split at hs)
    all_goals first
      | (simp at hs; done)
      | (simp at hs; subst hs; rfl)

theorem Reads.append {e : Ext} {h h' : Hdr} {p q : List Line} (hr : Reads e h (p ++ q) h') :
    ∃ h1, Reads e h p h1 ∧ Reads e h1 q h' := by
  induction p generalizing h with
  | nil => exact ⟨h, .nil h, hr⟩
  | cons l p ih =>
    cases hr with
    | skip hno hr =>
      obtain ⟨h1, a, b⟩ := ih hr
      exact ⟨h1, .skip hno a, b⟩
    | line lab hl st ho hr =>
      obtain ⟨h1, a, b⟩ := ih hr
      exact ⟨h1, .line lab hl st ho a, b⟩

theorem Reads.codes_same {e : Ext} {h h' : Hdr} {p : List Line} (hr : Reads e h p h')
    (hno : ∀ l ∈ p, ¬ "SYS / # / OBS TYPES".toList <+: l.text.drop 60) : h'.codes = h.codes := by
  induction hr with
  | nil => rfl
  | skip _ _ ih => exact ih fun l hl => hno l (by simp [hl])
  | line lab hl st ho _ ih =>
    rw [ih fun l hl => hno l (by simp [hl])]
    refine onLabel_codes ?_ ho
    rintro rfl
    exact hno _ (by simp) hl

theorem Reads.scale_same {e : Ext} {h h' : Hdr} {p : List Line} (hr : Reads e h p h')
    (hno : ∀ l ∈ p, ¬ "SYS / SCALE FACTOR".toList <+: l.text.drop 60) : h'.scale = h.scale := by
  induction hr with
  | nil => rfl
  | skip _ _ ih => exact ih fun l hl => hno l (by simp [hl])
  | line lab hl st ho _ ih =>
    rw [ih fun l hl => hno l (by simp [hl])]
    refine onLabel_scale ?_ ho
    rintro rfl
    exact hno _ (by simp) hl

/-- A line with a known label is read under that label. -/
theorem Reads.head {e : Ext} {h h' : Hdr} {l : Line} {p : List Line} (hr : Reads e h (l :: p) h') (lab : Label)
    (hl : lab.text <+: l.text.drop 60) :
    ∃ st h1, onLabel e (fill st l.text) h lab = .ok h1 ∧ Reads e h1 p h' := by
  cases hr with
  | skip hno _ => exact absurd hl (hno lab)
  | line lab' hl' st ho hr =>
    have : lab = lab' := by
      rcases List.prefix_or_prefix_of_prefix hl hl' with h1 | h1
      · exact labels_prefix_free lab lab' h1
      · exact (labels_prefix_free lab' lab h1).symm
    subst this
    exact ⟨st, _, ho, hr⟩

/-- The lines between the first two and END OF HEADER. -/
theorem readHeader_reads (e : Ext) (b0 : Buf) (s s' : Stream) (h : Hdr) (hw : Wide s)
    (hr : readHeader e b0 s = .ok (h, s')) :
    ∃ l1 l2 pre last post v, s.lines = l1 :: l2 :: (pre ++ last :: post) ∧ IsEnd last ∧ (∀ l ∈ pre, ¬ IsEnd l) ∧
      Reads e { version := v } pre h := by
  unfold readHeader at hr
  split at hr
  · simp at hr
  · simp only at hr
    split at hr
    · simp at hr
    · split at hr
      · simp at hr
      · rename_i v _
        split at hr
        · simp at hr
        · split at hr
          · simp at hr
          · split at hr
            · simp at hr
            · rename_i h1 s1 hl
              split at hr
              · simp at hr
                obtain ⟨rfl, rfl⟩ := hr
                generalize hs1 : (getline 81 s b0) = p1 at *
                by_cases hf2 : (getline 81 p1.1 p1.2).1.fail = true
                · simp [headerLoop, hf2] at hl
                have hf2' : (getline 81 p1.1 p1.2).1.fail = false := by simpa using hf2
                have hf1 : p1.1.fail = false := by
                  cases h : p1.1.fail with
                  | false => rfl
                  | true => exact absurd (getline_fail_mono h) hf2
                rw [← hs1] at hf1
                obtain ⟨l1, rest1, a1, -, -, a4⟩ := getline_ok hf1
                rw [hs1] at a4
                obtain ⟨l2, rest2, c1, -, -, c4⟩ := getline_ok hf2'
                rw [c4] at hl
                rw [a4] at c1 hl
                simp only at c1 hl
                have w3 : Wide ⟨rest2, false, !l2.eol⟩ := fun x hx => hw x (by simp [a1, c1, hx])
                obtain ⟨pre, last, post, e1, e3, e4, e5⟩ := headerLoop_reads e _ _ _ _ _ _ w3 hl
                exact ⟨l1, l2, pre, last, post, v, by simp only at e1; rw [a1, c1, e1], e3, e4, e5⟩
              · simp at hr

/-- **C78** (header with one line of codes and, after it, one line of scale factors) After a successful
read, the observation codes are those announced, in that order, and the scale factors are the
given one for the codes named on the second line and 1 for the others.

Missing: several lines of scale factors, lines for all codes, headers without such a line (see the
counterexamples). -/
theorem header_codes_partial (e : Ext) (b0 : Buf) (s s' : Stream) (h : Hdr) (hw : Wide s)
    (hr : readHeader e b0 s = .ok (h, s')) (l1 l2 lo ls last : Line) (p1 p2 p3 post : List Line)
    (hs : s.lines = l1 :: l2 :: (p1 ++ lo :: (p2 ++ ls :: (p3 ++ last :: post)))) (hlast : IsEnd last)
    (hne : ∀ l ∈ p1 ++ lo :: (p2 ++ ls :: p3), ¬ IsEnd l) (cs named : List ObsCode) (f : Int)
    (ho : ObsTypesLine lo cs) (hf : ScaleLine ls f named) (hnd : cs.Nodup) (hm : ∀ c ∈ named, c ∈ cs)
    (hle : named.length ≤ cs.length)
    (hno : ∀ l ∈ p1 ++ p2 ++ p3, ¬ "SYS / # / OBS TYPES".toList <+: l.text.drop 60 ∧
      ¬ "SYS / SCALE FACTOR".toList <+: l.text.drop 60) :
    h.codes = cs ∧ h.scale = cs.map fun c => if c ∈ named then f else 1 := by
  obtain ⟨l1', l2', pre, last', post', v, e1, e2, e3, e4⟩ := readHeader_reads e b0 s s' h hw hr
  have hsplit : ∀ (a a' : List Line) (x x' : Line) (q q' : List Line), a ++ x :: q = a' ++ x' :: q' → IsEnd x →
      IsEnd x' → (∀ l ∈ a, ¬ IsEnd l) → (∀ l ∈ a', ¬ IsEnd l) → a = a' := by
    intro a
    induction a with
    | nil =>
      intro a' x x' q q' hh hx hx' ha ha'
      cases a' with
      | nil => rfl
      | cons y a' =>
        simp only [List.nil_append, List.cons_append, List.cons.injEq] at hh
        exact absurd (hh.1 ▸ hx) (ha' y (by simp))
    | cons y a ih =>
      intro a' x x' q q' hh hx hx' ha ha'
      cases a' with
      | nil =>
        simp only [List.nil_append, List.cons_append, List.cons.injEq] at hh
        exact absurd (hh.1 ▸ hx') (ha y (by simp))
      | cons y' a' =>
        simp only [List.cons_append, List.cons.injEq] at hh
        rw [hh.1, ih a' x x' q q' hh.2 hx hx' (fun l hl => ha l (by simp [hl])) (fun l hl => ha' l (by simp [hl]))]
  rw [hs] at e1
  simp only [List.cons.injEq] at e1
  have hpre : p1 ++ lo :: (p2 ++ ls :: p3) = pre := by
    refine hsplit _ _ last last' post post' ?_ hlast e2 hne e3
    rw [← e1.2.2]
    simp
  rw [← hpre] at e4
  obtain ⟨ha, r1, r2⟩ := e4.append
  obtain ⟨st1, hb, ob, r3⟩ := r2.head .obsTypes ho.label
  rw [obsTypes_line e st1 lo cs ha ho] at ob
  obtain ⟨hc, r4, r5⟩ := r3.append
  have hcc : hc.codes = cs := by
    rw [r4.codes_same fun l hl => (hno l (by simp [hl])).1, ← Except.ok.inj ob]
  obtain ⟨st2, hd, od, r6⟩ := r5.head .scaleFactor hf.label
  have w : 60 ≤ ls.text.length := hw ls (by rw [hs]; simp)
  rw [scaleFactor_line e st2 ls f named hc hf w (by rw [hcc]; exact hnd) (by rw [hcc]; exact hm)
    (by rw [hcc]; exact hle)] at od
  constructor
  · rw [r6.codes_same fun l hl => (hno l (by simp [hl])).1, ← Except.ok.inj od]
    exact hcc
  · rw [r6.scale_same fun l hl => (hno l (by simp [hl])).2, ← Except.ok.inj od]
    simp only [hcc]

/-! ### Examples and counterexamples -/

theorem sample_codes : ObsTypesLine (mk "D    3 L1  C2  F" "SYS / # / OBS TYPES")
    [⟨.phase, 1⟩, ⟨.pseudorange, 2⟩, ⟨.frequencyOffset, 0⟩] where
  label := by decide +kernel
  nul := by decide +kernel
  system := by decide +kernel
  number := ⟨⟨_, rfl⟩, by decide, by decide⟩
  some := by simp
  most := by simp
  codes := by
    intro k hk
    simp only [List.length_cons, List.length_nil] at hk
    match k, hk with
    | 0, _ => exact ⟨⟨_, rfl⟩, by simp [hasFrequency]⟩
    | 1, _ => exact ⟨⟨_, rfl⟩, by simp [hasFrequency]⟩
    | 2, _ => exact ⟨⟨_, rfl⟩, by simp [hasFrequency]⟩

theorem sample_scale : ScaleLine (mk "D  100   1 C2" "SYS / SCALE FACTOR") 100 [⟨.pseudorange, 2⟩] where
  label := by decide +kernel
  nul := by decide +kernel
  system := by decide +kernel
  factor := ⟨⟨_, rfl⟩, by decide, by decide⟩
  nonzero := by decide
  counted := by decide +kernel
  number := ⟨⟨_, rfl⟩, by decide, by decide⟩
  some := by simp
  codes := by
    intro k hk
    simp only [List.length_cons, List.length_nil] at hk
    match k, hk with
    | 0, _ => exact ⟨⟨_, rfl⟩, by simp [hasFrequency]⟩

/-- A header with the given lines in place of those for the scale factors. -/
def headerWith (sc : List Line) : List Line :=
  sampleHeader.take 4 ++ sc ++ sampleHeader.drop 5

/-- Codes and scale factors read. -/
def codesAndScale (lines : List Line) : (List ObsCode × List Int) ⊕ Stop :=
  match readHeader ext1 [] (Stream.open lines) with
  | .ok (h, _) => .inl (h.codes, h.scale)
  | .error x => .inr x

example : codesAndScale (headerWith [mk "D  100   1 C2" "SYS / SCALE FACTOR"]) =
    .inl ([⟨.phase, 1⟩, ⟨.pseudorange, 2⟩, ⟨.frequencyOffset, 0⟩], [1, 100, 1]) := by
  decide +kernel

/-- **C78, a disagreement.**  Of two lines of scale factors only the last counts: the factor 100 of
C2 is lost. -/
theorem two_lines_counterexample :
    codesAndScale (headerWith [mk "D  100   1 C2" "SYS / SCALE FACTOR", mk "D   10   1 L1" "SYS / SCALE FACTOR"]) =
      .inl ([⟨.phase, 1⟩, ⟨.pseudorange, 2⟩, ⟨.frequencyOffset, 0⟩], [10, 1, 1]) := by
  decide +kernel

/-- **C78, a disagreement.**  A blank number of codes means all codes, but the columns of the codes are
read nevertheless: blanks are skipped up to the label, whose first letter is no code.  The header is
refused. -/
theorem all_codes_counterexample :
    codesAndScale (headerWith [mk "D  100" "SYS / SCALE FACTOR"]) = .inr (.status 146) := by
  decide +kernel

/-- **C78, a disagreement.**  A header without a line of scale factors (all factors 1) is refused. -/
theorem no_line_counterexample : codesAndScale (headerWith []) = .inr (.status (-3)) := by
  decide +kernel

end Verif.Rinex
