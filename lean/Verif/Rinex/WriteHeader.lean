import Verif.Rinex.WriteLemmas

/-! C147: the lines of a written header are read as what they say. -/
namespace Verif.Rinex.Write
open Verif.Text Verif.SystemInfo

/-- The label the reader sees. -/
def Item.lab : Item → Option Label
  | .comment _ => none
  | .satName _ => some .satelliteName
  | .cospar _ => some .cosparNumber
  | .marker => some .markerType
  | .agency _ => some .observerAgency
  | .receiver _ _ _ => some .receiver
  | .antenna => some .antenna
  | .approx _ _ _ => some .approxPosition
  | .center _ _ _ => some .centerOfMass
  | .codes _ => some .obsTypes
  | .first _ _ => some .firstObs
  | .scale _ _ => some .scaleFactor
  | .l12 _ => some .l12Offset
  | .numStations _ => some .numStations
  | .station _ => some .stationReference
  | .numRefs _ => some .numTimeRef
  | .ref _ _ _ => some .timeRefStation
  | .refDate _ _ => some .timeRefDate
  | .clock _ => some .rcvClock

theorem Item.label_length (i : Item) : i.label.toList.length = 20 := by
  cases i <;> simp only [Item.label] <;> decide

theorem Item.label_nul (i : Item) : '\x00' ∉ i.label.toList := by
  cases i <;> simp only [Item.label] <;> decide

theorem Item.label_of_lab (i : Item) (l : Label) (h : i.lab = some l) : l.text <+: i.label.toList := by
  cases i <;> simp only [Item.lab, Option.some.injEq, reduceCtorEq] at h <;> subst h <;> simp only [Item.label] <;>
    exact List.isPrefixOf_iff_prefix.1 (by decide +kernel)

theorem Item.label_lab (i : Item) (l : Label) : l.text <+: i.label.toList ↔ i.lab = some l := by
  constructor
  · intro hp
    cases hi : i.lab with
    | none =>
      cases i <;> simp [Item.lab] at hi
      have : ∀ l : Label, ¬ l.text <+: "COMMENT             ".toList := by
        intro l
        cases l <;> decide
      exact absurd hp (this l)
    | some m =>
      have := i.label_of_lab m hi
      rcases List.prefix_or_prefix_of_prefix hp this with h1 | h1
      · rw [labels_prefix_free l m h1]
      · rw [labels_prefix_free m l h1]
  · exact i.label_of_lab l

theorem padL_head (n : Nat) (s r : List Char) (h : s.length < n) : (padL n s ++ r).head? = some ' ' := by
  obtain ⟨k, hk⟩ : ∃ k, n - s.length = k + 1 := ⟨n - s.length - 1, by omega⟩
  simp [padL, hk, List.replicate_succ]

theorem blanks_head (k : Nat) (r : List Char) (h : 0 < k) : (blanks k ++ r).head? = some ' ' := by
  obtain ⟨k, rfl⟩ : ∃ m, k = m + 1 := ⟨k - 1, by omega⟩
  simp [blanks, List.replicate_succ]

theorem natText_six (n : Nat) (h : n < 1000000) : (natText n).length ≤ 6 := natText_length n 5 (by omega)

theorem intText_small (z : Int) (h0 : 0 ≤ z) (h : z ≤ 9) : (intText z).length = 1 := by
  obtain ⟨n, rfl⟩ := Int.eq_ofNat_of_zero_le h0
  rw [natText_int]
  exact natText_one n (by omega)

theorem intText_three (z : Int) (h0 : -99 ≤ z) (h : z ≤ 999) : (intText z).length ≤ 3 := by
  unfold intText signText
  split
  · have := natText_length z.natAbs 1 (by omega)
    simp; omega
  · have := natText_length z.natAbs 2 (by omega)
    simpa using this

/-- The fields fit into the first sixty columns. -/
theorem Item.width (e : Ext) (h : Hdr) (i : Item) (ho : i.Ok e h) : i.fields.flatten.length ≤ 60 := by
  cases i with
  | comment t => simpa [Item.fields] using ho.1
  | satName t => have := ho.most; simp [Item.fields]; omega
  | cospar t => have := ho.most; simp [Item.fields]; omega
  | marker => decide
  | agency t => simpa [Item.fields] using ho.1
  | receiver a b c =>
    obtain ⟨h1, h2, h3⟩ := ho
    have := h1.most
    have := h2.most
    have := h3.most
    simp [Item.fields, padR_length 20 a (by omega), padR_length 20 b (by omega)]; omega
  | antenna => decide
  | approx x y z =>
    obtain ⟨h1, h2, h3⟩ := ho
    simp [Item.fields, padL_length 14 _ (Nat.le_succ_of_le h1), padL_length 14 _ (Nat.le_succ_of_le h2),
      padL_length 14 _ (Nat.le_succ_of_le h3)]
  | center x y z =>
    obtain ⟨h1, h2, h3⟩ := ho
    simp [Item.fields, padL_length 14 _ (Nat.le_succ_of_le h1), padL_length 14 _ (Nat.le_succ_of_le h2),
      padL_length 14 _ (Nat.le_succ_of_le h3)]
  | codes cs =>
    obtain ⟨-, h2, -, -⟩ := ho
    have := natText_length cs.length 4 (by omega)
    have hc := codes_length cs
    simp only [Item.fields, List.flatten_cons, List.flatten_nil, List.length_append, padL_length 5 _ this, hc, List.length_cons, List.length_nil]
    omega
  | first d t =>
    have := ho.most
    simp [Item.fields, padR_length 48 d (by omega)]
  | scale f cs =>
    obtain ⟨-, h1, -, h2, -⟩ := ho
    have h3 := natText_length cs.length 1 (by omega)
    have h4 := natText_length f 3 (by omega)
    have hc := codes_length cs
    simp only [Item.fields, List.flatten_cons, List.flatten_nil, List.length_append, padL_length 2 _ h3, padL_length 4 _ h4, hc,
      List.length_cons, List.length_nil, blanks_length]
    omega
  | l12 z => simp [Item.fields, padL_length 14 _ ho]
  | numStations n => simp [Item.fields, padL_length 6 _ (natText_six n ho.2)]
  | station b =>
    have h1 := ho.name.most
    have h2 := ho.domes.most
    simp [Item.fields, padR_length 30 _ h1, padR_length 10 _ h2, ho.code.1, ho.id.1, blanks_length,
      intText_small _ ho.type.1 ho.type.2, padL_length 3 _ (intText_three _ ho.shift.1 ho.shift.2)]
  | numRefs n => simp [Item.fields, padL_length 6 _ (natText_six n ho.2)]
  | ref c b s =>
    obtain ⟨h1, -, h2, h3, -⟩ := ho
    simp [Item.fields, padL_length 14 _ h2, padL_length 14 _ (Nat.le_succ_of_le h3), blanks_length, h1]
  | refDate d t => have := ho.most; simp [Item.fields]; omega
  | clock a => simp [Item.fields, padL_length 6 _ (natText_six (if a then 1 else 0) (by split <;> omega))]

theorem codes_nul (cs : List ObsCode) (h : ∀ c ∈ cs, CodeOk c) : '\x00' ∉ (cs.map codeText).flatten := by
  simp only [List.mem_flatten, List.mem_map, not_exists, not_and]
  rintro _ ⟨c, hc, rfl⟩
  exact code_nul c (h c hc)

theorem Item.nul (e : Ext) (h : Hdr) (i : Item) (ho : i.Ok e h) : ∀ p ∈ i.fields, '\x00' ∉ p := by
  intro p hp
  cases i with
  | comment t => simp [Item.fields] at hp; subst hp; exact ho.2
  | satName t => simp [Item.fields] at hp; subst hp; exact ho.nul
  | cospar t => simp [Item.fields] at hp; subst hp; exact ho.nul
  | marker => simp only [Item.fields, List.mem_singleton] at hp; subst hp; decide
  | agency t => simp [Item.fields] at hp; subst hp; exact ho.2
  | receiver a b c =>
    simp only [Item.fields, List.mem_cons, List.not_mem_nil, or_false] at hp
    rcases hp with rfl | rfl | rfl
    · exact padR_nul _ _ ho.1.nul
    · exact padR_nul _ _ ho.2.1.nul
    · exact ho.2.2.nul
  | antenna =>
    simp only [Item.fields, List.mem_cons, List.not_mem_nil, or_false] at hp
    rcases hp with rfl | rfl <;> decide
  | approx x y z =>
    simp only [Item.fields, List.mem_cons, List.not_mem_nil, or_false] at hp
    rcases hp with rfl | rfl | rfl <;> exact padL_nul _ _ (fixText_nul _ _)
  | center x y z =>
    simp only [Item.fields, List.mem_cons, List.not_mem_nil, or_false] at hp
    rcases hp with rfl | rfl | rfl <;> exact padL_nul _ _ (fixText_nul _ _)
  | codes cs =>
    simp only [Item.fields, List.mem_cons, List.not_mem_nil, or_false] at hp
    rcases hp with rfl | rfl | rfl
    · decide
    · exact padL_nul _ _ (natText_nul _)
    · exact codes_nul cs ho.2.2.1
  | first d t =>
    simp only [Item.fields, List.mem_cons, List.not_mem_nil, or_false] at hp
    rcases hp with rfl | rfl
    · exact padR_nul _ _ ho.nul
    · decide
  | scale f cs =>
    simp only [Item.fields, List.mem_cons, List.not_mem_nil, or_false] at hp
    rcases hp with rfl | rfl | rfl | rfl | rfl
    · decide
    · exact padL_nul _ _ (natText_nul _)
    · exact blanks_nul _
    · exact padL_nul _ _ (natText_nul _)
    · exact codes_nul cs fun c hc => (ho.2.2.2.2.2.2.1 c hc).2
  | l12 z =>
    simp only [Item.fields, List.mem_cons, List.not_mem_nil, or_false] at hp
    rcases hp with rfl | rfl
    · decide
    · exact padL_nul _ _ (fixText_nul _ _)
  | numStations n => simp [Item.fields] at hp; subst hp; exact padL_nul _ _ (natText_nul _)
  | station b =>
    simp only [Item.fields, List.mem_cons, List.not_mem_nil, or_false] at hp
    rcases hp with rfl | rfl | rfl | rfl | rfl | rfl | rfl | rfl | rfl
    · exact ho.code.2
    · exact blanks_nul _
    · exact ho.id.2
    · exact blanks_nul _
    · exact padR_nul _ _ ho.name.nul
    · exact padR_nul _ _ ho.domes.nul
    · exact intText_nul _
    · exact blanks_nul _
    · exact padL_nul _ _ (intText_nul _)
  | numRefs n => simp [Item.fields] at hp; subst hp; exact padL_nul _ _ (natText_nul _)
  | ref c b s =>
    simp only [Item.fields, List.mem_cons, List.not_mem_nil, or_false] at hp
    rcases hp with rfl | rfl | rfl | rfl
    · exact ho.2.1
    · exact blanks_nul _
    · exact padL_nul _ _ (fixText_nul _ _)
    · exact padL_nul _ _ (fixText_nul _ _)
  | refDate d t => simp [Item.fields] at hp; subst hp; exact ho.nul
  | clock a => simp [Item.fields] at hp; subst hp; exact padL_nul _ _ (natText_nul _)

theorem Item.line_length (e : Ext) (h : Hdr) (i : Item) (ho : i.Ok e h) : i.line.text.length = 80 :=
  textOf_length _ _ (i.width e h ho) i.label_length

theorem Item.line_nul (e : Ext) (h : Hdr) (i : Item) (ho : i.Ok e h) : '\x00' ∉ i.line.text :=
  textOf_nul _ _ (i.nul e h ho) i.label_nul

/-- The C string from column `n` on, where field `j` begins. -/
theorem Item.cstr_field (e : Ext) (h : Hdr) (i : Item) (ho : i.Ok e h) (st : List Char) (j n : Nat) (hj : j ≤ i.fields.length)
    (hn : (i.fields.take j).flatten.length = n) :
    cstr (fill st i.line.text) n = (i.fields.drop j).flatten ++ (blanks (60 - i.fields.flatten.length) ++ i.label.toList) := by
  have hw := i.width e h ho
  have hle : n ≤ 80 := by
    have : i.fields.flatten.length = (i.fields.take j).flatten.length + (i.fields.drop j).flatten.length := by
      rw [← List.length_append, ← List.flatten_append, List.take_append_drop]
    omega
  rw [cstr_text st _ n (by rw [i.line_length e h ho]; exact hle) (i.line_nul e h ho)]
  exact textOf_drop _ _ j n hj hn

theorem Item.drop_field (i : Item) (j n : Nat) (hj : j ≤ i.fields.length) (hn : (i.fields.take j).flatten.length = n) :
    i.line.text.drop n = (i.fields.drop j).flatten ++ (blanks (60 - i.fields.flatten.length) ++ i.label.toList) :=
  textOf_drop _ _ j n hj hn

theorem strtof_fix {e : Ext} {rd rf : Rat → Rat} (hh : Honest e rd rf) (w d : Nat) (z : Int) (r : List Char)
    (hr : r.head? = some ' ') : e.strtof (padL w (fixText d z) ++ r) = some (rf (z / 10 ^ d)) := by
  refine hh.f _ _ ?_
  unfold padL
  rw [List.append_assoc]
  exact fixText_decimal _ d z r (.inr hr)

theorem strtod_fix {e : Ext} {rd rf : Rat → Rat} (hh : Honest e rd rf) (w d : Nat) (z : Int) (r : List Char)
    (hr : r = [] ∨ r.head? = some ' ') : e.strtod (padL w (fixText d z) ++ r) = some (rd (z / 10 ^ d)) := by
  refine hh.d _ _ ?_
  unfold padL
  rw [List.append_assoc]
  exact fixText_decimal _ d z r hr

theorem strtol_nat (w n : Nat) (r : List Char) (hr : r = [] ∨ r.head? = some ' ') (hn : n < 2 ^ 31) :
    strtol (padL w (natText n) ++ r) = some ⟨n, r, false⟩ := by
  unfold padL
  rw [List.append_assoc, ← natText_int]
  exact strtol_int _ n r hr (by omega) (by omega)

theorem numberAt_nat (T : List Char) (k w n : Nat) (r : List Char) (h : T.drop k = padL w (natText n) ++ r)
    (hr : r = [] ∨ r.head? = some ' ') (hn : n < 2 ^ 31) : NumberAt T k n := by
  refine ⟨⟨r, ?_⟩, by omega, by omega⟩
  rw [h]
  exact strtol_nat w n r hr hn

theorem threeNumbers_read {e : Ext} {rd rf : Rat → Rat} (hh : Honest e rd rf) (h : Hdr) (i : Item) (ho : i.Ok e h) (st : List Char)
    (x y z : Int) (err : Int) (hi : i.fields = [padL 14 (fixText 4 x), padL 14 (fixText 4 y), padL 14 (fixText 4 z)])
    (h1 : (fixText 4 x).length ≤ 13) (h2 : (fixText 4 y).length ≤ 13) (h3 : (fixText 4 z).length ≤ 13) :
    threeNumbers e (fill st i.line.text) err = .ok [rf (x / 10 ^ 4), rf (y / 10 ^ 4), rf (z / 10 ^ 4)] := by
  have l1 := padL_length 14 _ (Nat.le_succ_of_le h1)
  have l2 := padL_length 14 _ (Nat.le_succ_of_le h2)
  have l3 := padL_length 14 _ (Nat.le_succ_of_le h3)
  have c0 := i.cstr_field e h ho st 0 0 (by simp) (by simp)
  have c1 := i.cstr_field e h ho st 1 14 (by simp [hi]) (by simp [hi, l1])
  have c2 := i.cstr_field e h ho st 2 28 (by simp [hi]) (by simp [hi, l1, l2])
  have hw : i.fields.flatten.length = 42 := by simp [hi, l1, l2, l3]
  rw [hw] at c0 c1 c2
  simp only [hi, List.drop_zero, List.drop_succ_cons, List.flatten_cons, List.flatten_nil, List.append_nil, List.append_assoc] at c0 c1 c2
  unfold threeNumbers
  rw [c0, c1, c2, strtof_fix hh _ _ _ _ (padL_head _ _ _ (by omega)), strtof_fix hh _ _ _ _ (padL_head _ _ _ (by omega)),
    strtof_fix hh _ _ _ _ (blanks_head _ _ (by omega))]

theorem codesAt_text (cs : List ObsCode) (hc : ∀ c ∈ cs, CodeOk c) (T : List Char) : ∀ (k : Nat) (r : List Char),
    T.drop k = (cs.map codeText).flatten ++ r → CodesAt T k cs := by
  induction cs with
  | nil => intro k r _ i hi; simp at hi
  | cons c cs ih =>
    intro k r h i hi
    cases i with
    | zero =>
      have hok := hc c (by simp)
      refine ⟨⟨(cs.map codeText).flatten ++ r, ?_⟩, hok⟩
      rw [Nat.zero_mul, Nat.add_zero, h]
      obtain ⟨t, f⟩ := c
      unfold CodeOk at hok
      simp only [List.map_cons, List.flatten_cons, codeText, List.cons_append, List.nil_append, List.getElem_cons_zero]
      by_cases hf : hasFrequency t = true
      · simp only [hf, if_true] at hok ⊢
        rcases hok with rfl | rfl <;> rfl
      · simp [hf]
    | succ i =>
      have := ih (fun c hc' => hc c (by simp [hc'])) (k + 4) r (by
        rw [← List.drop_drop, h]
        simp [codeText]) i (by simpa using hi)
      simp only [List.getElem_cons_succ]
      rwa [show k + (i + 1) * 4 = k + 4 + i * 4 by omega]

theorem strncmpEq_self (n : Nat) : ∀ a : List Char, strncmpEq n a a = true := by
  induction n with
  | zero => intro a; rfl
  | succ n ih =>
    intro a
    unfold strncmpEq
    simp only [bne_self_eq_false, Bool.false_eq_true, if_false]
    split
    · rfl
    · exact ih _

theorem strptime_pad {e : Ext} {n : Nat} {d : List Char} {t : Int} (hd : Date e n d t) (m : Nat) (r : List Char) (hm : n < m) :
    e.strptime (padR m d ++ r) = some t := by
  have := hd.most
  obtain ⟨k, hk⟩ : ∃ k, m - d.length = k + 1 := ⟨m - d.length - 1, by omega⟩
  unfold padR
  rw [hk, List.replicate_succ, List.append_assoc, List.cons_append]
  exact hd.reads _

/-- A number of one column group at the start of a line. -/
theorem intAt_zero {e : Ext} (h : Hdr) (i : Item) (ho : i.Ok e h) (st : List Char) (n : Nat) (hi : i.fields = [padL 6 (natText n)])
    (hn : n < 1000000) : intAt (fill st i.line.text) 0 = some (n : Int) := by
  have l1 := padL_length 6 _ (natText_six n hn)
  refine intAt_number st _ 0 n (Nat.zero_le _) (i.line_nul e h ho) ?_
  have c0 := i.drop_field 0 0 (by simp) (by simp)
  have hw : i.fields.flatten.length = 6 := by simp [hi, l1]
  rw [hw] at c0
  simp only [hi, List.drop_zero, List.flatten_cons, List.flatten_nil, List.append_nil] at c0
  exact numberAt_nat _ 0 6 n _ (by rw [List.drop_zero, c0]) (.inr (blanks_head _ _ (by omega))) (by omega)

theorem take_piece (p r : List Char) (n : Nat) (h : p.length = n) : (p ++ r).take n = p := by
  rw [← h, List.take_left]

theorem station_read {e : Ext} (h : Hdr) (b : Beacon) (ho : BeaconOk b) (st : List Char) :
    Beacon.setFromRinexLine (cstr (fill st (Item.station b).line.text) 0) = .ok b := by
  have l1 := padR_length 30 _ ho.name.most
  have l2 := padR_length 10 _ ho.domes.most
  have l3 := intText_small _ ho.type.1 ho.type.2
  have l4 := padL_length 3 _ (intText_three _ ho.shift.1 ho.shift.2)
  have l5 := ho.code.1
  have l6 := ho.id.1
  have hlen := (Item.station b).line_length e h ho
  rw [cstr_text st _ 0 (Nat.zero_le _) ((Item.station b).line_nul e h ho), List.drop_zero]
  have hw : (Item.station b).fields.flatten.length = 55 := by simp [Item.fields, l1, l2, l3, l4, l5, l6, blanks_length]
  have d0 := (Item.station b).drop_field 0 0 (by simp) (by simp)
  have d5 := (Item.station b).drop_field 2 5 (by simp [Item.fields]) (by simp [Item.fields, l5, blanks_length])
  have d10 := (Item.station b).drop_field 4 10 (by simp [Item.fields]) (by simp [Item.fields, l5, l6, blanks_length])
  have d40 := (Item.station b).drop_field 5 40 (by simp [Item.fields]) (by simp [Item.fields, l5, l6, l1, blanks_length])
  have d50 := (Item.station b).drop_field 6 50 (by simp [Item.fields]) (by simp [Item.fields, l5, l6, l1, l2, blanks_length])
  have d52 := (Item.station b).drop_field 8 52 (by simp [Item.fields]) (by simp [Item.fields, l5, l6, l1, l2, l3, blanks_length])
  rw [hw] at d0 d5 d10 d40 d50 d52
  simp only [Item.fields, List.drop_zero, List.drop_succ_cons, List.flatten_cons, List.flatten_nil, List.append_nil, List.append_assoc]
    at d0 d5 d10 d40 d50 d52
  obtain ⟨r50, s50⟩ : ∃ r, strtol ((Item.station b).line.text.drop 50) = some ⟨b.type, r, false⟩ := by
    rw [d50]
    exact ⟨_, strtol_int 0 b.type _ (.inr (blanks_head _ _ (by omega))) (by have := ho.type; omega) (by have := ho.type; omega)⟩
  obtain ⟨r52, s52⟩ : ∃ r, strtol ((Item.station b).line.text.drop 52) = some ⟨b.shift, r, false⟩ := by
    rw [d52]
    unfold padL
    rw [List.append_assoc]
    exact ⟨_, strtol_int _ b.shift _ (.inr (blanks_head _ _ (by omega))) (by have := ho.shift; omega) (by have := ho.shift; omega)⟩
  unfold Beacon.setFromRinexLine
  rw [if_neg (by omega), s50, s52]
  simp only [Bool.false_eq_true, if_false]
  have f0 : field (Item.station b).line.text 0 3 = b.internalCode := by
    unfold field
    rw [List.drop_zero, d0, ← l5, List.take_left]
  have f5 : field (Item.station b).line.text 5 4 = b.stationId := by
    unfold field
    rw [d5, ← l6, List.take_left]
  have f10 : field (Item.station b).line.text 10 30 = padR 30 b.name := by
    unfold field
    rw [d10, take_piece _ _ _ l1]
  have f40 : field (Item.station b).line.text 40 10 = padR 10 b.domes := by
    unfold field
    rw [d40, take_piece _ _ _ l2]
  rw [f0, f5, f10, f40, trim_text _ _ ho.name, trim_text _ _ ho.domes]
  have h8 : toInt8 b.type = b.type := by
    have := ho.type
    unfold toInt8
    rw [Int.bmod_eq_of_le (by omega) (by omega)]
  have h32 : toInt32 b.shift = b.shift := by
    have := ho.shift
    unfold toInt32
    rw [Int.bmod_eq_of_le (by omega) (by omega)]
  rw [h8, h32]

/-- A line is read as what it says. -/
theorem Item.read {e : Ext} {rd rf : Rat → Rat} (hh : Honest e rd rf) (h : Hdr) (i : Item) (ho : i.Ok e h) (l : Label)
    (hl : i.lab = some l) (st : List Char) : onLabel e (fill st i.line.text) h l = .ok (i.apply rd rf h) := by
  have hlen := i.line_length e h ho
  have hnul := i.line_nul e h ho
  cases i with
  | comment t => simp [Item.lab] at hl
  | satName t =>
    obtain rfl : Label.satelliteName = l := by simpa [Item.lab] using hl
    have d0 := (Item.satName t).drop_field 0 0 (by simp) (by simp)
    simp only [Item.fields, List.drop_zero, List.flatten_cons, List.flatten_nil, List.append_nil] at d0
    have := ho.most
    simp only [onLabel]
    rw [textField_text st _ 0 59 59 (60 - t.length) 30 t _ ho (by omega) (by rw [List.drop_zero]; exact d0) (by omega)]
    rfl
  | cospar t =>
    obtain rfl : Label.cosparNumber = l := by simpa [Item.lab] using hl
    have d0 := (Item.cospar t).drop_field 0 0 (by simp) (by simp)
    simp only [Item.fields, List.drop_zero, List.flatten_cons, List.flatten_nil, List.append_nil] at d0
    have := ho.most
    simp only [onLabel]
    rw [textField_text st _ 0 59 20 (60 - t.length) 40 t _ ho (by omega) (by rw [List.drop_zero]; exact d0) (by omega)]
    rfl
  | marker =>
    obtain rfl : Label.markerType = l := by simpa [Item.lab] using hl
    have d0 := Item.marker.drop_field 0 0 (by simp) (by simp)
    simp only [Item.fields, List.drop_zero, List.flatten_cons, List.flatten_nil, List.append_nil] at d0
    simp only [onLabel]
    rw [take_fill st _ 10 (by omega), ← take_fill [] _ 10 (by omega)]
    unfold fill
    rw [List.take_append_of_le_length (by omega), d0, take_piece _ _ 10 (by decide), if_pos rfl]
    rfl
  | agency t =>
    obtain rfl : Label.observerAgency = l := by simpa [Item.lab] using hl
    rfl
  | receiver a b c =>
    obtain rfl : Label.receiver = l := by simpa [Item.lab] using hl
    obtain ⟨h1, h2, h3⟩ := ho
    have m1 := h1.most
    have m2 := h2.most
    have m3 := h3.most
    have l1 := padR_length 20 a (by omega)
    have l2 := padR_length 20 b (by omega)
    have d0 := (Item.receiver a b c).drop_field 0 0 (by simp) (by simp)
    have d1 := (Item.receiver a b c).drop_field 1 20 (by simp [Item.fields]) (by simp [Item.fields, l1])
    have d2 := (Item.receiver a b c).drop_field 2 40 (by simp [Item.fields]) (by simp [Item.fields, l1, l2])
    have hw : (Item.receiver a b c).fields.flatten.length = 40 + c.length := by simp [Item.fields, l1, l2]; omega
    rw [hw] at d0 d1 d2
    simp only [Item.fields, List.drop_zero, List.drop_succ_cons, List.flatten_cons, List.flatten_nil, List.append_nil, List.append_assoc]
      at d0 d1 d2
    simp only [padR, List.append_assoc] at d0 d1
    simp only [onLabel]
    rw [textField_text st _ 0 19 19 (20 - a.length) 71 a _ h1 (by omega) (by rw [List.drop_zero]; exact d0) (by omega),
      textField_text st _ 20 19 19 (20 - b.length) 72 b _ h2 (by omega) d1 (by omega),
      textField_text st _ 40 19 19 (60 - (40 + c.length)) 73 c _ h3 (by omega) d2 (by omega)]
    rfl
  | antenna =>
    obtain rfl : Label.antenna = l := by simpa [Item.lab] using hl
    have d0 : Item.antenna.line.text.drop 0 = "DORIS".toList ++ (blanks 15 ++ Item.antenna.line.text.drop 20) := by decide +kernel
    have d1 : Item.antenna.line.text.drop 20 = "STAREC".toList ++ (blanks 14 ++ Item.antenna.line.text.drop 40) := by decide +kernel
    simp only [onLabel]
    rw [textField_text st _ 0 19 19 15 81 "DORIS".toList _ ⟨by decide, by decide, by decide, by decide⟩ (by omega) d0 (by decide),
      textField_text st _ 20 19 19 14 82 "STAREC".toList _ ⟨by decide, by decide, by decide, by decide⟩ (by omega) d1 (by decide)]
    rfl
  | approx x y z =>
    obtain rfl : Label.approxPosition = l := by simpa [Item.lab] using hl
    simp only [onLabel, threeNumbers_read hh h (.approx x y z) ho st x y z 90 rfl ho.1 ho.2.1 ho.2.2]
    rfl
  | center x y z =>
    obtain rfl : Label.centerOfMass = l := by simpa [Item.lab] using hl
    simp only [onLabel, threeNumbers_read hh h (.center x y z) ho st x y z 100 rfl ho.1 ho.2.1 ho.2.2]
    rfl
  | codes cs =>
    obtain rfl : Label.obsTypes = l := by simpa [Item.lab] using hl
    obtain ⟨h1, h2, h3, h8⟩ := ho
    have l1 := padL_length 5 _ (natText_length cs.length 4 (by omega))
    have d0 := (Item.codes cs).drop_field 0 0 (by simp) (by simp)
    have d1 := (Item.codes cs).drop_field 1 1 (by simp [Item.fields]) (by simp [Item.fields])
    have d2 := (Item.codes cs).drop_field 2 6 (by simp [Item.fields]) (by simp [Item.fields, l1])
    simp only [Item.fields, List.drop_zero, List.drop_succ_cons, List.flatten_cons, List.flatten_nil, List.append_nil, List.append_assoc]
      at d0 d1 d2
    refine obsTypes_line e st (Item.codes cs).line cs h ⟨?_, hnul, ?_, ?_, h1, h2, ?_⟩
    · rw [Item.line, textOf_label _ _ ((Item.codes cs).width e h ⟨h1, h2, h3, h8⟩)]
      exact (Item.codes cs).label_of_lab .obsTypes rfl
    · rw [d0]; rfl
    · refine numberAt_nat _ 1 5 cs.length _ d1 (.inr ?_) (by omega)
      obtain ⟨c, cs, rfl⟩ := List.exists_cons_of_ne_nil h1
      rfl
    · exact codesAt_text cs h3 _ 6 _ d2
  | first d t =>
    obtain rfl : Label.firstObs = l := by simpa [Item.lab] using hl
    have m1 := ho.most
    have l1 := padR_length 48 d (by omega)
    have c0 := (Item.first d t).cstr_field e h ho st 0 0 (by simp) (by simp)
    have d1 := (Item.first d t).drop_field 1 48 (by simp [Item.fields]) (by simp [Item.fields, l1])
    simp only [Item.fields, List.drop_zero, List.drop_succ_cons, List.flatten_cons, List.flatten_nil, List.append_nil, List.append_assoc]
      at c0 d1
    simp only [onLabel]
    rw [take_drop_fill st _ 48 3 (by omega), ← take_drop_fill [] _ 48 3 (by omega)]
    unfold fill at *
    rw [List.drop_append_of_le_length (by omega), d1, List.append_assoc, take_piece _ _ 3 (by decide), if_pos rfl, c0,
      strptime_pad ho 48 _ (by omega)]
    rfl
  | scale f cs =>
    obtain rfl : Label.scaleFactor = l := by simpa [Item.lab] using hl
    have ho' := ho
    obtain ⟨h1, h2, h3, h4, h5, h6, h7, -⟩ := ho
    have l1 := padL_length 4 _ (natText_length f 3 (by omega))
    have n2 := natText_length cs.length 1 (by omega)
    have l2 := padL_length 2 _ n2
    have d0 := (Item.scale f cs).drop_field 0 0 (by simp) (by simp)
    have d1 := (Item.scale f cs).drop_field 1 2 (by simp [Item.fields]) (by simp [Item.fields])
    have d3 := (Item.scale f cs).drop_field 3 8 (by simp [Item.fields]) (by simp [Item.fields, l1, blanks_length])
    have d4 := (Item.scale f cs).drop_field 4 10 (by simp [Item.fields]) (by simp [Item.fields, l1, l2, blanks_length])
    simp only [Item.fields, List.drop_zero, List.drop_succ_cons, List.flatten_cons, List.flatten_nil, List.append_nil, List.append_assoc]
      at d0 d1 d3 d4
    have hhead : ∀ r : List Char, ((cs.map codeText).flatten ++ r).head? = some ' ' := by
      intro r
      obtain ⟨c, cs, rfl⟩ := List.exists_cons_of_ne_nil h3
      rfl
    refine scaleFactor_line e st (Item.scale f cs).line f cs h ⟨?_, hnul, ?_, ?_, by omega, ?_, ?_, h3, ?_⟩ (by omega) h6
      (fun c hc => (h7 c hc).1) h5
    · rw [Item.line, textOf_label _ _ ((Item.scale f cs).width e h ho')]
      exact (Item.scale f cs).label_of_lab .scaleFactor rfl
    · rw [d0]; rfl
    · exact numberAt_nat _ 2 4 f _ d1 (.inr (blanks_head _ _ (by omega))) (by omega)
    · rintro ⟨-, h9⟩
      have h9' : ((Item.scale f cs).line.text.drop 8)[1]? = some ' ' := by rw [List.getElem?_drop]; exact h9
      rw [d3, List.getElem?_append_left (by omega)] at h9'
      have hlast : (padL 2 (natText cs.length)).getLast? = some ' ' := by
        rw [List.getLast?_eq_getElem?, l2]; exact h9'
      unfold padL at hlast
      rw [List.getLast?_append] at hlast
      obtain ⟨-, hd, hne⟩ := natText_spec cs.length
      rw [List.getLast?_eq_some_getLast hne] at hlast
      have : (natText cs.length).getLast hne = ' ' := by simpa using hlast
      have hm := hd _ (List.getLast_mem hne)
      rw [this] at hm
      revert hm
      unfold DigitCode; decide
    · exact numberAt_nat _ 8 2 cs.length _ d3 (.inr (hhead _)) (by omega)
    · exact codesAt_text cs (fun c hc => (h7 c hc).2) _ 10 _ d4
  | l12 z =>
    obtain rfl : Label.l12Offset = l := by simpa [Item.lab] using hl
    have l1 := padL_length 14 _ ho
    have d0 := (Item.l12 z).drop_field 0 0 (by simp) (by simp)
    have c1 := (Item.l12 z).cstr_field e h ho st 1 3 (by simp [Item.fields]) (by simp [Item.fields])
    have hw : (Item.l12 z).fields.flatten.length = 17 := by simp [Item.fields, l1]
    rw [hw] at c1
    simp only [Item.fields, List.drop_zero, List.drop_succ_cons, List.flatten_cons, List.flatten_nil, List.append_nil, List.append_assoc]
      at d0 c1
    simp only [onLabel]
    rw [if_neg (by rw [at'_text st _ 0 'D' _ (by rw [List.drop_zero, d0]; rfl)]; simp), c1,
      strtod_fix hh _ _ _ _ (.inr (blanks_head _ _ (by omega)))]
    rfl
  | numStations n =>
    obtain rfl : Label.numStations = l := by simpa [Item.lab] using hl
    simp only [onLabel, intAt_zero h (.numStations n) ho st n rfl ho.2]
    rw [if_neg (by have := ho.1; omega)]
    rfl
  | station b =>
    obtain rfl : Label.stationReference = l := by simpa [Item.lab] using hl
    simp only [onLabel, station_read (e := e) h b ho st]
    rfl
  | numRefs n =>
    obtain rfl : Label.numTimeRef = l := by simpa [Item.lab] using hl
    simp only [onLabel, intAt_zero h (.numRefs n) ho st n rfl ho.2]
    rw [if_neg (by have := ho.1; omega)]
    rfl
  | ref c b s =>
    obtain rfl : Label.timeRefStation = l := by simpa [Item.lab] using hl
    have ho' := ho
    obtain ⟨h1, -, h3, h4, x, hx, h5⟩ := ho
    have l1 := padL_length 14 _ h3
    have l2 := padL_length 14 _ (Nat.le_succ_of_le h4)
    have d0 := (Item.ref c b s).drop_field 0 0 (by simp) (by simp)
    have c5 := (Item.ref c b s).cstr_field e h ho' st 2 5 (by simp [Item.fields]) (by simp [Item.fields, h1, blanks_length])
    have c19 := (Item.ref c b s).cstr_field e h ho' st 3 19 (by simp [Item.fields]) (by simp [Item.fields, h1, l1, blanks_length])
    have hw : (Item.ref c b s).fields.flatten.length = 33 := by simp [Item.fields, h1, l1, l2, blanks_length]
    rw [hw] at c5 c19
    simp only [Item.fields, List.drop_zero, List.drop_succ_cons, List.flatten_cons, List.flatten_nil, List.append_nil, List.append_assoc]
      at d0 c5 c19
    have htake : (fill st (Item.ref c b s).line.text).take 3 = c := by
      unfold fill
      rw [List.take_append_of_le_length (by omega), d0, take_piece _ _ 3 h1]
    simp only [onLabel, onTimeRefStation]
    rw [c5, c19, strtod_fix hh _ _ _ _ (.inr (padL_head _ _ _ (by omega))), strtod_fix hh _ _ _ _ (.inr (blanks_head _ _ (by omega)))]
    simp only [htake]
    rw [if_pos (List.any_eq_true.2 ⟨x, hx, by rw [h5]; exact strncmpEq_self 3 c⟩)]
    rfl
  | refDate d t =>
    obtain rfl : Label.timeRefDate = l := by simpa [Item.lab] using hl
    have m1 := ho.most
    have c0 := (Item.refDate d t).cstr_field e h ho st 0 0 (by simp) (by simp)
    simp only [Item.fields, List.drop_zero, List.flatten_cons, List.flatten_nil, List.append_nil] at c0
    have : d ++ (blanks (60 - d.length) ++ (Item.refDate d t).label.toList) = padR 60 d ++ (Item.refDate d t).label.toList := by
      simp [padR, blanks]
    rw [this] at c0
    simp only [onLabel]
    rw [c0, strptime_pad ho 60 _ (by omega)]
    rfl
  | clock a =>
    obtain rfl : Label.rcvClock = l := by simpa [Item.lab] using hl
    simp only [onLabel, intAt_zero h (.clock a) ho st _ rfl (by split <;> omega)]
    cases a <;> rfl

end Verif.Rinex.Write
