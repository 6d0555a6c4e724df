import Verif.Rinex.WriteHeader

/-! C147: a written DORIS RINEX file is read as what was written. -/
namespace Verif.Rinex.Write
open Verif.Text Verif.SystemInfo

/-! ### Header -/

/-- The last line of the header. -/
def endLine : Line := ⟨textOf [] "END OF HEADER       ", true⟩

theorem endLine_text : endLine.text.length = 80 ∧ "END OF HEADER".toList <+: endLine.text.drop 60 := by
  constructor
  · decide +kernel
  · exact List.isPrefixOf_iff_prefix.1 (by decide +kernel)

theorem getline_open (l : Line) (rest : List Line) (b : Buf) (hl : l.text.length ≤ 80) (he : l.eol = true) :
    getline 81 (Stream.open (l :: rest)) b = (Stream.open rest, fill b l.text) := by
  rw [getline_good b rfl (l := l) (rest := rest) rfl (by omega), he]
  rfl

theorem headerLoop_items {e : Ext} {rd rf : Rat → Rat} (hh : Honest e rd rf) (rest : List Line) (items : List Item) :
    ∀ (h : Hdr) (b : Buf) (fuel : Nat), ItemsOk e rd rf h items → items.length < fuel →
      headerLoop e fuel (Stream.open (items.map Item.line ++ endLine :: rest)) b h =
        .ok (items.foldl (Item.apply rd rf) h, Stream.open rest) := by
  induction items with
  | nil =>
    intro h b fuel _ hf
    obtain ⟨fuel, rfl⟩ : ∃ m, fuel = m + 1 := ⟨fuel - 1, by simp at hf; omega⟩
    rw [List.map_nil, List.nil_append, headerLoop, getline_open endLine rest b (by rw [endLine_text.1]) rfl]
    have hd := (dispatch_line b endLine.text (by rw [endLine_text.1]; omega) .endOfHeader).2 endLine_text.2
    simp only [Stream.open, Bool.false_eq_true, if_false, hd]
    rfl
  | cons i items ih =>
    intro h b fuel hi hf
    obtain ⟨fuel, rfl⟩ : ∃ m, fuel = m + 1 := ⟨fuel - 1, by simp at hf; omega⟩
    obtain ⟨ho, hi⟩ := hi
    have hlen := i.line_length e h ho
    have hlab : i.line.text.drop 60 = i.label.toList := textOf_label _ _ (i.width e h ho)
    have hrec := ih (i.apply rd rf h) (fill b i.line.text) fuel hi (by simpa using hf)
    rw [List.map_cons, List.cons_append, headerLoop, getline_open i.line _ b (by omega) rfl]
    simp only [Stream.open, Bool.false_eq_true, if_false] at hrec ⊢
    cases hl : i.lab with
    | none =>
      have hd : dispatch Label.order (fill b i.line.text) = none := by
        cases hx : dispatch Label.order (fill b i.line.text) with
        | none => rfl
        | some l =>
          have := (dispatch_line b i.line.text (by omega) l).1 hx
          rw [hlab, i.label_lab l, hl] at this
          simp at this
      have ha : i.apply rd rf h = h := by cases i <;> simp [Item.lab] at hl; rfl
      rw [hd, List.foldl_cons, ← hrec, ha]
    | some l =>
      have hd : dispatch Label.order (fill b i.line.text) = some l := by
        rw [dispatch_line b i.line.text (by omega) l, hlab, i.label_lab l, hl]
      have hne : l ≠ .endOfHeader := by rintro rfl; cases i <;> simp [Item.lab] at hl
      have hr := i.read hh h ho l hl b
      rw [hd, List.foldl_cons, ← hrec]
      cases l <;> first | exact absurd rfl hne | simp only [hr]

/-- The first two lines. -/
theorem first_lines {e : Ext} {rd rf : Rat → Rat} (hh : Honest e rd rf) (version : Int) (pgm : List Char) (items : List Item)
    (rest : List Line) (hv : (fixText 2 version).length ≤ 9) (hp : pgm.length ≤ 60) (b0 : Buf) :
    ∃ b fuel, items.length < fuel ∧ readHeader e b0 (Stream.open (headerLines version pgm items ++ rest)) =
      (match headerLoop e fuel (Stream.open (items.map Item.line ++ endLine :: rest)) b { version := rf (version / 10 ^ 2) } with
      | .error x => .error x
      | .ok (h, s3) => if finalChecks h then .ok (h, s3) else .error (.status (-3))) := by
  obtain ⟨ps, hps⟩ : ∃ ps, ps = [padL 9 (fixText 2 version), blanks 11, ['O'], blanks 19, ['D']] := ⟨_, rfl⟩
  have l1 := padL_length 9 _ hv
  have hlab : "RINEX VERSION / TYPE".toList.length = 20 := by decide
  have hw : ps.flatten.length = 41 := by simp [hps, l1, blanks_length]
  obtain ⟨T, hT⟩ : ∃ T, T = textOf ps "RINEX VERSION / TYPE" := ⟨_, rfl⟩
  have hlen : T.length = 80 := by rw [hT]; exact textOf_length _ _ (by omega) hlab
  have hnul : '\x00' ∉ T := by
    rw [hT]
    refine textOf_nul _ _ ?_ (by decide)
    intro p hp
    rw [hps] at hp
    simp only [List.mem_cons, List.not_mem_nil, or_false] at hp
    rcases hp with rfl | rfl | rfl | rfl | rfl
    · exact padL_nul _ _ (fixText_nul _ _)
    · exact blanks_nul _
    · decide
    · exact blanks_nul _
    · decide
  have d0 := textOf_drop ps "RINEX VERSION / TYPE" 0 0 (by simp) (by simp)
  have d20 := textOf_drop ps "RINEX VERSION / TYPE" 2 20 (by simp [hps]) (by simp [hps, l1, blanks_length])
  have d40 := textOf_drop ps "RINEX VERSION / TYPE" 4 40 (by simp [hps]) (by simp [hps, l1, blanks_length])
  have d60 := textOf_label ps "RINEX VERSION / TYPE" (by omega)
  rw [← hT, hw] at d0 d20 d40
  rw [← hT] at d60
  simp only [hps, List.drop_zero, List.drop_succ_cons, List.flatten_cons, List.flatten_nil, List.append_nil, List.append_assoc]
    at d0 d20 d40
  obtain ⟨P, hP⟩ : ∃ P, P = textOf [pgm] "PGM / RUN BY / DATE " := ⟨_, rfl⟩
  have hPlen : P.length = 80 := by rw [hP]; exact textOf_length _ _ (by simpa using hp) (by decide)
  have hPlab := textOf_label [pgm] "PGM / RUN BY / DATE " (by simpa using hp)
  rw [← hP] at hPlab
  have hlines : headerLines version pgm items ++ rest =
      ⟨T, true⟩ :: ⟨P, true⟩ :: (items.map Item.line ++ endLine :: rest) := by
    rw [hT, hP, hps]
    simp [headerLines, endLine]
  refine ⟨fill (fill b0 T) P, (items.map Item.line ++ endLine :: rest).length + 1, by simp; omega, ?_⟩
  rw [hlines]
  unfold readHeader
  rw [if_neg (by simp [Stream.open, Stream.good]), getline_open ⟨T, true⟩ _ b0 (by simp [hlen]) rfl]
  simp only
  rw [(labelAt_fill b0 T _ (by decide) (by omega)).2 (by rw [d60]), cstr_text b0 T 0 (by omega) hnul, List.drop_zero, d0,
    strtof_fix hh _ _ _ _ (blanks_head _ _ (by omega)), ← d0]
  rw [if_neg (by simp)]
  simp only
  rw [if_neg (by
    rw [at'_text b0 T 20 'O' _ (by rw [d20]; rfl), at'_text b0 T 40 'D' _ (by rw [d40]; rfl)]
    simp), getline_open ⟨P, true⟩ _ _ (by simp [hPlen]) rfl]
  simp only
  rw [(labelAt_fill (fill b0 T) P _ (by decide) (by omega)).2 (by
    rw [hPlab]; exact List.isPrefixOf_iff_prefix.1 (by decide +kernel)), if_neg (by simp)]
  rfl

/-- The counts of the header agree with its lines. -/
structure Complete (h : Hdr) : Prop where
  codes : h.obsTypesNum = h.codes.length
  scale : h.scale.length = h.codes.length
  stations : h.numStations = h.stations.length
  refs : h.refs.length < h.stations.length

/-- A written header whose counts agree with its lines is read as what its lines say, line after line, with comments anywhere;
the stream is left at the first line after it. -/
theorem header_roundtrip {e : Ext} {rd rf : Rat → Rat} (hh : Honest e rd rf) (version : Int) (pgm : List Char) (items : List Item)
    (rest : List Line) (hv : (fixText 2 version).length ≤ 9) (hp : pgm.length ≤ 60)
    (hi : ItemsOk e rd rf { version := rf (version / 10 ^ 2) } items) (hc : Complete (headerOf rd rf version items)) (b0 : Buf) :
    readHeader e b0 (Stream.open (headerLines version pgm items ++ rest)) =
      .ok (headerOf rd rf version items, Stream.open rest) := by
  obtain ⟨b, fuel, hf, hr⟩ := first_lines hh version pgm items rest hv hp b0
  rw [hr, headerLoop_items hh rest items _ b fuel hi hf]
  have hfin : finalChecks (headerOf rd rf version items) = true := by
    unfold finalChecks
    simp [hc.codes, hc.scale, hc.stations, hc.refs]
  unfold headerOf at hfin ⊢
  simp only [hfin, if_true]

/-- A written header is refused with status -3 if its counts do not agree. -/
theorem header_refused {e : Ext} {rd rf : Rat → Rat} (hh : Honest e rd rf) (version : Int) (pgm : List Char) (items : List Item)
    (rest : List Line) (hv : (fixText 2 version).length ≤ 9) (hp : pgm.length ≤ 60)
    (hi : ItemsOk e rd rf { version := rf (version / 10 ^ 2) } items) (hc : ¬ Complete (headerOf rd rf version items)) (b0 : Buf) :
    readHeader e b0 (Stream.open (headerLines version pgm items ++ rest)) = .error (.status (-3)) := by
  obtain ⟨b, fuel, hf, hr⟩ := first_lines hh version pgm items rest hv hp b0
  rw [hr, headerLoop_items hh rest items _ b fuel hi hf]
  have hfin : finalChecks (headerOf rd rf version items) = false := by
    cases hx : finalChecks (headerOf rd rf version items) with
    | false => rfl
    | true =>
      unfold finalChecks at hx
      simp only [Bool.and_eq_true, beq_iff_eq, decide_eq_true_eq] at hx
      exact absurd ⟨hx.1.1.2, hx.1.1.1.symm, hx.1.2, hx.2⟩ hc
  unfold headerOf at hfin
  simp only [hfin, Bool.false_eq_true, if_false]

/-- The stations of a header are those of its lines, in their order, and so are the reference stations. -/
theorem header_lists (rd rf : Rat → Rat) (version : Int) (items : List Item) :
    (headerOf rd rf version items).stations = items.filterMap (fun i => match i with | .station b => some b | _ => none) ∧
    (headerOf rd rf version items).refs =
      items.filterMap (fun i => match i with | .ref c b s => some ⟨c, rd (b / 10 ^ 3), rd (s / 10 ^ 3)⟩ | _ => none) := by
  have key : ∀ (items : List Item) (h : Hdr),
      (items.foldl (Item.apply rd rf) h).stations =
        h.stations ++ items.filterMap (fun i => match i with | .station b => some b | _ => none) ∧
      (items.foldl (Item.apply rd rf) h).refs = h.refs ++
        items.filterMap (fun i => match i with | .ref c b s => some ⟨c, rd (b / 10 ^ 3), rd (s / 10 ^ 3)⟩ | _ => none) := by
    intro items
    induction items with
    | nil => intro h; simp
    | cons i items ih =>
      intro h
      rw [List.foldl_cons, (ih _).1, (ih _).2]
      cases i <;> simp [Item.apply]
  obtain ⟨h1, h2⟩ := key items { version := rf (version / 10 ^ 2) }
  exact ⟨by unfold headerOf; rw [h1]; simp, by unfold headerOf; rw [h2]; simp⟩

/-! ### Data -/

theorem Obs.text_length (o : Obs) (ho : o.Ok) : o.text.length = 16 := by
  unfold Obs.text
  cases hv : o.value with
  | none => simp [padL, optText]
  | some z => simp [optText, padL_length 14 _ (ho.1 z hv)]

theorem Obs.text_nul (o : Obs) (ho : o.Ok) : '\x00' ∉ o.text := by
  unfold Obs.text
  have h : '\x00' ∉ padL 14 (optText 3 o.value) := by
    apply padL_nul
    cases o.value with
    | none => simp [optText]
    | some z => exact fixText_nul 3 z
  have h1 := ho.2.1
  have h2 := ho.2.2
  simp [h, Ne.symm h1, Ne.symm h2]

theorem obs_length (os : List Obs) (ho : ∀ o ∈ os, o.Ok) : ((os.map Obs.text).flatten).length = 16 * os.length := by
  induction os with
  | nil => rfl
  | cons o os ih =>
    rw [List.map_cons, List.flatten_cons, List.length_append, ih fun x hx => ho x (by simp [hx]), o.text_length (ho o (by simp)),
      List.length_cons]
    ring

theorem obs_drop (os : List Obs) (ho : ∀ o ∈ os, o.Ok) (k : Nat) :
    ((os.map Obs.text).flatten).drop (16 * k) = ((os.drop k).map Obs.text).flatten := by
  induction k generalizing os with
  | zero => rfl
  | succ k ih =>
    cases os with
    | nil => simp
    | cons o os =>
      rw [List.map_cons, List.flatten_cons, List.drop_succ_cons, ← ih os fun x hx => ho x (by simp [hx]),
        show 16 * (k + 1) = o.text.length + 16 * k by rw [o.text_length (ho o (by simp))]; ring, ← List.drop_drop, List.drop_left]

theorem lineAt_length (k : Nat) (r : Record) (hr : r.Ok k) (j : Nat) :
    (r.lineAt j).text.length = 3 + 16 * min 5 (k - 5 * j) := by
  have h1 : (if j = 0 then r.id else blanks 3).length = 3 := by split <;> simp [hr.id.1, blanks_length]
  unfold Record.lineAt
  simp only
  rw [List.length_append, h1, obs_length _ fun o ho => hr.obs o (List.mem_of_mem_drop (List.mem_of_mem_take ho)), List.length_take,
    List.length_drop, hr.count]

/-- Observation `c` in the columns of its line. -/
theorem lineAt_drop (k : Nat) (r : Record) (hr : r.Ok k) (c : Nat) (hc : c < r.obs.length) :
    ∃ s, (r.lineAt (c / 5)).text.drop (3 + c % 5 * 16) = r.obs[c].text ++ s := by
  have h1 : (if c / 5 = 0 then r.id else blanks 3).length = 3 := by split <;> simp [hr.id.1, blanks_length]
  unfold Record.lineAt
  simp only
  have h2 := obs_drop ((r.obs.drop (5 * (c / 5))).take 5)
    (fun o ho => hr.obs o (List.mem_of_mem_drop (List.mem_of_mem_take ho))) (c % 5)
  generalize (if c / 5 = 0 then r.id else blanks 3) = q at h1
  rw [← List.drop_drop, ← h1, List.drop_left, Nat.mul_comm, h2, List.drop_take, List.drop_drop, Nat.div_add_mod]
  obtain ⟨m, hm⟩ : ∃ m, 5 - c % 5 = m + 1 := ⟨4 - c % 5, by omega⟩
  rw [hm, List.drop_eq_getElem_cons hc, List.take_succ_cons]
  exact ⟨_, by rw [List.map_cons, List.flatten_cons]⟩

theorem isSpace_blanks (n : Nat) : (List.replicate n ' ').all isSpace = true := by
  rw [List.all_eq_true]
  intro c hc
  rw [(List.mem_replicate.1 hc).2]
  rfl

/-- An observation is read as what it says. -/
theorem obs_read {e : Ext} {rd rf : Rat → Rat} (hh : Honest e rd rf) (st T : List Char) (k : Nat) (o : Obs) (ho : o.Ok) (f : Int)
    (r : List Char) (h : T.drop (3 + k * 16) = o.text ++ r) : readField e (fill st T) k f = .ok (o.meaning rd f) := by
  obtain ⟨p, hp⟩ : ∃ p, p = padL 14 (optText 3 o.value) := ⟨_, rfl⟩
  have hpl : p.length = 14 := by
    have := o.text_length ho
    unfold Obs.text at this
    rw [← hp] at this
    simpa using this
  have htext : o.text = p ++ [o.flag1, o.flag2] := by rw [hp]; rfl
  have hpn : '\x00' ∉ p := fun hm => o.text_nul ho (by rw [htext]; simp [hm])
  have hlen : 3 + k * 16 + 16 ≤ T.length := by
    have := congrArg List.length h
    rw [List.length_append, o.text_length ho, List.length_drop] at this
    omega
  have hstr : ((fill st T).drop (3 + k * 16)).take 14 = p := by
    unfold fill
    rw [List.drop_append_of_le_length (by omega), h, htext, List.append_assoc, List.append_assoc, take_piece _ _ 14 hpl]
  have hf1 : at' (fill st T) (3 + k * 16 + 14) = o.flag1 := by
    refine at'_text st T _ _ (o.flag2 :: r) ?_
    rw [← List.drop_drop, h, htext, ← hpl, List.append_assoc, List.drop_left]
    rfl
  have hf2 : at' (fill st T) (3 + k * 16 + 15) = o.flag2 := by
    refine at'_text st T _ _ r ?_
    rw [← List.drop_drop, h, htext, show 15 = (p ++ [o.flag1]).length by simp [hpl],
      show p ++ [o.flag1, o.flag2] ++ r = (p ++ [o.flag1]) ++ (o.flag2 :: r) by simp, List.drop_left]
  unfold readField
  simp only [hstr, hf1, hf2, takeWhile_of_not_mem p hpn]
  unfold Obs.meaning
  cases hv : o.value with
  | none =>
    have hb : p = List.replicate 14 ' ' := by rw [hp, hv]; simp [padL, optText]
    rw [if_pos (by rw [hb]; exact isSpace_blanks 14), if_neg (by rw [hb]; simp)]
  | some z =>
    have hz : p = padL 14 (fixText 3 z) := by rw [hp, hv]; rfl
    have hns : ¬ p.all isSpace = true := by
      intro hall
      rw [List.all_eq_true] at hall
      have := hall '.' (by rw [hz]; simp [padL, fixText])
      revert this
      decide
    have hd := strtod_fix hh 14 3 z [] (.inl rfl)
    rw [List.append_nil, ← hz] at hd
    rw [if_neg hns, hd]

theorem specObs_record {e : Ext} {rd rf : Rat → Rat} (hh : Honest e rd rf) (k : Nat) (r : Record) (hr : r.Ok k) (L : List Line)
    (hL : ∀ c < k, L[c / 5]? = some (r.lineAt (c / 5))) (fs : List Int) : ∀ cur, cur + fs.length = k →
    specObs e L fs cur = .ok (List.zipWith (Obs.meaning rd) (r.obs.drop cur) fs) := by
  induction fs with
  | nil => intro cur _; simp [specObs]
  | cons f fs ih =>
    intro cur hcur
    have hc : cur < r.obs.length := by rw [hr.count]; simp at hcur; omega
    obtain ⟨s, hs⟩ := lineAt_drop k r hr cur hc
    have hg : L.getD (cur / 5) ⟨[], true⟩ = r.lineAt (cur / 5) := by
      rw [List.getD_eq_getElem?_getD, hL cur (by rw [← hr.count]; exact hc)]; rfl
    rw [specObs, hg, obs_read hh [] _ _ r.obs[cur] (hr.obs _ (List.getElem_mem hc)) f s hs]
    simp only [ih (cur + 1) (by simp at hcur; omega), List.drop_eq_getElem_cons hc, List.zipWith_cons_cons]

theorem specBeacon_record {e : Ext} {rd rf : Rat → Rat} (hh : Honest e rd rf) (sf : List Int) (hsf : sf ≠ []) (r : Record)
    (hr : r.Ok sf.length) (L : List Line) (hL : ∀ c < sf.length, L[c / 5]? = some (r.lineAt (c / 5))) :
    specBeacon e sf L = .ok (r.meaning rd sf) := by
  have hpos := List.length_pos_of_ne_nil hsf
  have h0 := hL 0 hpos
  rw [Nat.zero_div] at h0
  have hg : L.getD 0 ⟨[], true⟩ = r.lineAt 0 := by
    rw [List.getD_eq_getElem?_getD, h0]; rfl
  have ht : (r.lineAt 0).text = r.id ++ (((r.obs.drop (5 * 0)).take 5).map Obs.text).flatten := rfl
  obtain ⟨t, hid⟩ : ∃ t, r.id = 'D' :: t := by
    have := hr.id.2.2
    cases hri : r.id with
    | nil => rw [hri] at this; simp at this
    | cons c t => rw [hri] at this; simp at this; subst this; exact ⟨t, rfl⟩
  unfold specBeacon
  simp only [hg]
  rw [if_neg (by rw [at'_text [] _ 0 'D' _ (by rw [List.drop_zero, ht, hid]; rfl)]; simp), specObs_record hh _ r hr L hL sf 0 (by simp)]
  simp only [List.drop_zero]
  have : (fill [] (r.lineAt 0).text).take 3 = r.id := by
    unfold fill
    rw [ht, List.append_assoc, take_piece _ _ 3 hr.id.1]
  rw [this]
  rfl

theorem lines_length (k : Nat) (r : Record) (hr : r.Ok k) : r.lines.length = linesFor k := by
  simp [Record.lines, linesFor, hr.count]

theorem lines_get (k : Nat) (r : Record) (hr : r.Ok k) (M : List Line) (c : Nat) (hc : c < k) :
    (r.lines ++ M)[c / 5]? = some (r.lineAt (c / 5)) := by
  have hlt : c / 5 < (r.obs.length + 4) / 5 := by rw [hr.count]; omega
  rw [List.getElem?_append_left (by simpa [Record.lines] using hlt)]
  unfold Record.lines
  rw [List.getElem?_map, List.getElem?_range hlt]
  rfl

theorem records_drop (k : Nat) (rs : List Record) (hr : ∀ r ∈ rs, r.Ok k) (n : Nat) :
    (rs.flatMap Record.lines).drop (n * linesFor k) = (rs.drop n).flatMap Record.lines := by
  induction n generalizing rs with
  | zero => simp
  | succ n ih =>
    cases rs with
    | nil => simp
    | cons r rs =>
      rw [List.flatMap_cons, List.drop_succ_cons, ← ih rs fun x hx => hr x (by simp [hx]),
        show (n + 1) * linesFor k = r.lines.length + n * linesFor k by rw [lines_length k r (hr r (by simp))]; ring, ← List.drop_drop,
        List.drop_left]

theorem records_length (k : Nat) (rs : List Record) (hr : ∀ r ∈ rs, r.Ok k) :
    (rs.flatMap Record.lines).length = rs.length * linesFor k := by
  induction rs with
  | nil => simp
  | cons r rs ih =>
    rw [List.flatMap_cons, List.length_append, ih fun x hx => hr x (by simp [hx]), lines_length k r (hr r (by simp)), List.length_cons]
    ring

theorem specBlock_records {e : Ext} {rd rf : Rat → Rat} (hh : Honest e rd rf) (sf : List Int) (hsf : sf ≠ []) (rs : List Record)
    (hr : ∀ r ∈ rs, r.Ok sf.length) :
    specBlock e sf rs.length (rs.flatMap Record.lines) = .ok (rs.map (Record.meaning rd sf)) := by
  induction rs with
  | nil => rfl
  | cons r rs ih =>
    have hok := hr r (by simp)
    have h1 := records_drop sf.length (r :: rs) hr 1
    unfold linesFor at h1
    rw [Nat.one_mul, List.drop_one, List.tail_cons] at h1
    rw [List.length_cons, specBlock, h1, ih fun x hx => hr x (by simp [hx]), List.flatMap_cons,
      specBeacon_record hh sf hsf r hok _ (fun c hc => lines_get sf.length r hok _ c hc)]
    rfl

theorem lineAt_nul (k : Nat) (r : Record) (hr : r.Ok k) (j : Nat) : '\x00' ∉ (r.lineAt j).text := by
  unfold Record.lineAt
  simp only [List.mem_append, not_or]
  refine ⟨?_, ?_⟩
  · split
    · exact hr.id.2.1
    · exact blanks_nul 3
  · simp only [List.mem_flatten, List.mem_map, not_exists, not_and]
    rintro _ ⟨o, ho, rfl⟩
    exact o.text_nul (hr.obs o (List.mem_of_mem_drop (List.mem_of_mem_take ho)))

theorem fullBlock_records (k : Nat) (rs : List Record) (hr : ∀ r ∈ rs, r.Ok k) :
    FullBlock (rs.flatMap Record.lines) k rs.length := by
  constructor
  · intro i hi c hc
    rw [records_drop k rs hr i, List.drop_eq_getElem_cons hi, List.flatMap_cons]
    have hok := hr rs[i] (List.getElem_mem hi)
    have hlen := lineAt_length k rs[i] hok (c / 5)
    refine ⟨_, lines_get k rs[i] hok _ c hc, ?_, ?_, rfl⟩ <;> omega
  · intro l hl
    obtain ⟨r, hm, hl⟩ := List.mem_flatMap.1 hl
    obtain ⟨j, -, rfl⟩ := List.mem_map.1 hl
    exact lineAt_nul k r (hr r hm) j

/-- The line of an epoch is read as what it says. -/
theorem epoch_read {e : Ext} {rd rf : Rat → Rat} (hh : Honest e rd rf) (k : Nat) (b : Block) (hb : b.Ok e k) (st : List Char) :
    b.epochText.length = 59 ∧ '\x00' ∉ b.epochText ∧ resolveEpoch e (fill st b.epochText) = .ok (b.header rd) := by
  obtain ⟨⟨hdl, hd⟩, hfl, hof, hcf, hrc, -⟩ := hb
  have n1 := natText_one b.flag hfl
  have l1 := padL_length 3 _ (Nat.le_trans n1.le (by omega))
  have n2 := natText_length b.records.length 1 (by omega)
  have l2 := padL_length 3 _ (Nat.le_trans n2 (by omega))
  obtain ⟨p, hp⟩ : ∃ p, p = padL 13 (optText 9 b.offset) := ⟨_, rfl⟩
  have l3 : p.length = 13 := by
    rw [hp]
    cases ho : b.offset with
    | none => simp [padL, optText]
    | some z => exact padL_length 13 _ (hof z ho)
  have n3 : '\x00' ∉ p := by
    rw [hp]
    apply padL_nul
    cases b.offset with
    | none => simp [optText]
    | some z => exact fixText_nul 9 z
  have n4 := natText_one b.clockFlag hcf
  obtain ⟨ps, hps⟩ : ∃ ps, ps = [['>', ' '], b.date, padL 3 (natText b.flag), padL 3 (natText b.records.length), blanks 6, p, blanks 1,
    natText b.clockFlag, blanks 1] := ⟨_, rfl⟩
  have hT : b.epochText = ps.flatten := by rw [hps, hp]; rfl
  have hlen : b.epochText.length = 59 := by
    rw [hT, hps]
    simp [hdl, l1, l2, l3, n4, blanks_length]
  have hnul : '\x00' ∉ b.epochText := by
    rw [hT, List.mem_flatten]
    rintro ⟨q, hq, hm⟩
    rw [hps] at hq
    simp only [List.mem_cons, List.not_mem_nil, or_false] at hq
    rcases hq with rfl | rfl | rfl | rfl | rfl | rfl | rfl | rfl | rfl
    · revert hm; decide
    · exact hd.nul hm
    · exact padL_nul _ _ (natText_nul _) hm
    · exact padL_nul _ _ (natText_nul _) hm
    · exact blanks_nul _ hm
    · exact n3 hm
    · exact blanks_nul _ hm
    · exact natText_nul _ hm
    · exact blanks_nul _ hm
  refine ⟨hlen, hnul, ?_⟩
  have d0 := drop_flatten ps 0 0 (by simp)
  have d2 := drop_flatten ps 1 2 (by simp [hps])
  have d31 := drop_flatten ps 2 31 (by simp [hps, hdl])
  have d34 := drop_flatten ps 3 34 (by simp [hps, hdl, l1])
  have d43 := drop_flatten ps 5 43 (by simp [hps, hdl, l1, l2, blanks_length])
  have d56 := drop_flatten ps 6 56 (by simp [hps, hdl, l1, l2, l3, blanks_length])
  rw [← hT] at d0 d2 d31 d34 d43 d56
  simp only [hps, List.drop_zero, List.drop_succ_cons, List.flatten_cons, List.flatten_nil, List.append_nil, List.append_assoc]
    at d0 d2 d31 d34 d43 d56
  have i3 : ∀ k n r, b.epochText.drop k = padL 3 (natText n) ++ r → (padL 3 (natText n)).length = 3 → n < 100 → k + 3 ≤ 59 →
      int3 (fill st b.epochText) k = some (n : Int) := by
    intro k n r hk hl hn hle
    have : ((fill st b.epochText).drop k).take 3 = padL 3 (natText n) := by
      unfold fill
      rw [List.drop_append_of_le_length (by omega), hk, List.append_assoc, take_piece _ _ 3 hl]
    unfold int3
    rw [this, takeWhile_of_not_mem _ (padL_nul _ _ (natText_nul _))]
    have := strtol_nat 3 n [] (.inl rfl) (by omega)
    rw [List.append_nil] at this
    rw [this]
    rfl
  have hpt : e.strptime (cstr (fill st b.epochText) 2) = some b.epoch := by
    rw [cstr_text st _ 2 (by omega) hnul, d2]
    obtain ⟨m, hm⟩ : ∃ m, 3 - (natText b.flag).length = m + 1 := ⟨1, by omega⟩
    rw [padL, hm, List.replicate_succ]
    exact hd.reads _
  obtain ⟨r56, s56⟩ : ∃ r, strtol (cstr (fill st b.epochText) 56) = some ⟨(b.clockFlag : Int), r, false⟩ := by
    rw [cstr_text st _ 56 (by omega) hnul, d56, ← natText_int]
    exact ⟨_, strtol_int 1 b.clockFlag _ (.inr rfl) (by omega) (by omega)⟩
  have hoff : (if (List.range 13).any (fun i => at' (fill st b.epochText) (43 + i) != ' ') then
      e.strtod (cstr (fill st b.epochText) 43) else some missing) =
      some (match b.offset with | none => missing | some z => rd (z / 10 ^ 9)) := by
    have htake : (b.epochText.drop 43).take 13 = p := by rw [d43, take_piece _ _ 13 l3]
    cases ho : b.offset with
    | none =>
      have hb : p = List.replicate 13 ' ' := by rw [hp, ho]; simp [padL, optText]
      rw [(blank13 st _ (by omega)).2 (by rw [htake, hb]), if_neg (by simp)]
    | some z =>
      have hz : p = padL 13 (fixText 9 z) := by rw [hp, ho]; rfl
      have hne : ¬ p = List.replicate 13 ' ' := by
        intro hb
        have : '.' ∈ p := by rw [hz]; simp [padL, fixText]
        rw [hb] at this
        have := (List.mem_replicate.1 this).2
        revert this
        decide
      have hany : (List.range 13).any (fun i => at' (fill st b.epochText) (43 + i) != ' ') = true := by
        cases hx : (List.range 13).any (fun i => at' (fill st b.epochText) (43 + i) != ' ') with
        | true => rfl
        | false =>
          have := (blank13 st _ (by omega)).1 hx
          rw [htake] at this
          exact absurd this hne
      rw [hany, if_pos rfl, cstr_text st _ 43 (by omega) hnul, d43, hz]
      exact strtod_fix hh 13 9 z _ (.inr rfl)
  unfold resolveEpoch
  rw [if_neg (by rw [at'_text st _ 0 '>' _ (by rw [List.drop_zero, d0]; rfl)]; simp), hpt, i3 31 b.flag _ d31 l1 (by omega) (by omega),
    i3 34 b.records.length _ d34 l2 hrc (by omega), hoff, s56]
  have h8 : ∀ n : Nat, n < 10 → toInt8 (n : Int) = n := by
    intro n hn
    unfold toInt8
    rw [Int.bmod_eq_of_le (by omega) (by omega)]
  simp only [Bool.false_eq_true, if_false, h8 _ hfl, h8 _ hcf]
  rfl

/-- A written block. -/
def Block.wf (b : Block) : WFBlock := ⟨⟨b.epochText, true⟩, b.records.flatMap Record.lines⟩

theorem block_gives {e : Ext} {rd rf : Rat → Rat} (hh : Honest e rd rf) (sf : List Int) (hsf : sf ≠ []) (b : Block)
    (hb : b.Ok e sf.length) : b.wf.Gives e sf (b.header rd) (b.records.map (Record.meaning rd sf)) := by
  obtain ⟨h1, h2, h3⟩ := epoch_read hh sf.length b hb []
  have hn : (b.header rd).numStations.toNat = b.records.length := rfl
  have hr := hb.records.2
  refine ⟨⟨by simp [Block.wf, h1], by simp [Block.wf, h1], rfl, h2⟩, ?_, ?_, h3, ?_⟩
  · rw [hn]; exact records_length sf.length b.records hr
  · rw [hn]; exact fullBlock_records sf.length b.records hr
  · rw [hn]
    obtain ⟨b', hb'⟩ := (readBlock_spec e sf hsf b.records.length (b.records.flatMap Record.lines) []
      (fullBlock_records sf.length b.records hr).1).1 _ (specBlock_records hh sf hsf b.records hr)
    exact ⟨_, b', hb'⟩

/-- **C147** The blocks of a written file are read as what was written: each once, in order, every value of every beacon, then end of
file. -/
theorem data_roundtrip {e : Ext} {rd rf : Rat → Rat} (hh : Honest e rd rf) (sf : List Int) (hsf : sf ≠ []) (blocks : List Block)
    (hb : ∀ b ∈ blocks, b.Ok e sf.length) (stack buf : Buf) (fuel : Nat) (hf : blocks.length < fuel) :
    iterate e sf stack fuel (Stream.open (blocks.flatMap Block.lines)) buf =
      (blocks.map fun b => (b.header rd, b.records.map (Record.meaning rd sf)), some (-1)) := by
  have := iterate_visits_all e sf hsf stack
    (blocks.map fun b => (b.wf, b.header rd, b.records.map (Record.meaning rd sf))) buf fuel (by
      intro w hw
      obtain ⟨b, hm, rfl⟩ := List.mem_map.1 hw
      exact block_gives hh sf hsf b (hb b hm)) (by simpa using hf)
  rw [List.flatMap_map, List.map_map] at this
  exact this

/-- **C147** A written file is read as what was written. -/
theorem file_roundtrip {e : Ext} {rd rf : Rat → Rat} (hh : Honest e rd rf) (version : Int) (pgm : List Char) (items : List Item)
    (blocks : List Block) (hv : (fixText 2 version).length ≤ 9) (hp : pgm.length ≤ 60)
    (hi : ItemsOk e rd rf { version := rf (version / 10 ^ 2) } items) (hc : Complete (headerOf rd rf version items))
    (hsome : (headerOf rd rf version items).codes ≠ [])
    (hb : ∀ b ∈ blocks, b.Ok e (headerOf rd rf version items).codes.length) (b0 stack buf : Buf) (fuel : Nat)
    (hf : blocks.length < fuel) :
    ∃ s, readHeader e b0 (Stream.open (headerLines version pgm items ++ blocks.flatMap Block.lines)) =
        .ok (headerOf rd rf version items, s) ∧
      iterate e (headerOf rd rf version items).scale stack fuel s buf =
        (blocks.map fun b => (b.header rd, b.records.map (Record.meaning rd (headerOf rd rf version items).scale)), some (-1)) := by
  refine ⟨_, header_roundtrip hh version pgm items _ hv hp hi hc b0, data_roundtrip hh _ ?_ blocks ?_ stack buf fuel hf⟩
  · intro h0
    have := hc.scale
    rw [h0] at this
    exact hsome (List.length_eq_zero_iff.1 this.symm)
  · rw [hc.scale]; exact hb

/-! ### What is refused -/

/-- A header in which every station is a time reference is refused, though its counts agree with its lines. -/
theorem all_references_counterexample {e : Ext} {rd rf : Rat → Rat} (hh : Honest e rd rf) (version : Int) (pgm : List Char)
    (items : List Item) (rest : List Line) (hv : (fixText 2 version).length ≤ 9) (hp : pgm.length ≤ 60)
    (hi : ItemsOk e rd rf { version := rf (version / 10 ^ 2) } items)
    (hr : (headerOf rd rf version items).refs.length = (headerOf rd rf version items).stations.length) (b0 : Buf) :
    readHeader e b0 (Stream.open (headerLines version pgm items ++ rest)) = .error (.status (-3)) :=
  header_refused hh version pgm items rest hv hp hi (fun hc => by have := hc.refs; omega) b0

/-- A header with codes and no line of scale factors is refused: no factor does not mean factor 1. -/
theorem no_scale_counterexample {e : Ext} {rd rf : Rat → Rat} (hh : Honest e rd rf) (version : Int) (pgm : List Char)
    (items : List Item) (rest : List Line) (hv : (fixText 2 version).length ≤ 9) (hp : pgm.length ≤ 60)
    (hi : ItemsOk e rd rf { version := rf (version / 10 ^ 2) } items) (hn : ∀ f cs, Item.scale f cs ∉ items)
    (hs : (headerOf rd rf version items).codes ≠ []) (b0 : Buf) :
    readHeader e b0 (Stream.open (headerLines version pgm items ++ rest)) = .error (.status (-3)) := by
  have key : ∀ (items : List Item) (h : Hdr), (∀ f cs, Item.scale f cs ∉ items) →
      (items.foldl (Item.apply rd rf) h).scale = h.scale := by
    intro items
    induction items with
    | nil => intro h _; rfl
    | cons i items ih =>
      intro h hn
      rw [List.foldl_cons, ih _ fun f cs hm => hn f cs (by simp [hm])]
      cases i with
      | scale f cs => exact absurd (List.mem_cons_self ..) (hn f cs)
      | _ => rfl
  refine header_refused hh version pgm items rest hv hp hi (fun hc => ?_) b0
  have h1 := hc.scale
  have h2 : (headerOf rd rf version items).scale = [] := key items _ hn
  rw [h2] at h1
  exact hs (List.length_eq_zero_iff.1 h1.symm)

/-- A line on applied code biases. -/
def dcbsLine (t : List Char) : Line := ⟨textOf [t] "SYS / DCBS APPLIED  ", true⟩

/-- A line SYS / DCBS APPLIED, which the format knows, ends the reading with status 130, whatever it says and whatever follows. -/
theorem dcbs_counterexample {e : Ext} {rd rf : Rat → Rat} (hh : Honest e rd rf) (t : List Char) (ht : t.length ≤ 60) (rest : List Line)
    (items : List Item) : ∀ (h : Hdr) (b : Buf) (fuel : Nat), ItemsOk e rd rf h items → items.length < fuel →
      headerLoop e fuel (Stream.open (items.map Item.line ++ dcbsLine t :: rest)) b h = .error (.status 130) := by
  have hl : (dcbsLine t).text.length = 80 := textOf_length _ _ (by simpa using ht) (by decide)
  induction items with
  | nil =>
    intro h b fuel _ hf
    obtain ⟨fuel, rfl⟩ : ∃ m, fuel = m + 1 := ⟨fuel - 1, by simp at hf; omega⟩
    rw [List.map_nil, List.nil_append, headerLoop, getline_open (dcbsLine t) rest b (by omega) rfl]
    have hd := (dispatch_line b (dcbsLine t).text (by omega) .dcbs).2 (by
      rw [show (dcbsLine t).text.drop 60 = _ from textOf_label [t] "SYS / DCBS APPLIED  " (by simpa using ht)]
      exact List.isPrefixOf_iff_prefix.1 (by decide +kernel))
    simp only [Stream.open, Bool.false_eq_true, if_false, hd]
    rfl
  | cons i items ih =>
    intro h b fuel hi hf
    obtain ⟨fuel, rfl⟩ : ∃ m, fuel = m + 1 := ⟨fuel - 1, by simp at hf; omega⟩
    obtain ⟨ho, hi⟩ := hi
    have hlen := i.line_length e h ho
    have hlab : i.line.text.drop 60 = i.label.toList := textOf_label _ _ (i.width e h ho)
    have hrec := ih (i.apply rd rf h) (fill b i.line.text) fuel hi (by simpa using hf)
    rw [List.map_cons, List.cons_append, headerLoop, getline_open i.line _ b (by omega) rfl]
    simp only [Stream.open, Bool.false_eq_true, if_false] at hrec ⊢
    cases hl : i.lab with
    | none =>
      have hd : dispatch Label.order (fill b i.line.text) = none := by
        cases hx : dispatch Label.order (fill b i.line.text) with
        | none => rfl
        | some l =>
          have := (dispatch_line b i.line.text (by omega) l).1 hx
          rw [hlab, i.label_lab l, hl] at this
          simp at this
      have ha : i.apply rd rf h = h := by cases i <;> simp [Item.lab] at hl; rfl
      rw [hd, ← hrec, ha]
    | some l =>
      have hd : dispatch Label.order (fill b i.line.text) = some l := by
        rw [dispatch_line b i.line.text (by omega) l, hlab, i.label_lab l, hl]
      have hne : l ≠ .endOfHeader := by rintro rfl; cases i <;> simp [Item.lab] at hl
      have hr := i.read hh h ho l hl b
      rw [hd, ← hrec]
      cases l <;> first | exact absurd rfl hne | simp only [hr]

/-- A satellite name of 59 or 60 characters, which fits its columns, is refused with status 30. -/
theorem long_name_counterexample (e : Ext) (h : Hdr) (t : List Char) (h1 : Text 60 t) (h2 : 59 ≤ t.length) (st : List Char) :
    onLabel e (fill st (Item.satName t).line.text) h .satelliteName = .error (.status 30) := by
  have hm := h1.most
  have d0 := (Item.satName t).drop_field 0 0 (by simp) (by simp)
  simp only [Item.fields, List.drop_zero, List.flatten_cons, List.flatten_nil, List.append_nil] at d0
  have hlen : (Item.satName t).line.text.length = 80 :=
    textOf_length _ _ (by simpa [Item.fields] using hm) (Item.satName t).label_length
  have hg : ∀ (i : Nat) (hi : i < t.length), at' (fill st (Item.satName t).line.text) (0 + i) = t[i] := by
    intro i hi
    rw [Nat.zero_add, at'_line st _ i (by omega)]
    simp only [d0]
    rw [List.getElem_append_left hi]
  have hb : ∀ i, t.length ≤ i → i ≤ 59 → at' (fill st (Item.satName t).line.text) (0 + i) = ' ' := by
    intro i hi1 hi2
    rw [Nat.zero_add, at'_line st _ i (by omega)]
    simp only [d0]
    rw [List.getElem_append_right hi1, List.getElem_append_left (by rw [blanks_length]; omega)]
    simp [blanks]
  have hc := countLengthReverse_text _ 0 t h1.some h1.last hg 59 (by omega) hb
  simp only [onLabel, textField, hc]
  rw [if_pos (by omega)]

/-! ### An example -/

/-- A reader of decimal numbers. -/
def exactNumber (s : List Char) : Option Rat :=
  let s1 := s.dropWhile (· == ' ')
  let neg := s1.head? == some '-'
  let s2 := if s1.head? == some '-' || s1.head? == some '+' then s1.tail else s1
  let ds := s2.takeWhile isDigit
  let s3 := s2.dropWhile isDigit
  if s3.head? == some '.' then
    let fs := s3.tail.takeWhile isDigit
    some ((if neg then -1 else 1) * ((decimal ds : Rat) + (decimal fs : Rat) / 10 ^ fs.length))
  else none

/-- External functions: exact numbers, and the year for the date. -/
def exactExt : Ext := ⟨exactNumber, exactNumber, fun s => some (decimal (s.take 4))⟩

theorem isDigit_code (c : Char) : isDigit c = true ↔ DigitCode c.toNat := by
  unfold isDigit DigitCode
  simp only [Bool.and_eq_true, decide_eq_true_eq]
  exact Iff.rfl

theorem exactNumber_decimal (s : List Char) (v : Rat) (h : Decimal s v) : exactNumber s = some v := by
  obtain ⟨b, sg, sign, ds, fs, rest, rfl, hb, hs, hne, hds, hfs, hrest, rfl⟩ := h
  obtain ⟨d, ds, rfl⟩ := List.exists_cons_of_ne_nil hne
  have hdig : ∀ c, DigitCode c.toNat → c ≠ ' ' ∧ c ≠ '-' ∧ c ≠ '+' ∧ c ≠ '.' := by
    intro c hc
    refine ⟨?_, ?_, ?_, ?_⟩ <;> rintro rfl <;> revert hc <;> unfold DigitCode <;> decide
  obtain ⟨q1, q2, q3, -⟩ := hdig d (hds d (by simp))
  have hblank : ∀ r : List Char, (b ++ r).dropWhile (· == ' ') = r.dropWhile (· == ' ') := by
    intro r
    clear hne
    induction b with
    | nil => rfl
    | cons c b ih =>
      have := hb c (by simp)
      subst this
      rw [List.cons_append, List.dropWhile_cons_of_pos (by rfl)]
      exact ih fun c hc => hb c (by simp [hc])
  have htake : ∀ (l r : List Char), (∀ c ∈ l, DigitCode c.toNat) → (∀ c, r.head? = some c → isDigit c = false) →
      (l ++ r).takeWhile isDigit = l ∧ (l ++ r).dropWhile isDigit = r := by
    intro l r hl hr
    induction l with
    | nil =>
      cases r with
      | nil => exact ⟨rfl, rfl⟩
      | cons c r => simp [hr c rfl]
    | cons c l ih =>
      have := (isDigit_code c).2 (hl c (by simp))
      obtain ⟨i1, i2⟩ := ih fun c hc => hl c (by simp [hc])
      simp [this, i1, i2]
  obtain ⟨t1, t2⟩ := htake (d :: ds) ('.' :: (fs ++ rest)) hds (by intro c hc; simp at hc; subst hc; rfl)
  obtain ⟨t3, -⟩ := htake fs rest hfs (by
    intro c hc
    rcases hrest with rfl | hr
    · simp at hc
    · rw [hr] at hc
      cases hc
      rfl)
  unfold exactNumber
  rw [hblank]
  cases hs with
  | none =>
    have e1 : ([] ++ (d :: ds ++ '.' :: (fs ++ rest))).dropWhile (· == ' ') = d :: ds ++ '.' :: (fs ++ rest) := by simp [q1]
    have e2 : ((d :: ds ++ '.' :: (fs ++ rest)).head? == some '-') = false := by simp [q2]
    have e3 : ((d :: ds ++ '.' :: (fs ++ rest)).head? == some '+') = false := by simp [q3]
    simp only [e1, e2, e3, Bool.or_false, Bool.false_eq_true, if_false, t1, t2]
    simp [t3]
  | plus =>
    have e1 : (['+'] ++ (d :: ds ++ '.' :: (fs ++ rest))).dropWhile (· == ' ') = '+' :: (d :: ds ++ '.' :: (fs ++ rest)) := by simp
    have e2 : (('+' :: (d :: ds ++ '.' :: (fs ++ rest))).head? == some '-') = false := by simp
    have e3 : (('+' :: (d :: ds ++ '.' :: (fs ++ rest))).head? == some '+') = true := by simp
    simp only [e1, e2, e3, Bool.or_true, Bool.false_eq_true, if_false, if_true, List.tail_cons, t1, t2]
    simp [t3]
  | minus =>
    have e1 : (['-'] ++ (d :: ds ++ '.' :: (fs ++ rest))).dropWhile (· == ' ') = '-' :: (d :: ds ++ '.' :: (fs ++ rest)) := by simp
    have e2 : (('-' :: (d :: ds ++ '.' :: (fs ++ rest))).head? == some '-') = true := by simp
    simp only [e1, e2, Bool.true_or, if_true, List.tail_cons, t1, t2]
    simp [t3]

/-- The hypothesis on the C library can be met. -/
theorem exact_honest : Honest exactExt id id := ⟨exactNumber_decimal, exactNumber_decimal⟩

/-- Lines of a header. -/
def sampleItems : List Item :=
  [.satName "JASON-3".toList, .comment "two stations".toList, .approx (-15) 42 70000,
   .codes [⟨.phase, 1⟩, ⟨.pseudorange, 2⟩, ⟨.groundTemperature, 0⟩, ⟨.phase, 2⟩, ⟨.pseudorange, 1⟩, ⟨.frequencyOffset, 0⟩],
   .scale 100 [⟨.pseudorange, 2⟩, ⟨.frequencyOffset, 0⟩], .numStations 2,
   .station ⟨"D01".toList, "PAUB".toList, "PAPEETE".toList, "92201S010".toList, 3, 0⟩,
   .station ⟨"D02".toList, "KRWB".toList, "KOUROU".toList, "97301S006".toList, 3, -3⟩,
   .numRefs 1, .ref "D02".toList (-1500) 27, .clock false]

/-- A block of two beacons. -/
def sampleBlocks : List Block :=
  [⟨"2020 01 01 01 41 53.279947800".toList, 2020, 0, some (-4432841287), 0,
    [⟨"D01".toList, [⟨some 12345, ' ', '7'⟩, ⟨none, ' ', ' '⟩, ⟨some (-1), '1', '1'⟩, ⟨some 0, ' ', ' '⟩, ⟨some 5, ' ', ' '⟩,
      ⟨some 99000, ' ', ' '⟩]⟩,
     ⟨"D02".toList, [⟨none, ' ', ' '⟩, ⟨some 7, ' ', ' '⟩, ⟨some 8, ' ', ' '⟩, ⟨some 9, ' ', ' '⟩, ⟨some 5, ' ', ' '⟩,
      ⟨none, ' ', ' '⟩]⟩]⟩]

theorem sampleItems_ok : ItemsOk exactExt id id { version := id (300 / 10 ^ 2) } sampleItems := by
  refine ⟨⟨by decide, by decide, by decide, by decide⟩, ⟨by decide, by decide⟩, ⟨by decide, by decide, by decide⟩,
    ⟨by decide, by decide, ?_, rfl⟩, ⟨by decide, by decide, by decide, by decide, by decide, by decide, ?_, rfl⟩, ⟨by decide, by decide⟩,
    ⟨by decide, by decide, ⟨by decide, by decide, by decide, by decide⟩, ⟨by decide, by decide, by decide, by decide⟩, by decide, by decide⟩,
    ⟨by decide, by decide, ⟨by decide, by decide, by decide, by decide⟩, ⟨by decide, by decide, by decide, by decide⟩, by decide, by decide⟩,
    ⟨by decide, by decide⟩, ⟨by decide, by decide, by decide, by decide, _, List.mem_cons_of_mem _ (List.mem_singleton.2 rfl), rfl⟩,
    trivial, trivial⟩
  · unfold CodeOk; decide
  · unfold CodeOk; decide

theorem sampleBlocks_ok : ∀ b ∈ sampleBlocks, b.Ok exactExt 6 := by
  intro b hb
  have : b = sampleBlocks[0] := by simpa [sampleBlocks] using hb
  subst this
  refine ⟨⟨by decide, by decide, by decide, fun r => rfl⟩, by decide, ?_, by decide, by decide, ?_⟩
  · intro z hz
    simp [sampleBlocks] at hz
    subst hz
    decide
  · intro r hr
    have hr' : r = sampleBlocks[0].records[0] ∨ r = sampleBlocks[0].records[1] := by simpa [sampleBlocks] using hr
    rcases hr' with rfl | rfl
    all_goals
      refine ⟨⟨by decide, by decide, by decide⟩, by decide, ?_⟩
      intro o ho
      simp [sampleBlocks] at ho
      rcases ho with rfl | rfl | rfl | rfl | rfl | rfl
      all_goals
        refine ⟨?_, by decide, by decide⟩
        intro z hz
        simp at hz
        try (subst hz; decide)

example : ∃ s, readHeader exactExt [] (Stream.open (headerLines 300 "Expert".toList sampleItems ++ sampleBlocks.flatMap Block.lines)) =
    .ok (headerOf id id 300 sampleItems, s) ∧
    iterate exactExt (headerOf id id 300 sampleItems).scale [] 2 s [] =
      (sampleBlocks.map fun b => (b.header id, b.records.map (Record.meaning id (headerOf id id 300 sampleItems).scale)), some (-1)) :=
  file_roundtrip exact_honest 300 "Expert".toList sampleItems sampleBlocks (by decide) (by decide) sampleItems_ok
    ⟨rfl, rfl, rfl, by decide⟩ (by simp [headerOf, sampleItems, Item.apply]) sampleBlocks_ok [] [] [] 2 (by decide)

example : (headerOf id id 300 sampleItems).scale = [1, 100, 1, 1, 1, 100] := by decide +kernel

example : (sampleBlocks.map fun b => b.records.map fun r => (r.meaning id [1, 100, 1, 1, 1, 100]).values.map (·.value)) =
    [[[12345 / 1000, missing / 100, -1 / 1000, missing, 5 / 1000, 99 / 100],
      [missing, 7 / 100000, 8 / 1000, 9 / 1000, 5 / 1000, missing / 100]]] := by
  decide +kernel

/-- One station that is its own time reference. -/
def oneStation : List Item :=
  [.codes [⟨.phase, 1⟩], .scale 1 [⟨.phase, 1⟩], .numStations 1,
   .station ⟨"D01".toList, "PAUB".toList, "PAPEETE".toList, "92201S010".toList, 3, 0⟩, .numRefs 1, .ref "D01".toList 0 0]

theorem oneStation_ok : ItemsOk exactExt id id { version := id (300 / 10 ^ 2) } oneStation := by
  refine ⟨⟨by decide, by decide, ?_, rfl⟩, ⟨by decide, by decide, by decide, by decide, by decide, by decide, ?_, rfl⟩, ⟨by decide, by decide⟩,
    ⟨by decide, by decide, ⟨by decide, by decide, by decide, by decide⟩, ⟨by decide, by decide, by decide, by decide⟩, by decide, by decide⟩,
    ⟨by decide, by decide⟩, ⟨by decide, by decide, by decide, by decide, _, List.mem_singleton.2 rfl, rfl⟩, trivial⟩
  · unfold CodeOk; decide
  · unfold CodeOk; decide

example : readHeader exactExt [] (Stream.open (headerLines 300 [] oneStation ++ [])) = .error (.status (-3)) :=
  all_references_counterexample exact_honest 300 [] oneStation [] (by decide) (by decide) oneStation_ok rfl []

example : headerLoop exactExt 7 (Stream.open (oneStation.map Item.line ++ dcbsLine "D".toList :: [])) [] { version := id (300 / 10 ^ 2) } =
    .error (.status 130) :=
  dcbs_counterexample exact_honest "D".toList (by decide) [] oneStation _ [] 7 oneStation_ok (by decide)

example : readHeader exactExt [] (Stream.open (headerLines 300 [] [.codes [⟨.phase, 1⟩]] ++ [])) = .error (.status (-3)) :=
  no_scale_counterexample exact_honest 300 [] [.codes [⟨.phase, 1⟩]] [] (by decide) (by decide) ⟨⟨by decide, by decide, by unfold CodeOk; decide, rfl⟩, trivial⟩
    (by intro f cs h; simp at h) (by simp [headerOf, Item.apply]) []

example : onLabel exactExt (fill [] (Item.satName (List.replicate 60 'A')).line.text) {} .satelliteName = .error (.status 30) :=
  long_name_counterexample exactExt {} _ ⟨by decide, by decide, by decide, by decide⟩ (by decide) []

end Verif.Rinex.Write
