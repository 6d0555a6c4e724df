import Verif.RfoFit.TextModel
import Verif.RfoFit.AllProps
import Verif.Rinex.WriteProps

/-! C155: from the text of the observation files to the fitted frequency offsets. -/
namespace Verif.RfoFit
open Verif.Rinex Verif.SystemInfo Verif.Rinex.Write

/-! ### Specification: written files -/

/-- A written observation file. -/
structure Written where
  version : Int
  pgm : List Char
  items : List Item
  blocks : List Rinex.Write.Block

/-- The text. -/
def Written.lines (w : Written) : List Line := headerLines w.version w.pgm w.items ++ w.blocks.flatMap Block.lines

/-- The code of the relative frequency offset. -/
def fCode : ObsCode := ⟨.frequencyOffset, 0⟩

/-- What the header says. -/
def Written.header (rd rf : Rat → Rat) (w : Written) : Hdr := headerOf rd rf w.version w.items

/-- The frequency offset that a block states: the entry below the code `F` in the line of the first beacon, with its scale; for a
blank or zero entry what the reader takes instead, the marker for a missing value (`Obs.meaning`). -/
def Written.value (rd rf : Rat → Rat) (w : Written) (b : Rinex.Write.Block) : Rat :=
  match b.records with
  | [] => 0
  | r :: _ =>
    match r.obs[(w.header rd rf).codes.idxOf fCode]?, (w.header rd rf).scale[(w.header rd rf).codes.idxOf fCode]? with
    | some o, some f => (o.meaning rd f).value
    | _, _ => 0

/-- Epoch, proper time and offset of a block. -/
noncomputable def Written.datum (rd rf : Rat → Rat) (w : Written) (b : Rinex.Write.Block) : Block ℝ :=
  ⟨l1Epoch (w.header rd rf).rcvApplied (b.header rd), b.epoch, some (w.value rd rf b : ℝ)⟩

/-- The file with its values and dates in range, `k` windows. -/
noncomputable def Written.full (rd rf : Rat → Rat) (c : Cfg ℝ) (t0 tend : Int) (w : Written) : Full :=
  let l := inRange c (w.blocks.map (w.datum rd rf))
  ⟨⟨w.blocks.map (w.datum rd rf), -1, (w.header rd rf).refDate, t0, tend⟩,
    fun i => ((l[i]?).bind fun b => b.f).getD 0, fun i => ((l[i]?).map (date c)).getD 0, l.length / c.every⟩

/-- The file is well formed, has offsets, and its epochs in range fill at least one window and no window in part. -/
structure Written.Ok (e : Ext) (rd rf : Rat → Rat) (c : Cfg ℝ) (w : Written) : Prop where
  version : (fixText 2 w.version).length ≤ 9
  pgm : w.pgm.length ≤ 60
  items : ItemsOk e rd rf { version := rf (w.version / 10 ^ 2) } w.items
  complete : Complete (w.header rd rf)
  code : fCode ∈ (w.header rd rf).codes
  blocks : ∀ b ∈ w.blocks, b.Ok e (w.header rd rf).codes.length
  beacons : ∀ b ∈ w.blocks, b.records ≠ []
  some : inRange c (w.blocks.map (w.datum rd rf)) ≠ []
  windows : c.every ∣ (inRange c (w.blocks.map (w.datum rd rf))).length

/-! ### Reading -/

theorem codeIndex_idxOf (codes : List ObsCode) (h : fCode ∈ codes) : codeIndex codes fCode = (codes.idxOf fCode : Nat) := by
  have hiff : ∀ o : ObsCode, o.eq fCode = (o == fCode) := by
    intro o
    cases o
    simp only [ObsCode.eq, fCode]
    rw [Bool.eq_iff_iff]
    simp
  unfold codeIndex
  simp only [hiff]
  rw [if_pos (by simpa using h)]
  rfl

theorem blockOf_written {e : Ext} (rd rf : Rat → Rat) (w : Written) (hc : Complete (w.header rd rf))
    (hf : fCode ∈ (w.header rd rf).codes) (b : Rinex.Write.Block) (hb : b.Ok e (w.header rd rf).codes.length) (hr : b.records ≠ []) :
    blockOf (w.header rd rf).rcvApplied (codeIndex (w.header rd rf).codes fCode)
      (b.header rd, b.records.map (Record.meaning rd (w.header rd rf).scale)) = w.datum rd rf b := by
  rw [codeIndex_idxOf _ hf]
  have hi : (w.header rd rf).codes.idxOf fCode < (w.header rd rf).codes.length := List.idxOf_lt_length_of_mem hf
  have hsl := hc.scale
  have hrec := hb.records.2
  unfold blockOf Written.datum Written.value
  generalize (w.header rd rf).codes.idxOf fCode = i at hi ⊢
  cases hrs : b.records with
  | nil => exact absurd hrs hr
  | cons r rs =>
    have hcount := (hrec r (by rw [hrs]; simp)).count
    simp only [List.map_cons, Int.toNat_natCast]
    rw [if_neg (by omega)]
    have ho : r.obs[i]? = some r.obs[i] := List.getElem?_eq_getElem (by omega)
    have hs : (w.header rd rf).scale[i]? = some (w.header rd rf).scale[i] := List.getElem?_eq_getElem (by omega)
    have hz : (Record.meaning rd (w.header rd rf).scale r).values[i]? =
        some (r.obs[i].meaning rd (w.header rd rf).scale[i]) := by
      unfold Record.meaning
      simp only [List.getElem?_zipWith, ho, hs]
    rw [hz, ho, hs]
    rfl

/-- A written file is met by the fit as the data it states. -/
theorem textFile_written {e : Ext} {rd rf : Rat → Rat} (hh : Honest e rd rf) (c : Cfg ℝ) (w : Written) (hw : w.Ok e rd rf c)
    (b0 stack buf : Buf) (t0 tend : Int) : textFile e b0 stack buf t0 tend w.lines = some (w.full rd rf c t0 tend).file := by
  have hlen : w.blocks.length < w.lines.length + 1 := by
    have key : ∀ bs : List Rinex.Write.Block, bs.length ≤ (bs.flatMap Block.lines).length := by
      intro bs
      induction bs with
      | nil => simp
      | cons b bs ih =>
        have hpos : 1 ≤ b.lines.length := by simp [Block.lines]
        rw [List.flatMap_cons, List.length_append, List.length_cons]
        omega
    have := key w.blocks
    unfold Written.lines
    rw [List.length_append]
    omega
  obtain ⟨s, h1, h2⟩ := file_roundtrip hh w.version w.pgm w.items w.blocks hw.version hw.pgm hw.items hw.complete
    (List.ne_nil_of_mem hw.code) hw.blocks b0 stack buf (w.lines.length + 1) hlen
  unfold textFile
  rw [show Stream.open w.lines = Stream.open (headerLines w.version w.pgm w.items ++ w.blocks.flatMap Block.lines) from rfl, h1]
  simp only
  rw [h2]
  simp only [List.map_map]
  have hm : w.blocks.map (blockOf (headerOf rd rf w.version w.items).rcvApplied
      (codeIndex (headerOf rd rf w.version w.items).codes ⟨.frequencyOffset, 0⟩) ∘
      fun b => (b.header rd, b.records.map (Record.meaning rd (headerOf rd rf w.version w.items).scale))) =
      w.blocks.map (w.datum rd rf) := by
    refine List.map_congr_left fun b hb => ?_
    exact blockOf_written rd rf w hw.complete hw.code b (hw.blocks b hb) (hw.beacons b hb)
  rw [hm]
  rfl

theorem full_ok {e : Ext} {rd rf : Rat → Rat} (c : Cfg ℝ) (w : Written) (hw : w.Ok e rd rf c) (hE : 2 ≤ c.every) (t0 tend : Int) :
    (w.full rd rf c t0 tend).Ok c := by
  have hpos := List.length_pos_of_ne_nil hw.some
  refine ⟨by simp [Written.full], ?_, ?_, ?_⟩
  · intro i hi
    simp only [Written.full] at hi ⊢
    rw [List.getElem?_eq_getElem hi]
    have hmem := List.getElem_mem hi
    generalize (inRange c (w.blocks.map (w.datum rd rf)))[i] = b at hmem
    have hb : b ∈ w.blocks.map (w.datum rd rf) := by
      unfold inRange at hmem
      exact List.takeWhile_prefix _ |>.subset (List.mem_of_mem_filter hmem)
    obtain ⟨b', -, rfl⟩ := List.mem_map.1 hb
    exact ⟨rfl, rfl⟩
  · simp only [Written.full]
    exact Nat.div_pos (Nat.le_of_dvd hpos hw.windows) (by omega)
  · simp only [Written.full]
    exact (Nat.div_mul_cancel hw.windows).symm

theorem mapM_written {e : Ext} {rd rf : Rat → Rat} (hh : Honest e rd rf) (c : Cfg ℝ) (b0 stack buf : Buf) (t0 tend : Int)
    (ws : List Written) (hw : ∀ w ∈ ws, w.Ok e rd rf c) :
    (ws.map Written.lines).mapM (textFile e b0 stack buf t0 tend) = some ((ws.map (Written.full rd rf c t0 tend)).map Full.file) := by
  induction ws with
  | nil => rfl
  | cons w ws ih =>
    rw [List.map_cons, List.mapM_cons, textFile_written hh c w (hw w (by simp)), ih fun x hx => hw x (by simp [hx])]
    rfl

/-- **C155** From text to fit.  Missing: files whose last window is incomplete or that have no epoch in range, for which the claim
is false (C108), and epochs without an offset (`blank_mean_counterexample`).  If the files are well formed, state frequency offsets, and their epochs in range come in complete
windows, the program returns the polynomial of least squares through the means of the offsets written in the files, whatever the
buffers hold at the start. -/
theorem text_least_squares_partial {e : Ext} {rd rf : Rat → Rat} (hh : Honest e rd rf)
    (ldlt : (m : Nat) → Matrix (Fin m) (Fin m) ℝ → (Fin m → ℝ) → Fin m → ℝ) (hl : Solves ldlt) (c : Cfg ℝ) (hE : 2 ≤ c.every)
    (ho : 1 ≤ c.order) (tmin tmax t0 tend : Int) (b0 stack buf : Buf) (w : Written) (ws : List Written)
    (hw : ∀ x ∈ w :: ws, x.Ok e rd rf c) (href : (w.header rd rf).refDate ≠ tmin)
    (hcap : ((allPoints c (w.header rd rf).refDate ((w :: ws).map (Written.full rd rf c t0 tend))).length : Int) ≤
      numPts c.every (numDays tmin tmax c.start c.stop (ws.length + 1)))
    (s : Fin (c.order + 1) → ℝ) (hs : Function.Injective s)
    (hmem : ∀ i, ∃ p ∈ allPoints c (w.header rd rf).refDate ((w :: ws).map (Written.full rd rf c t0 tend)), p.t = s i) :
    ∃ cf, fitTexts ldlt e b0 stack buf t0 tend c tmin tmax ((w :: ws).map Written.lines) = some (.ok (w.header rd rf).refDate cf) ∧
      ∀ cf', cf' ≠ cf → sumSq (allPoints c (w.header rd rf).refDate ((w :: ws).map (Written.full rd rf c t0 tend))) cf <
        sumSq (allPoints c (w.header rd rf).refDate ((w :: ws).map (Written.full rd rf c t0 tend))) cf' := by
  obtain ⟨cf, h1, h2⟩ := fit_least_squares_partial ldlt hl c hE ho tmin tmax (w.full rd rf c t0 tend)
    (ws.map (Written.full rd rf c t0 tend)) (by
      intro y hy
      obtain ⟨x, hx, rfl⟩ := List.mem_map.1 (show y ∈ (w :: ws).map (Written.full rd rf c t0 tend) from hy)
      exact full_ok c x (hw x hx) hE t0 tend) href (by rw [List.length_map]; exact hcap) s hs hmem
  refine ⟨cf, ?_, h2⟩
  unfold fitTexts
  rw [mapM_written hh c b0 stack buf t0 tend (w :: ws) hw]
  exact congrArg some h1

/-- **C155** Offsets written on a polynomial give that polynomial. -/
theorem text_exact_partial {e : Ext} {rd rf : Rat → Rat} (hh : Honest e rd rf)
    (ldlt : (m : Nat) → Matrix (Fin m) (Fin m) ℝ → (Fin m → ℝ) → Fin m → ℝ) (hl : Solves ldlt) (c : Cfg ℝ) (hE : 2 ≤ c.every)
    (ho : 1 ≤ c.order) (tmin tmax t0 tend : Int) (b0 stack buf : Buf) (w : Written) (ws : List Written)
    (hw : ∀ x ∈ w :: ws, x.Ok e rd rf c) (href : (w.header rd rf).refDate ≠ tmin)
    (hcap : ((allPoints c (w.header rd rf).refDate ((w :: ws).map (Written.full rd rf c t0 tend))).length : Int) ≤
      numPts c.every (numDays tmin tmax c.start c.stop (ws.length + 1)))
    (s : Fin (c.order + 1) → ℝ) (hs : Function.Injective s)
    (hmem : ∀ i, ∃ p ∈ allPoints c (w.header rd rf).refDate ((w :: ws).map (Written.full rd rf c t0 tend)), p.t = s i)
    (a : Fin (c.order + 1) → ℝ)
    (ha : ∀ p ∈ allPoints c (w.header rd rf).refDate ((w :: ws).map (Written.full rd rf c t0 tend)), p.y = polyAt a p.t) :
    fitTexts ldlt e b0 stack buf t0 tend c tmin tmax ((w :: ws).map Written.lines) = some (.ok (w.header rd rf).refDate a) := by
  have h1 := fit_exact_partial ldlt hl c hE ho tmin tmax (w.full rd rf c t0 tend)
    (ws.map (Written.full rd rf c t0 tend)) (by
      intro y hy
      obtain ⟨x, hx, rfl⟩ := List.mem_map.1 (show y ∈ (w :: ws).map (Written.full rd rf c t0 tend) from hy)
      exact full_ok c x (hw x hx) hE t0 tend) href (by rw [List.length_map]; exact hcap) s hs hmem a ha
  unfold fitTexts
  rw [mapM_written hh c b0 stack buf t0 tend (w :: ws) hw]
  exact congrArg some h1

/-- The value of a block with a written, nonzero offset, numbers being read exactly. -/
theorem value_written (rf : Rat → Rat) (w : Written) (b : Rinex.Write.Block) (r : Record) (rs : List Record) (o : Obs) (f z : Int)
    (hr : b.records = r :: rs) (ho : r.obs[(w.header id rf).codes.idxOf fCode]? = some o)
    (hf : (w.header id rf).scale[(w.header id rf).codes.idxOf fCode]? = some f) (hz : o.value = some z) (h0 : z ≠ 0) :
    w.value id rf b = z / 1000 / f := by
  unfold Written.value
  rw [hr]
  simp only [ho, hf, Obs.meaning, hz, id_eq]
  rw [if_neg (by
    intro h
    have h' : (z : Rat) = 0 := by
      rw [div_eq_zero_iff] at h
      rcases h with h | h
      · exact h
      · norm_num at h
    exact h0 (by exact_mod_cast h'))]
  norm_num

/-- An epoch whose first beacon has no offset is not left out: the marker for a missing value, which is as good as zero, enters the
mean. -/
theorem blank_offset_counterexample (rd rf : Rat → Rat) (w : Written) (b : Rinex.Write.Block) (r : Record) (rs : List Record) (o : Obs)
    (f : Int) (hr : b.records = r :: rs) (ho : r.obs[(w.header rd rf).codes.idxOf fCode]? = some o)
    (hf : (w.header rd rf).scale[(w.header rd rf).codes.idxOf fCode]? = some f) (hz : o.value = none) :
    (w.datum rd rf b).f = some ((missing / f : Rat) : ℝ) := by
  unfold Written.datum Written.value
  rw [hr]
  simp only [ho, hf, Obs.meaning, hz]

/-- A file without the code `F` is not refused: the first epoch in range reads outside an array. -/
theorem no_code_counterexample (h : Hdr) (hn : fCode ∉ h.codes) (p : RecHdr × List BeaconObs) :
    (blockOf h.rcvApplied (codeIndex h.codes fCode) p).f = none := by
  have : codeIndex h.codes fCode = -1 := by
    rcases code_lookup h.codes fCode with ⟨-, h1⟩ | ⟨i, -, h2⟩
    · exact h1
    · exact absurd (List.mem_of_getElem? h2.1) hn
  unfold blockOf
  rw [this]
  cases p.2 with
  | nil => rfl
  | cons o os => simp

/-! ### Concrete instances -/

/-- A block of one beacon with the given offset. -/
def yearBlock (year : String) (t : Int) (f : Option Int) : Rinex.Write.Block :=
  ⟨(year ++ " 01 01 01 41 53.279947800").toList, t, 0, none, 0,
    [⟨"D01".toList, [⟨none, ' ', ' '⟩, ⟨none, ' ', ' '⟩, ⟨none, ' ', ' '⟩, ⟨none, ' ', ' '⟩, ⟨none, ' ', ' '⟩, ⟨f, ' ', ' '⟩]⟩]⟩

/-- Four epochs with the offsets 2001, 2003, 2005, 2007, written a hundred times as large. -/
def years : Written :=
  ⟨300, "Expert".toList, sampleItems,
    [yearBlock "2000" 2000 (some 200100000), yearBlock "2002" 2002 (some 200300000), yearBlock "2004" 2004 (some 200500000),
     yearBlock "2006" 2006 (some 200700000)]⟩

/-- Windows of two values; the range holds all years. -/
def cy : Cfg ℝ := ⟨true, 2, 1, 0, -1000, 10000, fun a b => ((a - b : Int) : ℝ), fun a b => ((a - b : Int) : ℝ)⟩

theorem years_codes : (years.header id id).codes = [⟨.phase, 1⟩, ⟨.pseudorange, 2⟩, ⟨.groundTemperature, 0⟩, ⟨.phase, 2⟩,
    ⟨.pseudorange, 1⟩, fCode] := rfl

theorem years_values : years.blocks.map (years.value id id) = [2001, 2003, 2005, 2007] := by decide +kernel

theorem years_epochs : years.blocks.map (fun b => l1Epoch (years.header id id).rcvApplied (b.header id)) = [2000, 2002, 2004, 2006] := by
  decide +kernel

theorem years_data : years.blocks.map (years.datum id id) =
    [⟨2000, 2000, some 2001⟩, ⟨2002, 2002, some 2003⟩, ⟨2004, 2004, some 2005⟩, ⟨2006, 2006, some 2007⟩] := by
  have h1 := years_values
  have h2 := years_epochs
  simp only [years, List.map_cons, List.map_nil, List.cons.injEq, and_true] at h1 h2 ⊢
  simp only [Written.datum]
  obtain ⟨a1, a2, a3, a4⟩ := h1
  obtain ⟨b1, b2, b3, b4⟩ := h2
  rw [a1, a2, a3, a4, b1, b2, b3, b4]
  simp [yearBlock]

theorem years_range : inRange cy (years.blocks.map (years.datum id id)) =
    [⟨2000, 2000, some 2001⟩, ⟨2002, 2002, some 2003⟩, ⟨2004, 2004, some 2005⟩, ⟨2006, 2006, some 2007⟩] := by
  rw [years_data]
  simp [inRange, cy]

theorem yearBlock_ok (year : String) (t : Int) (f : Option Int) (hl : (yearBlock year t f).date.length = 29 ∧
    Date exactExt 29 (yearBlock year t f).date t) (hf : ∀ z, f = some z → (fixText 3 z).length ≤ 14) :
    (yearBlock year t f).Ok exactExt 6 := by
  refine ⟨hl, by simp [yearBlock], by simp [yearBlock], by simp [yearBlock], by simp [yearBlock], ?_⟩
  intro r hr
  obtain rfl : r = _ := by simpa [yearBlock] using hr
  refine ⟨⟨rfl, by simp, rfl⟩, rfl, ?_⟩
  intro o ho
  simp only [List.mem_cons, List.not_mem_nil, or_false] at ho
  rcases ho with rfl | rfl | rfl | rfl | rfl | rfl
  all_goals
    refine ⟨?_, show (' ' : Char) ≠ '\x00' by decide, show (' ' : Char) ≠ '\x00' by decide⟩
    intro z hz
    first | exact hf z hz | cases hz

theorem years_ok : years.Ok exactExt id id cy := by
  refine ⟨by decide, by decide, sampleItems_ok, ⟨rfl, rfl, rfl, by decide⟩, by rw [years_codes]; simp, ?_, ?_, ?_, ?_⟩
  · intro b hb
    simp only [years, List.mem_cons, List.not_mem_nil, or_false] at hb
    rcases hb with rfl | rfl | rfl | rfl
    all_goals
      refine yearBlock_ok _ _ _ ⟨by decide, by decide, by decide, fun r => rfl⟩ ?_
      intro z hz
      obtain rfl := Option.some.inj hz
      decide
  · intro b hb
    simp only [years, List.mem_cons, List.not_mem_nil, or_false] at hb
    rcases hb with rfl | rfl | rfl | rfl <;> simp [yearBlock]
  · rw [years_range]; simp
  · rw [years_range]; exact ⟨2, rfl⟩

theorem years_points : allPoints cy 0 [years.full id id cy 5 7] = [⟨2001, 2002⟩, ⟨2005, 2006⟩] := by
  have hr := years_range
  simp only [allPoints, Full.points, Written.full, List.flatMap_cons, List.flatMap_nil, hr]
  simp [cy, date, List.range_succ, midpoint, Finset.sum_range_succ]
  norm_num

/-- All hypotheses of `text_exact_partial` (and of `text_least_squares_partial`) hold for this text and the polynomial `1 + t`. -/
example (ldlt : (m : Nat) → Matrix (Fin m) (Fin m) ℝ → (Fin m → ℝ) → Fin m → ℝ) (hl : Solves ldlt) :
    fitTexts ldlt exactExt [] [] [] 5 7 cy (-1000) 10000 [years.lines] = some (.ok 0 (fun _ => 1)) := by
  refine text_exact_partial exact_honest ldlt hl cy le_rfl le_rfl (-1000) 10000 5 7 [] [] [] years [] (by simpa using years_ok)
    (by decide) ?_ (fun i => 2001 + 4 * ((i : ℕ) : ℝ)) ?_ ?_ (fun _ => 1) ?_
  · refine room_partial cy le_rfl (-1000) 10000 rfl 0 [years.full id id cy 5 7]
      (by simpa using full_ok cy years years_ok le_rfl 5 7) ?_
    simp only [List.mem_singleton, forall_eq]
    have : inRange cy (years.full id id cy 5 7).file.blocks = inRange cy (years.blocks.map (years.datum id id)) := rfl
    rw [this, years_range]
    simp
  · intro i j h
    simpa [Fin.ext_iff] using h
  · rw [show (years.header id id).refDate = 0 from rfl, show List.map (Written.full id id cy 5 7) [years] =
      [years.full id id cy 5 7] from rfl, years_points]
    intro i
    have hi : (i : ℕ) < 2 := i.isLt
    have : (i : ℕ) = 0 ∨ (i : ℕ) = 1 := by omega
    rcases this with h | h <;> rw [h] <;> norm_num
  · rw [show (years.header id id).refDate = 0 from rfl, show List.map (Written.full id id cy 5 7) [years] =
      [years.full id id cy 5 7] from rfl, years_points]
    have h1 : ∀ t, polyAt (m := cy.order + 1) (fun _ => 1) t = 1 + t := fun t => by
      show ∑ p : Fin 2, (1 : ℝ) * t ^ (p : ℕ) = _
      simp [Fin.sum_univ_two]
    simp only [h1]
    norm_num

/-- The second epoch without an offset. -/
def gap : Written :=
  { years with blocks := [yearBlock "2000" 2000 (some 200100000), yearBlock "2002" 2002 none] }

example : gap.value id id (yearBlock "2000" 2000 (some 200100000)) = (200100000 : Int) / 1000 / (100 : Int) :=
  value_written id gap _ _ _ ⟨some 200100000, ' ', ' '⟩ 100 200100000 rfl rfl rfl rfl (by decide)

example : (gap.datum id id (yearBlock "2002" 2002 none)).f = some ((missing / (100 : Int) : Rat) : ℝ) :=
  blank_offset_counterexample id id gap _ _ _ ⟨none, ' ', ' '⟩ 100 rfl rfl rfl rfl

theorem gap_range : inRange cy (gap.blocks.map (gap.datum id id)) =
    [⟨2000, 2000, some 2001⟩, ⟨2002, 2002, some ((missing / 100 : Rat) : ℝ)⟩] := by
  have h1 : gap.blocks.map (gap.value id id) = [2001, missing / 100] := by decide +kernel
  have h2 : gap.blocks.map (fun b => l1Epoch (gap.header id id).rcvApplied (b.header id)) = [2000, 2002] := by decide +kernel
  simp only [gap, List.map_cons, List.map_nil, List.cons.injEq, and_true] at h1 h2 ⊢
  simp only [Written.datum]
  rw [h1.1, h1.2, h2.1, h2.2]
  simp [yearBlock, inRange, cy]

/-- The only offset stated is 2001; the epoch without one halves the data point that the polynomial is fitted to. -/
theorem blank_mean_counterexample : ∃ p, allPoints cy 0 [gap.full id id cy 5 7] = [p] ∧ p.t = 2001 ∧ p.y < 1001 := by
  have hr := gap_range
  refine ⟨⟨2001, (2001 + ((missing / 100 : Rat) : ℝ)) / 2⟩, ?_, rfl, ?_⟩
  · simp only [allPoints, Full.points, Written.full, List.flatMap_cons, List.flatMap_nil, hr]
    simp [cy, date, List.range_succ, midpoint, Finset.sum_range_succ]
    norm_num
  · have h : (missing / 100 : Rat) < 1 := by decide +kernel
    have h' : ((missing / 100 : Rat) : ℝ) < 1 := by exact_mod_cast h
    show (2001 + ((missing / 100 : Rat) : ℝ)) / 2 < 1001
    linarith

example : fCode ∉ (headerOf id id 300 oneStation).codes := by decide

end Verif.RfoFit
