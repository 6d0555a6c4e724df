import Verif.Rinex.MetaModel
import Verif.Rinex.WriteProps

/-! C153: what the RINEX reader prints is what the header and the blocks say, and stays inside its buffers. -/
namespace Verif.Rinex.Meta
open Verif.Text Verif.SystemInfo Verif.Rinex Verif.Rinex.Write

/-! ### A beacon as text -/

/-- The text of a beacon. -/
def beaconText (b : Beacon) : List Char :=
  "[".toList ++ b.internalCode ++ "/".toList ++ b.stationId ++ "_".toList ++ b.domes.take 9 ++ "](".toList ++ b.name ++ ")".toList

theorem takeWhile_noNul (s r : List Char) (h : '\x00' ∉ s) : (s ++ '\x00' :: r).takeWhile (· != '\x00') = s := by
  induction s with
  | nil => simp
  | cons c s ih =>
    have hc : c ≠ '\x00' := by rintro rfl; exact h (by simp)
    rw [List.cons_append, List.takeWhile_cons_of_pos (by simpa using hc), ih fun hm => h (by simp [hm])]

theorem takeWhile_all (s : List Char) (h : '\x00' ∉ s) : s.takeWhile (· != '\x00') = s := by
  induction s with
  | nil => rfl
  | cons c s ih =>
    have hc : c ≠ '\x00' := by rintro rfl; exact h (by simp)
    rw [List.takeWhile_cons_of_pos (by simpa using hc), ih fun hm => h (by simp [hm])]

theorem padNul_short (n : Nat) (s : List Char) (h : s.length < n) :
    padNul n s = s ++ '\x00' :: List.replicate (n - s.length - 1) '\x00' := by
  unfold padNul
  obtain ⟨k, hk⟩ : ∃ k, n - s.length = k + 1 := ⟨n - s.length - 1, by omega⟩
  rw [hk, List.replicate_succ]
  rfl

theorem padNul_full (n : Nat) (s : List Char) (h : s.length = n) : padNul n s = s := by
  simp [padNul, h]

theorem upTo_padNul (n m : Nat) (s : List Char) (h : '\x00' ∉ s) : upTo n (padNul m s) = s.take n := by
  unfold upTo padNul
  rw [List.take_append, List.take_replicate]
  have hn : '\x00' ∉ s.take n := fun hm => h (List.mem_of_mem_take hm)
  cases hk : min (n - s.length) (m - s.length) with
  | zero => rw [List.replicate_zero, List.append_nil, takeWhile_all _ hn]
  | succ k => rw [List.replicate_succ, takeWhile_noNul _ _ hn]

theorem upTo_exact (n : Nat) (s : List Char) (hl : s.length = n) (h : '\x00' ∉ s) : upTo n s = s := by
  unfold upTo
  rw [← hl, List.take_length, takeWhile_all s h]

/-- The text after the name, in general: name and what follows it up to the first NUL. -/
theorem toStr_scan (cap : Nat) (b : Beacon) (hb : BeaconOk b) (nm : List Char) (hs : scan (nameOn b) = some nm) :
    toStr cap b = if 22 - 9 + (b.domes.take 9).length + nm.length < cap then
      some (beaconText { b with name := nm }) else none := by
  unfold toStr
  rw [hs]
  simp only
  rw [upTo_exact 3 _ hb.code.1 hb.code.2, upTo_exact 4 _ hb.id.1 hb.id.2, upTo_padNul 9 10 _ hb.domes.nul]
  have ht : '[' :: (b.internalCode ++ '/' :: (b.stationId ++ '_' :: (b.domes.take 9 ++ ']' :: '(' :: (nm ++ [')'])))) =
      beaconText { b with name := nm } := by
    unfold beaconText
    simp
  have hlen : (beaconText { b with name := nm }).length = 22 - 9 + (b.domes.take 9).length + nm.length := by
    unfold beaconText
    simp only [List.length_append, hb.code.1, hb.id.1]
    simp
    omega
  rw [ht, hlen]

/-- **C153** A beacon whose name leaves a column free is printed as its fields, in every buffer of 52 characters. -/
theorem toStr_text (cap : Nat) (hc : 52 ≤ cap) (b : Beacon) (hb : BeaconOk b) (hn : b.name.length < 30) :
    toStr cap b = some (beaconText b) := by
  have hs : scan (nameOn b) = some b.name := by
    unfold scan nameOn
    rw [padNul_short 30 _ hn, List.append_assoc, List.cons_append, takeWhile_noNul _ _ hb.name.nul, if_pos (by simp)]
  rw [toStr_scan cap b hb b.name hs, if_pos (by rw [List.length_take]; omega)]

/-- **C153** The printed text tells beacons apart: code, mnemonic, DOMES number and name can be read off it. -/
theorem beaconText_inj (a b : Beacon) (ha : BeaconOk a) (hb : BeaconOk b) (da : a.domes.length ≤ 9) (db : b.domes.length ≤ 9)
    (ba : ']' ∉ a.domes) (bb : ']' ∉ b.domes) (h : beaconText a = beaconText b) :
    a.internalCode = b.internalCode ∧ a.stationId = b.stationId ∧ a.domes = b.domes ∧ a.name = b.name := by
  unfold beaconText at h
  rw [List.take_of_length_le da, List.take_of_length_le db] at h
  simp only [List.append_assoc] at h
  have h1 := List.append_cancel_left h
  obtain ⟨e1, h2⟩ := List.append_inj h1 (by rw [ha.code.1, hb.code.1])
  have h3 := List.append_cancel_left h2
  obtain ⟨e2, h4⟩ := List.append_inj h3 (by rw [ha.id.1, hb.id.1])
  have h5 := List.append_cancel_left h4
  have split : ∀ (x y r s : List Char), ']' ∉ x → ']' ∉ y → x ++ ']' :: r = y ++ ']' :: s → x = y ∧ r = s := by
    intro x
    induction x with
    | nil =>
      intro y r s _ hy he
      cases y with
      | nil => exact ⟨rfl, by simpa using he⟩
      | cons c y =>
        have : ']' = c := by simpa using congrArg List.head? he
        exact absurd (this ▸ List.mem_cons_self) hy
    | cons c x ih =>
      intro y r s hx hy he
      cases y with
      | nil =>
        have : c = ']' := by simpa using congrArg List.head? he
        exact absurd (this ▸ List.mem_cons_self) hx
      | cons d y =>
        rw [List.cons_append, List.cons_append, List.cons.injEq] at he
        obtain ⟨i1, i2⟩ := ih y r s (fun hm => hx (by simp [hm])) (fun hm => hy (by simp [hm])) he.2
        exact ⟨by rw [he.1, i1], i2⟩
  have e3 := split a.domes b.domes ("(".toList ++ (a.name ++ ")".toList)) ("(".toList ++ (b.name ++ ")".toList)) ba bb
    h5
  have h6 := List.append_cancel_left e3.2
  refine ⟨e1, e2, e3.1, ?_⟩
  exact List.append_cancel_right h6

/-! ### Where the buffer or the object is left -/

theorem byte_zero : byte 0 = '\x00' := by decide

theorem byte_nonzero (n : Nat) (h : n % 256 ≠ 0) : byte n ≠ '\x00' := by
  have : ∀ k < 256, k ≠ 0 → Char.ofNat k ≠ '\x00' := by decide +kernel
  exact this (n % 256) (Nat.mod_lt _ (by norm_num)) h

/-- A name that fills its columns has no end in the object: the DOMES number is printed after it as if it were part of it. -/
theorem full_name_counterexample (b : Beacon) (hb : BeaconOk b) (hn : b.name.length = 30) (hd : b.domes.length ≤ 9) :
    toStr 64 b = some (beaconText { b with name := b.name ++ b.domes }) ∧ beaconText { b with name := b.name ++ b.domes } ≠
      beaconText b := by
  have hs : scan (nameOn b) = some (b.name ++ b.domes) := by
    unfold scan nameOn
    rw [padNul_full 30 _ hn, padNul_short 10 _ (by omega), List.append_assoc, ← List.append_assoc, List.cons_append,
      takeWhile_noNul _ _ (by
        rw [List.mem_append, not_or]
        exact ⟨hb.name.nul, hb.domes.nul⟩), if_pos (by simp)]
  have hpos := List.length_pos_of_ne_nil hb.domes.some
  constructor
  · rw [toStr_scan 64 b hb _ hs, if_pos (by rw [List.length_take, List.length_append]; omega)]
  · intro h
    have := congrArg List.length h
    unfold beaconText at this
    simp at this
    exact hb.domes.some this

/-- A buffer of the size that the header file asks for, more than 51 characters, is left by such a name. -/
theorem documented_buffer_counterexample (b : Beacon) (hb : BeaconOk b) (hn : b.name.length = 30) (hd : b.domes.length = 9) :
    toStr 52 b = none := by
  have hs : scan (nameOn b) = some (b.name ++ b.domes) := by
    unfold scan nameOn
    rw [padNul_full 30 _ hn, padNul_short 10 _ (by omega), List.append_assoc, ← List.append_assoc, List.cons_append,
      takeWhile_noNul _ _ (by
        rw [List.mem_append, not_or]
        exact ⟨hb.name.nul, hb.domes.nul⟩), if_pos (by simp)]
  rw [toStr_scan 52 b hb _ hs, if_neg (by rw [List.length_take, List.length_append]; omega)]

/-- With name and DOMES number filling their columns, beacon type and shift factor are printed as text: for every beacon with a
positive shift factor below 256 the buffer of `print_metadata` is overrun. -/
theorem overrun_counterexample (b : Beacon) (hb : BeaconOk b) (hn : b.name.length = 30) (hd : b.domes.length = 10)
    (ht : b.type ≠ 0) (hs0 : 0 < b.shift) (hs1 : b.shift < 256) : toStr 64 b = none := by
  obtain ⟨n, hsn⟩ : ∃ n : Nat, b.shift = n := ⟨b.shift.toNat, by omega⟩
  obtain ⟨k, htk⟩ : ∃ k : Nat, b.type = k := ⟨b.type.toNat, by have := hb.type; omega⟩
  have hk : k ≤ 9 := by have := hb.type; omega
  have hty : byte (b.type % 256).toNat ≠ '\x00' := by
    refine byte_nonzero _ ?_
    rw [htk]
    have : ((k : Int) % 256).toNat = k := by omega
    rw [this]
    omega
  have hsh : ((b.shift % 2 ^ 32).toNat) = n := by rw [hsn]; omega
  have hmap : (List.range 4).map (fun i => byte ((b.shift % 2 ^ 32).toNat / 256 ^ i)) =
      byte n :: '\x00' :: [byte (n / 256 ^ 2), byte (n / 256 ^ 3)] := by
    rw [hsh]
    have : n / 256 ^ 1 = 0 := by omega
    simp only [List.range, List.range.loop, List.map_cons, List.map_nil, this, byte_zero, pow_zero, Nat.div_one]
  have hbn : byte n ≠ '\x00' := byte_nonzero n (by omega)
  have hs : scan (nameOn b) = some (b.name ++ (b.domes ++ [byte (b.type % 256).toNat, byte n])) := by
    unfold scan nameOn
    rw [padNul_full 30 _ hn, padNul_full 10 _ hd, hmap]
    rw [show b.name ++ (b.domes ++ byte (b.type % 256).toNat :: byte n :: '\x00' :: [byte (n / 256 ^ 2), byte (n / 256 ^ 3)]) =
      (b.name ++ (b.domes ++ [byte (b.type % 256).toNat, byte n])) ++ '\x00' :: [byte (n / 256 ^ 2), byte (n / 256 ^ 3)] by simp]
    rw [takeWhile_noNul _ _ (by
      simp only [List.mem_append, List.mem_cons, List.not_mem_nil, or_false, not_or]
      exact ⟨hb.name.nul, hb.domes.nul, hty.symm, hbn.symm⟩), if_pos (by simp)]
  rw [toStr_scan 64 b hb _ hs, if_neg (by
    rw [List.length_take, List.length_append, List.length_append, hn, hd]
    simp)]

/-! ### The header -/

/-- What is to be printed of a header. -/
def report (fixed : Nat → Rat → List Char) (fn : List Char) (h : Hdr) : List (List Char) :=
  let xyz (l : List Rat) : List Char := "[".toList ++ (List.intercalate ", ".toList (l.map (fixed 3))) ++ "]".toList
  ["RINEX filename: ".toList ++ fn, "RINEX version : ".toList ++ fixed 2 h.version,
    "Satellite Name: ".toList ++ h.satName, "COSPAR NR     : ".toList ++ h.cospar, "Recvr Chain   : ".toList ++ h.recChain,
    "Recvr Type    : ".toList ++ h.recType, "Recvr Version : ".toList ++ h.recVersion,
    "Antenna Type  : ".toList ++ h.antType, "Antenna Number: ".toList ++ h.antNumber,
    "Apprx Position: ".toList ++ xyz h.approx, "Mass Center   : ".toList ++ xyz h.centerMass,
    "Obs. Codes    : (".toList ++ (natText h.codes.length ++ ") ".toList ++ (h.codes.map fun c => bracket c.toStr).flatten),
    "Scale Factors : (".toList ++ (natText h.scale.length ++ ") ".toList ++
      (h.scale.map fun s => bracket (padL 2 (intText s))).flatten),
    "Beacons       : (".toList ++ (natText h.stations.length ++ ")".toList)] ++
  h.stations.map fun b => '\t' :: beaconText b

/-- Texts without NUL, three coordinates or none, beacons that fit. -/
structure Sound (h : Hdr) : Prop where
  sat : '\x00' ∉ h.satName
  cospar : '\x00' ∉ h.cospar
  chain : '\x00' ∉ h.recChain
  rtype : '\x00' ∉ h.recType
  rversion : '\x00' ∉ h.recVersion
  atype : '\x00' ∉ h.antType
  anumber : '\x00' ∉ h.antNumber
  approx : h.approx = [] ∨ h.approx.length = 3
  centre : h.centerMass = [] ∨ h.centerMass.length = 3
  beacons : ∀ b ∈ h.stations, BeaconOk b

theorem Sound.apply {e : Ext} {rd rf : Rat → Rat} {h : Hdr} (hs : Sound h) (i : Item) (hi : i.Ok e h) :
    Sound (i.apply rd rf h) := by
  obtain ⟨s1, s2, s3, s4, s5, s6, s7, s8, s9, s10⟩ := hs
  cases i with
  | satName t => exact ⟨hi.nul, s2, s3, s4, s5, s6, s7, s8, s9, s10⟩
  | cospar t => exact ⟨s1, hi.nul, s3, s4, s5, s6, s7, s8, s9, s10⟩
  | receiver a b c => exact ⟨s1, s2, hi.1.nul, hi.2.1.nul, hi.2.2.nul, s6, s7, s8, s9, s10⟩
  | antenna => exact ⟨s1, s2, s3, s4, s5, by simp [Item.apply], by simp [Item.apply], s8, s9, s10⟩
  | approx x y z => exact ⟨s1, s2, s3, s4, s5, s6, s7, .inr rfl, s9, s10⟩
  | center x y z => exact ⟨s1, s2, s3, s4, s5, s6, s7, s8, .inr rfl, s10⟩
  | station b =>
    refine ⟨s1, s2, s3, s4, s5, s6, s7, s8, s9, ?_⟩
    intro x hx
    rcases List.mem_append.mp hx with hx | hx
    · exact s10 x hx
    · rw [List.mem_singleton] at hx
      rw [hx]
      exact hi
  | _ => exact ⟨s1, s2, s3, s4, s5, s6, s7, s8, s9, s10⟩

theorem Sound.items {e : Ext} {rd rf : Rat → Rat} (items : List Item) :
    ∀ h, Sound h → ItemsOk e rd rf h items → Sound (items.foldl (Item.apply rd rf) h) := by
  induction items with
  | nil => intro h hs _; exact hs
  | cons i items ih => intro h hs hi; exact ih _ (hs.apply i hi.1) hi.2

/-- The members that are printed have all been set. -/
structure AllSet (h : Hdr) : Prop where
  sat : h.satName ≠ []
  cospar : h.cospar ≠ []
  chain : h.recChain ≠ []
  rtype : h.recType ≠ []
  rversion : h.recVersion ≠ []
  atype : h.antType ≠ []
  anumber : h.antNumber ≠ []
  approx : h.approx ≠ []
  centre : h.centerMass ≠ []

theorem shown_text (t : List Char) (h0 : t ≠ []) (h : '\x00' ∉ t) : shown t = some t := by
  unfold shown
  rw [if_neg h0, takeWhile_all t h]

theorem three_text (fixed : Nat → Rat → List Char) (l : List Rat) (h : l.length = 3) :
    three fixed l = some ("[".toList ++ (List.intercalate ", ".toList (l.map (fixed 3))) ++ "]".toList) := by
  match l, h with
  | [x, y, z], _ => simp [three, List.intercalate, List.intersperse]

theorem beacons_text (l : List Beacon) (h : ∀ b ∈ l, BeaconOk b) (hn : ∀ b ∈ l, b.name.length < 30) :
    l.mapM (toStr 64) = some (l.map beaconText) := by
  induction l with
  | nil => rfl
  | cons b l ih =>
    rw [List.mapM_cons, toStr_text 64 (by norm_num) b (h b (by simp)) (hn b (by simp)),
      ih (fun x hx => h x (by simp [hx])) (fun x hx => hn x (by simp [hx]))]
    rfl

/-- A sound header whose printed members are set is printed as it is. -/
theorem metadata_report (fixed : Nat → Rat → List Char) (fn : List Char) (h : Hdr) (hs : Sound h) (ha : AllSet h)
    (hn : ∀ b ∈ h.stations, b.name.length < 30) : metadata fixed fn h = some (report fixed fn h) := by
  unfold metadata
  rw [shown_text _ ha.sat hs.sat, shown_text _ ha.cospar hs.cospar, shown_text _ ha.chain hs.chain,
    shown_text _ ha.rtype hs.rtype, shown_text _ ha.rversion hs.rversion, shown_text _ ha.atype hs.atype,
    shown_text _ ha.anumber hs.anumber, three_text fixed _ (hs.approx.resolve_left ha.approx),
    three_text fixed _ (hs.centre.resolve_left ha.centre), beacons_text _ hs.beacons hn]
  simp only [Option.bind_eq_bind, Option.bind_some, Option.pure_def]
  unfold report
  simp only [List.map_map]
  rfl

/-- **C153** Reading a written header and printing it: every line is what the header says, if the header has all the lines that
are printed and no name fills its columns. -/
theorem metadata_written {e : Ext} {rd rf : Rat → Rat} (hh : Honest e rd rf) (fixed : Nat → Rat → List Char) (fn : List Char)
    (version : Int) (pgm : List Char) (items : List Item) (rest : List Line) (hv : (fixText 2 version).length ≤ 9)
    (hp : pgm.length ≤ 60) (hi : ItemsOk e rd rf { version := rf (version / 10 ^ 2) } items)
    (hc : Complete (headerOf rd rf version items)) (ha : AllSet (headerOf rd rf version items))
    (hn : ∀ b ∈ (headerOf rd rf version items).stations, b.name.length < 30) (b0 : Buf) :
    ∃ h s, readHeader e b0 (Stream.open (headerLines version pgm items ++ rest)) = .ok (h, s) ∧
      metadata fixed fn h = some (report fixed fn (headerOf rd rf version items)) := by
  refine ⟨_, _, header_roundtrip hh version pgm items rest hv hp hi hc b0, ?_⟩
  refine metadata_report fixed fn _ ?_ ha hn
  exact Sound.items items _ ⟨by simp, by simp, by simp, by simp, by simp, by simp, by simp, .inl rfl, .inl rfl, by simp⟩ hi

/-- A header needs no line for satellite, receiver, antenna or positions to be accepted; printing it reads members that were
never set. -/
theorem missing_line_counterexample {e : Ext} {rd rf : Rat → Rat} (hh : Honest e rd rf) (fixed : Nat → Rat → List Char)
    (fn : List Char) (version : Int) (pgm : List Char) (items : List Item) (rest : List Line)
    (hv : (fixText 2 version).length ≤ 9) (hp : pgm.length ≤ 60)
    (hi : ItemsOk e rd rf { version := rf (version / 10 ^ 2) } items) (hc : Complete (headerOf rd rf version items))
    (hr : ∀ a b c, Item.receiver a b c ∉ items) (b0 : Buf) :
    ∃ h s, readHeader e b0 (Stream.open (headerLines version pgm items ++ rest)) = .ok (h, s) ∧ metadata fixed fn h = none := by
  refine ⟨_, _, header_roundtrip hh version pgm items rest hv hp hi hc b0, ?_⟩
  have key : ∀ (items : List Item) (h : Hdr), (∀ a b c, Item.receiver a b c ∉ items) → h.recChain = [] →
      (items.foldl (Item.apply rd rf) h).recChain = [] := by
    intro items
    induction items with
    | nil => intro h _ h0; exact h0
    | cons i items ih =>
      intro h hno h0
      refine ih _ (fun a b c hm => hno a b c (List.mem_cons_of_mem _ hm)) ?_
      cases i with
      | receiver a b c => exact absurd List.mem_cons_self (hno a b c)
      | _ => exact h0
  have hch : (headerOf rd rf version items).recChain = [] := key items _ hr rfl
  unfold metadata
  rw [hch]
  cases shown (headerOf rd rf version items).satName with
  | none => rfl
  | some x => cases shown (headerOf rd rf version items).cospar <;> rfl

/-! ### The epochs -/

/-- Epochs with their whole seconds since the one before. -/
def steps : Int → List Int → List (Int × Int)
  | _, [] => []
  | last, t :: ts => (t, (t - last).tdiv (10 ^ 9)) :: steps t ts

/-- The epoch of a block: its date and the clock offset in whole nanoseconds. -/
def epochOf (h : RecHdr) : Int := h.epoch + truncInt (h.clockOffset * 10 ^ 9)

theorem next_parts {e : Ext} {sf : List Int} {stack : Buf} {s : Stream} {b : Buf} {h : RecHdr} {o : List BeaconObs}
    {s' : Stream} {b' : Buf} (hn : next e sf stack s b = (.block h o, s', b')) :
    (getline 124 s stack).1.fail = false ∧ resolveEpoch e (getline 124 s stack).2 = .ok h ∧
      readBlock e sf h.numStations.toNat (getline 124 s stack).1 b = .ok (o, s', b') := by
  unfold next at hn
  simp only at hn
  cases hf : (getline 124 s stack).1.fail with
  | true => rw [hf] at hn; simp at hn
  | false =>
    rw [hf] at hn
    simp only [Bool.false_eq_true, if_false] at hn
    cases hr : resolveEpoch e (getline 124 s stack).2 with
    | error x => rw [hr] at hn; simp at hn
    | ok hdr =>
      rw [hr] at hn
      simp only at hn
      cases hb : readBlock e sf hdr.numStations.toNat (getline 124 s stack).1 b with
      | error x => rw [hb] at hn; simp at hn
      | ok p =>
        obtain ⟨o1, s1, b1⟩ := p
        rw [hb] at hn
        simp only [Prod.mk.injEq, Next.block.injEq] at hn
        obtain ⟨⟨rfl, rfl⟩, rfl, rfl⟩ := hn
        exact ⟨rfl, rfl, hb⟩

theorem readLoop_blocks (e : Ext) (sf : List Int) (hsf : sf ≠ []) :
    ∀ (ws : List (WFBlock × RecHdr × List BeaconObs)) (line b : Buf) (last : Int) (fuel : Nat),
      (∀ w ∈ ws, w.1.Gives e sf w.2.1 w.2.2) → ws.length < fuel →
      readLoop e sf fuel (Stream.open (ws.flatMap fun w => w.1.lines)) line b last =
        (steps last (ws.map fun w => epochOf w.2.1), ⟨[], true, true⟩) := by
  intro ws
  induction ws with
  | nil =>
    intro line b last fuel _ hf
    cases fuel with
    | zero => omega
    | succ fuel => simp [readLoop, getline, Stream.open, Stream.good, steps]
  | cons w ws ih =>
    intro line b last fuel hws hf
    cases fuel with
    | zero => omega
    | succ fuel =>
      have hw := hws w (by simp)
      obtain ⟨b', hb'⟩ := next_block e sf hsf line w.1 w.2.1 w.2.2 hw (ws.flatMap fun w => w.1.lines) b
      obtain ⟨h1, h2, h3⟩ := next_parts hb'
      have heof : (getline 124 (Stream.open (w.1.lines ++ ws.flatMap fun w => w.1.lines)) line).1.eof = false := by
        have hl : w.1.lines ++ (ws.flatMap fun w => w.1.lines) = w.1.epoch :: (w.1.body ++ ws.flatMap fun w => w.1.lines) := rfl
        rw [hl, getline_good (cap := 124) line (good_open _) (l := w.1.epoch) (rest := w.1.body ++ ws.flatMap fun w => w.1.lines) rfl
          (by have := hw.epochCols.2.1; omega)]
        simp [hw.epochCols.2.2.1]
      rw [List.flatMap_cons, readLoop]
      have h3' : readBlock e sf (applyOffset w.2.1).numStations.toNat
          (getline 124 (Stream.open (w.1.lines ++ ws.flatMap fun w => w.1.lines)) line).1 b =
          .ok (w.2.2, Stream.open (ws.flatMap fun w => w.1.lines), b') := h3
      rw [if_neg (by simp [Stream.open])]
      simp only [h1, heof, Bool.false_eq_true, if_false, h2, h3']
      rw [ih _ b' _ fuel (fun x hx => hws x (by simp [hx])) (by simpa using hf)]
      rfl

/-- **C153** For a file of complete blocks the debugging loop prints the epoch of every block once, in order, moved by its clock
offset, with the whole seconds since the one before. -/
theorem read_epochs {e : Ext} {rd rf : Rat → Rat} (hh : Honest e rd rf) (sf : List Int) (hsf : sf ≠ []) (blocks : List Block)
    (hb : ∀ b ∈ blocks, b.Ok e sf.length) (t0 : Int) (line buf : Buf) (s : Stream) (hs : s.fail = false) :
    read e sf (blocks.flatMap Block.lines) t0 line buf s =
      (steps t0 (blocks.map fun b => epochOf (b.header rd)), ⟨[], true, true⟩) := by
  have := readLoop_blocks e sf hsf (blocks.map fun b => (b.wf, b.header rd, b.records.map (Record.meaning rd sf))) line buf t0
    ((blocks.flatMap Block.lines).length + 1) (by
      intro w hw
      obtain ⟨b, hm, rfl⟩ := List.mem_map.1 hw
      exact block_gives hh sf hsf b (hb b hm)) (by
      rw [List.length_map]
      have : ∀ bs : List Block, bs.length ≤ (bs.flatMap Block.lines).length := by
        intro bs
        induction bs with
        | nil => simp
        | cons b bs ih =>
          have hpos : 1 ≤ b.lines.length := by simp [Block.lines]
          rw [List.flatMap_cons, List.length_append, List.length_cons]
          omega
      have := this blocks
      omega)
  rw [List.flatMap_map, List.map_map] at this
  unfold read seek
  rw [if_neg (by simp [hs])]
  exact this

/-- The epoch of a block that states its clock offset, and of one that does not. -/
theorem epochOf_header (b : Block) : (b.offset = none → epochOf (b.header id) = b.epoch) ∧
    ∀ z, b.offset = some z → epochOf (b.header id) = b.epoch + z := by
  constructor
  · intro h
    unfold epochOf Block.header
    rw [h]
    have : truncInt (missing * 10 ^ 9) = 0 := by decide +kernel
    simp only [this, add_zero]
  · intro z h
    unfold epochOf Block.header
    rw [h]
    have : ((z : Rat) / 10 ^ 9) * 10 ^ 9 = (z : Rat) := by field_simp
    simp only [id_eq, this, truncInt]
    simp

/-- The loop leaves the stream failed, and a failed stream cannot be moved back: a second call prints nothing, whatever the
file. -/
theorem second_read_counterexample {e : Ext} {rd rf : Rat → Rat} (hh : Honest e rd rf) (sf : List Int) (hsf : sf ≠ [])
    (blocks : List Block) (hb : ∀ b ∈ blocks, b.Ok e sf.length) (t0 : Int) (line buf : Buf) (s : Stream) (hs : s.fail = false) :
    (read e sf (blocks.flatMap Block.lines) t0 line buf (read e sf (blocks.flatMap Block.lines) t0 line buf s).2).1 = [] := by
  rw [read_epochs hh sf hsf blocks hb t0 line buf s hs]
  unfold read seek
  rw [if_pos rfl, readLoop, if_pos rfl]

/-- The differences are cut, not rounded: ten seconds less a nanosecond are printed as nine. -/
theorem cut_difference_counterexample (t : Int) (last : Int) :
    (steps last [t, t + 9999999999]).map Prod.snd = [(t - last).tdiv (10 ^ 9), 9] := by
  simp only [steps, List.map_cons, List.map_nil]
  have : (t + 9999999999 - t).tdiv (10 ^ 9) = 9 := by
    rw [show t + 9999999999 - t = 9999999999 by omega]
    decide
  rw [this]

/-! ### Examples -/

def papeete : Beacon := ⟨"D01".toList, "PAUB".toList, "PAPEETE".toList, "92201S010".toList, 3, 0⟩

example : toStr 64 papeete = some "[D01/PAUB_92201S010](PAPEETE)".toList := by decide +kernel

theorem papeete_ok : BeaconOk papeete :=
  ⟨by decide, by decide, ⟨by decide, by decide, by decide, by decide⟩, ⟨by decide, by decide, by decide, by decide⟩, by decide, by decide⟩

/-- A name of thirty characters. -/
def longName : Beacon := { papeete with name := "PAPEETE - UNIVERSITE DE TAHITI".toList }

theorem longName_ok : BeaconOk longName :=
  ⟨by decide, by decide, ⟨by decide, by decide, by decide, by decide⟩, ⟨by decide, by decide, by decide, by decide⟩, by decide, by decide⟩

example : longName.name.length = 30 ∧ longName.domes.length = 9 := by decide

example : toStr 64 longName = some "[D01/PAUB_92201S010](PAPEETE - UNIVERSITE DE TAHITI92201S010)".toList := by decide +kernel

example : toStr 64 { longName with domes := "92201S010X".toList, shift := 5 } = none := by decide +kernel

/-- Lines of a header with everything that is printed. -/
def allItems : List Item :=
  [.cospar "2016-002A".toList, .receiver "CHAIN1".toList "DGXX".toList "1.00".toList, .antenna, .approx 1 2 3, .center 4 5 6] ++ sampleItems

example : AllSet (headerOf id id 300 allItems) :=
  ⟨by decide, by decide, by decide, by decide, by decide, by decide, by decide, by decide, by decide⟩

example : ∀ b ∈ (headerOf id id 300 allItems).stations, b.name.length < 30 := by decide

example : ∀ a b c, Item.receiver a b c ∉ sampleItems := by intro a b c; simp [sampleItems]

example : (metadata (fun n _ => natText n) "f.001".toList (headerOf id id 300 allItems)).isSome = true ∧
    metadata (fun n _ => natText n) "f.001".toList (headerOf id id 300 sampleItems) = none := by decide +kernel

end Verif.Rinex.Meta
