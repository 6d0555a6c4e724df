import Verif.Rinex.HeaderLemmas

namespace Verif.Rinex
open Verif.Text Verif.SystemInfo

/-- Everything a recognised line does depends on the line only, when it has at least 60
characters. -/
theorem onLabel_fill (e : Ext) (st line : List Char) (h : Hdr) (l : Label)
    (h60 : 60 ≤ line.length) (hc : h.codes.length ≤ 12) :
    onLabel e (fill st line) h l = onLabel e (fill [] line) h l := by
  have hcs := fun k (hk : k ≤ 60) => cstr_fill' st line k (by omega)
  have hat := fun k (hk : k < 60) => getD_fill st line k (by omega)
  have hia := fun k (hk : k ≤ 60) => intAt_fill st line k (by omega)
  have htf := fun off n lim err (hk : off + n < 60) =>
    textField_fill st line off n lim err (by omega)
  cases l
  case satelliteName => simp only [onLabel, htf 0 59 59 30 (by omega)]
  case cosparNumber => simp only [onLabel, htf 0 59 20 40 (by omega)]
  case markerType => simp only [onLabel, take_fill st line 10 (by omega)]
  case observerAgency => rfl
  case receiver =>
    simp only [onLabel, htf 0 19 19 71 (by omega), htf 20 19 19 72 (by omega),
      htf 40 19 19 73 (by omega)]
  case antenna => simp only [onLabel, htf 0 19 19 81 (by omega), htf 20 19 19 82 (by omega)]
  case approxPosition =>
    simp only [onLabel, threeNumbers, hcs 0 (by omega), hcs 14 (by omega), hcs 28 (by omega)]
  case centerOfMass =>
    simp only [onLabel, threeNumbers, hcs 0 (by omega), hcs 14 (by omega), hcs 28 (by omega)]
  case obsTypes =>
    simp only [onLabel, onObsTypes, hat 0 (by omega), hia 1 (by omega)]
    split
    · rfl
    · split
      · rfl
      · rename_i n _
        split
        · rfl
        · split
          · rfl
          · rw [parseCodes_fill st line h60 n.toNat 0 (by omega)]
  case firstObs =>
    simp only [onLabel, take_drop_fill st line 48 3 (by omega), hcs 0 (by omega)]
  case dcbs => rfl
  case scaleFactor =>
    simp only [onLabel, onScaleFactor, hat 0 (by omega), hat 8 (by omega), hat 9 (by omega),
      hia 2 (by omega), hia 8 (by omega), List.length_replicate]
    split
    · rfl
    · split
      · rfl
      · split
        · rfl
        · split
          · rw [applyFactors_fill st line h60 _ _ _ 0 _ (by omega)]
          · split
            · rfl
            · split
              · rfl
              · rw [applyFactors_fill st line h60 _ _ _ 0 _ (by omega)]
  case l12Offset => simp only [onLabel, hat 0 (by omega), hcs 3 (by omega)]
  case numStations => simp only [onLabel, hia 0 (by omega)]
  case stationReference => simp only [onLabel, hcs 0 (by omega)]
  case numTimeRef => simp only [onLabel, hia 0 (by omega)]
  case timeRefStation =>
    simp only [onLabel, onTimeRefStation, hcs 5 (by omega), hcs 19 (by omega),
      take_fill st line 3 (by omega)]
  case timeRefDate => simp only [onLabel, hcs 0 (by omega)]
  case rcvClock => simp only [onLabel, hia 0 (by omega)]
  case endOfHeader => rfl

/-- What every accepted line preserves. -/
structure HInv (h : Hdr) : Prop where
  codesValid : ∀ a ∈ h.codes, ∃ t f, ObsCode.make t f = some a
  codesLen : h.codes.length ≤ 12
  scaleNe : ∀ x ∈ h.scale, x ≠ 0
  stationCode : ∀ s ∈ h.stations, s.internalCode.length = 3 ∧ '\x00' ∉ s.internalCode
  refsListed : ∀ r ∈ h.refs, ∃ s ∈ h.stations, s.internalCode = r.code

theorem strncmpEq_take (n : Nat) : ∀ (a b : List Char), a.length = n → '\x00' ∉ a →
    b.length ≤ n → strncmpEq n a b = true → a = b := by
  induction n with
  | zero =>
    intro a b ha _ hb _
    rw [List.eq_nil_of_length_eq_zero ha, List.eq_nil_of_length_eq_zero (by omega : b.length = 0)]
  | succ n ih =>
    intro a b ha hn hb h
    cases a with
    | nil => simp at ha
    | cons x a =>
      simp only [List.mem_cons, not_or] at hn
      cases b with
      | nil =>
        simp only [strncmpEq, List.headD_cons, List.headD_nil] at h
        have : (x != '\x00') = true := by simp; exact fun h => hn.1 h.symm
        simp [this] at h
      | cons y b =>
        simp only [strncmpEq, List.headD_cons, List.tail_cons] at h
        have hx : (x == '\x00') = false := by
          simp; exact fun h => hn.1 h.symm
        by_cases hxy : x = y
        · subst hxy
          simp [hx] at h
          rw [ih a b (by simpa using ha) hn.2 (by simpa using hb) h]
        · simp [hxy] at h

theorem setFromRinexLine_code {line : List Char} {s : Beacon}
    (h : Beacon.setFromRinexLine line = .ok s) :
    s.internalCode = line.take 3 ∧ 60 ≤ line.length := by
  unfold Beacon.setFromRinexLine at h
  split at h
  · simp at h
  · split at h
    · simp at h
    · split at h
      · simp at h
      · split at h
        · simp at h
        · split at h
          · simp at h
          · simp at h
            subst h
            exact ⟨by simp [field], by omega⟩

theorem nul_not_mem_cstr (b : Buf) (k : Nat) : '\x00' ∉ cstr b k := by
  unfold cstr
  intro h
  have := List.all_takeWhile (p := fun c : Char => c != '\x00') (l := b.drop k)
  rw [List.all_eq_true] at this
  simpa using this _ h

theorem onLabel_inv (e : Ext) (b : Buf) (h h' : Hdr) (l : Label) (hi : HInv h)
    (hs : onLabel e b h l = .ok h') : HInv h' := by
  obtain ⟨i1, i2, i3, i4, i5⟩ := hi
  cases l
  case obsTypes =>
    simp only [onLabel, onObsTypes] at hs
    split at hs
    · simp at hs
    · split at hs
      · simp at hs
      · split at hs
        · simp at hs
        · split at hs
          · simp at hs
          · split at hs
            · simp at hs
            · rename_i n _ _ _ lc hl
              simp at hs; subst hs
              have := parseCodes_length _ hl
              exact ⟨parseCodes_valid _ hl, by simp; omega, i3, i4, i5⟩
  case scaleFactor =>
    simp only [onLabel, onScaleFactor] at hs
    have key : ∀ {n factor sf'}, factor ≠ 0 →
        applyFactors b h.codes factor 0 n (List.replicate h.codes.length 1) = .ok sf' →
        ∀ x ∈ sf', x ≠ 0 := by
      intro n factor sf' hf ha x hx
      rcases (applyFactors_spec n ha).2 x hx with h1 | h1
      · rw [List.mem_replicate] at h1
        omega
      · omega
    split at hs
    · simp at hs
    · split at hs
      · simp at hs
      · split at hs
        · simp at hs
        · rename_i factor _ hf
          split at hs
          · split at hs
            · simp at hs
            · rename_i sf' ha
              simp at hs; subst hs
              exact ⟨i1, i2, key hf ha, i4, i5⟩
          · split at hs
            · simp at hs
            · split at hs
              · simp at hs
              · split at hs
                · simp at hs
                · rename_i sf' ha
                  simp at hs; subst hs
                  exact ⟨i1, i2, key hf ha, i4, i5⟩
  case stationReference =>
    simp only [onLabel] at hs
    split at hs
    · simp at hs
    · rename_i s hb
      simp at hs; subst hs
      obtain ⟨hcode, hlen⟩ := setFromRinexLine_code hb
      refine ⟨i1, i2, i3, ?_, ?_⟩
      · intro x hx
        rcases List.mem_append.1 hx with hx | hx
        · exact i4 x hx
        · simp at hx; subst hx
          rw [hcode]
          refine ⟨by simp; omega, fun hm => nul_not_mem_cstr b 0 (List.mem_of_mem_take hm)⟩
      · intro r hr
        obtain ⟨s', h1, h2⟩ := i5 r hr
        exact ⟨s', List.mem_append_left _ h1, h2⟩
  case timeRefStation =>
    simp only [onLabel, onTimeRefStation] at hs
    split at hs
    · simp at hs
    · split at hs
      · simp at hs
      · split at hs
        · rename_i bias _ shift _ hany
          simp at hs; subst hs
          refine ⟨i1, i2, i3, i4, ?_⟩
          intro r hr
          rcases List.mem_append.1 hr with hr | hr
          · exact i5 r hr
          · simp at hr; subst hr
            rw [List.any_eq_true] at hany
            obtain ⟨s, hs1, hs2⟩ := hany
            refine ⟨s, hs1, strncmpEq_take 3 _ _ (i4 s hs1).1 (i4 s hs1).2 ?_ hs2⟩
            simp
        · simp at hs
  all_goals
    simp only [onLabel] at hs
    repeat' (split at hs)
    all_goals
      first
      | (simp at hs; done)
      | (simp at hs; subst hs; exact ⟨i1, i2, i3, i4, i5⟩)

/-- A recognised line of at least 60 characters leaves the buffer only when a name field
starting at column 0 is blank. -/
theorem onLabel_ub (e : Ext) (st line : List Char) (h : Hdr) (l : Label)
    (h60 : 60 ≤ line.length) (hc : h.codes.length ≤ 12)
    (hu : onLabel e (fill st line) h l = .error .ub) : ∀ i < 20, line[i]? = some ' ' := by
  have tf0 : ∀ n lim err, n < 60 → 19 ≤ n → textField (fill st line) 0 n lim err = .error .ub →
      ∀ i < 20, line[i]? = some ' ' := by
    intro n lim err h1 h2 ht i hi
    unfold textField at ht
    split at ht
    · rename_i hn
      have := ((countLengthReverse_none _ _ _).1 hn).2 i (by omega)
      unfold at' fill at this
      rw [List.getD_eq_getElem?_getD, List.getElem?_append_left (by omega)] at this
      rw [List.getElem?_eq_getElem (by omega)] at this ⊢
      simpa using this
    · split at ht <;> simp at ht
  have tfp : ∀ off n lim err, off ≠ 0 → textField (fill st line) off n lim err ≠ .error .ub := by
    intro off n lim err h1 ht
    unfold textField at ht
    split at ht
    · rename_i hn
      exact h1 ((countLengthReverse_none _ _ _).1 hn).1
    · split at ht <;> simp at ht
  cases l
  case satelliteName =>
    simp only [onLabel] at hu
    split at hu
    · rename_i s hs
      simp at hu; subst hu
      exact tf0 _ _ _ (by omega) (by omega) hs
    · simp at hu
  case cosparNumber =>
    simp only [onLabel] at hu
    split at hu
    · rename_i s hs
      simp at hu; subst hu
      exact tf0 _ _ _ (by omega) (by omega) hs
    · simp at hu
  case receiver =>
    simp only [onLabel] at hu
    split at hu
    · rename_i s hs
      simp at hu; subst hu
      exact tf0 _ _ _ (by omega) (by omega) hs
    · split at hu
      · rename_i s hs
        simp at hu; subst hu
        exact absurd hs (tfp _ _ _ _ (by omega))
      · split at hu
        · rename_i s hs
          simp at hu; subst hu
          exact absurd hs (tfp _ _ _ _ (by omega))
        · simp at hu
  case antenna =>
    simp only [onLabel] at hu
    split at hu
    · rename_i s hs
      simp at hu; subst hu
      exact tf0 _ _ _ (by omega) (by omega) hs
    · split at hu
      · rename_i s hs
        simp at hu; subst hu
        exact absurd hs (tfp _ _ _ _ (by omega))
      · split at hu <;> simp at hu
  case obsTypes =>
    exfalso
    simp only [onLabel, onObsTypes] at hu
    split at hu
    · simp at hu
    · split at hu
      · simp at hu
      · split at hu
        · simp at hu
        · split at hu
          · simp at hu
          · split at hu
            · rename_i x hx
              simp at hu; subst hu
              exact parseCodes_no_ub st line h60 _ 0 (by omega) hx
            · simp at hu
  case scaleFactor =>
    exfalso
    simp only [onLabel, onScaleFactor, List.length_replicate] at hu
    split at hu
    · simp at hu
    · split at hu
      · simp at hu
      · split at hu
        · simp at hu
        · split at hu
          · split at hu
            · rename_i x hx
              simp at hu; subst hu
              exact applyFactors_no_ub st line h60 _ _ _ 0 _ (by omega) hx
            · simp at hu
          · split at hu
            · simp at hu
            · split at hu
              · simp at hu
              · split at hu
                · rename_i x hx
                  simp at hu; subst hu
                  exact applyFactors_no_ub st line h60 _ _ _ 0 _ (by omega) hx
                · simp at hu
  all_goals
    exfalso
    simp only [onLabel, onTimeRefStation, threeNumbers] at hu
    repeat' (split at hu)
    all_goals first
      | (simp at hu; done)
      | (simp at hu; subst hu; rename_i hx; repeat' (split at hx)
         all_goals simp at hx)

end Verif.Rinex
