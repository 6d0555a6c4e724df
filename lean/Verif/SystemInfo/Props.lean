import Verif.SystemInfo.Model
import Mathlib.Tactic.NormNum
import Mathlib.Tactic.Ring
import Mathlib.Tactic.FieldSimp
import Mathlib.Tactic.Linarith
import Mathlib.Tactic.Positivity

/-! C10 (observation codes), C11 (nominal frequencies), C12 (iono-free combination). -/
namespace Verif.SystemInfo
open Verif.Text

/-! ### C10 -/

/-- **C10 (a)** type → character → type is the identity. -/
theorem ofChar_toChar (t : ObsType) : ofChar (toChar t) = some t := by cases t <;> rfl

/-- **C10 (b)** a character is accepted only if it is the character of the resulting type. -/
theorem toChar_ofChar (c : Char) (t : ObsType) (h : ofChar c = some t) : toChar t = c := by
  unfold ofChar at h
  split at h <;> first | (cases h; rfl) | cases h

/-- **C10 (c)** exactly seven characters are accepted. -/
theorem ofChar_isSome (c : Char) :
    (ofChar c).isSome ↔ c ∈ ['L', 'C', 'W', 'F', 'P', 'T', 'H'] := by
  constructor
  · intro h
    obtain ⟨t, ht⟩ := Option.isSome_iff_exists.1 h
    rw [← toChar_ofChar c t ht]
    cases t <;> decide
  · intro h
    simp only [List.mem_cons, List.not_mem_nil, or_false] at h
    rcases h with rfl | rfl | rfl | rfl | rfl | rfl | rfl <;> rfl

/-- Specification: the codes of RINEX DORIS 3.0: frequency 1 or 2 for L, C, W and none (0) for
F, P, T, H. -/
def ValidCode (a : ObsCode) : Prop :=
  if toChar a.type ∈ ['L', 'C', 'W'] then a.freq = 1 ∨ a.freq = 2 else a.freq = 0

/-- **C10 (d)** every constructed code is valid. -/
theorem make_valid (t : ObsType) (f : Int) (a : ObsCode) (h : ObsCode.make t f = some a) :
    ValidCode a ∧ a.type = t := by
  unfold ObsCode.make at h
  simp only at h
  split at h
  · rename_i hf
    split at h
    · cases h
    · cases h
      refine ⟨?_, rfl⟩
      unfold ValidCode
      rw [if_pos (by cases t <;> first | (simp [toChar]; done) | cases hf)]
      simp only; omega
  · rename_i hf
    cases h
    refine ⟨?_, rfl⟩
    unfold ValidCode
    rw [if_neg (by cases t <;> first | decide | exact absurd rfl hf)]

/-- **C10 (e)** every valid code can be constructed, from its own type and frequency. -/
theorem make_of_valid (a : ObsCode) (h : ValidCode a) : ObsCode.make a.type a.freq = some a := by
  obtain ⟨t, f⟩ := a
  unfold ValidCode at h
  cases t <;> simp [toChar] at h <;> (try rcases h with rfl | rfl) <;> rfl

/-- **C10 (f)** for a frequency number in the range of the parameter type, construction fails
exactly for a carrier type with a frequency other than 1 and 2. -/
theorem make_none_iff (t : ObsType) (f : Int) (h1 : -128 ≤ f) (h2 : f ≤ 127) :
    ObsCode.make t f = none ↔ hasFrequency t = true ∧ f ≠ 1 ∧ f ≠ 2 := by
  have hf : toInt8 f = f := by
    unfold toInt8
    rw [Int.bmod_eq_of_le] <;> omega
  unfold ObsCode.make
  simp only [hf]
  cases ht : hasFrequency t
  · simp
  · simp only [if_true, true_and]
    constructor
    · intro h
      split at h
      · omega
      · cases h
    · intro h
      rw [if_pos (by omega)]

/-- Outside that range the number is silently wrapped: 257 is taken for frequency 1. -/
theorem make_wraps_counterexample : ObsCode.make .phase 257 = some ⟨.phase, 1⟩ := by decide

/-- **C10 (g)** two constructible codes print the same text only if they are equal. -/
theorem toStr_inj (a b : ObsCode) (ha : ValidCode a) (hb : ValidCode b)
    (h : a.toStr = b.toStr) : a = b := by
  obtain ⟨t, f⟩ := a
  obtain ⟨u, g⟩ := b
  simp only [ObsCode.toStr, List.cons.injEq, and_true] at h
  have ht : t = u := by
    have := congrArg ofChar h.1
    rw [ofChar_toChar, ofChar_toChar] at this
    exact Option.some.inj this
  subst ht
  have hr : ∀ x : Int, ValidCode ⟨t, x⟩ → x = 0 ∨ x = 1 ∨ x = 2 := by
    intro x hx
    unfold ValidCode at hx
    split at hx
    · simp only at hx; omega
    · simp only at hx; omega
  have h2 := h.2
  rcases hr f ha with rfl | rfl | rfl <;> rcases hr g hb with rfl | rfl | rfl <;>
    first | rfl | exact absurd h2 (by decide)

/-- `==` is equality. -/
theorem eq_iff (a b : ObsCode) : a.eq b = true ↔ a = b := by
  obtain ⟨t, f⟩ := a
  obtain ⟨u, g⟩ := b
  simp [ObsCode.eq]

example : ObsCode.make .powerLevel 2 = some ⟨.powerLevel, 2⟩ := by decide
example : ObsCode.make .groundHumidity 7 = some ⟨.groundHumidity, 0⟩ := by decide
example : (⟨.phase, 1⟩ : ObsCode).toStr = ['L', '1'] := by decide

/-! ### C11 -/

/-- **C11 (a)** at shift 0 the frequencies are 2036.25 MHz and 401.25 MHz. -/
theorem nominal_zero :
    beaconNominalFrequency 0 = (freq1MHz * 1e6, freq2MHz * 1e6) := by
  unfold beaconNominalFrequency usoF0 freq1MHz freq2MHz
  norm_num

/-- **C11 (b)** both frequencies are affine in the shift factor, with the DORIS law
`f = n F0 (3/4 + 87 k / (5·2^26))`, `n = 543, 107`. -/
theorem nominal_law (k : Int) :
    (beaconNominalFrequency k).1 = 543 * 5e6 * (3 / 4 + 87 * (k : ℝ) / (5 * 2 ^ 26)) ∧
    (beaconNominalFrequency k).2 = 107 * 5e6 * (3 / 4 + 87 * (k : ℝ) / (5 * 2 ^ 26)) := by
  unfold beaconNominalFrequency usoF0
  constructor <;> ring

/-- **C11 (c)** both are strictly increasing. -/
theorem nominal_strictMono (k l : Int) (h : k < l) :
    (beaconNominalFrequency k).1 < (beaconNominalFrequency l).1 ∧
    (beaconNominalFrequency k).2 < (beaconNominalFrequency l).2 := by
  have hr : (k : ℝ) < (l : ℝ) := by exact_mod_cast h
  rw [(nominal_law k).1, (nominal_law l).1, (nominal_law k).2, (nominal_law l).2]
  constructor <;> linarith

/-- **C11 (d)** the ratio of the two frequencies is the constant `GAMMA_FACTOR_SQRT` used by
the iono-free combination, for every shift factor (in product form, no division by zero). -/
theorem nominal_ratio (k : Int) :
    (beaconNominalFrequency k).1 = gammaSqrt * (beaconNominalFrequency k).2 := by
  rw [(nominal_law k).1, (nominal_law k).2]
  unfold gammaSqrt freq1MHz freq2MHz
  ring

/-- The frequencies are positive for every shift factor above -578 thousand, in particular for
every 16-bit one. -/
theorem nominal_pos (k : Int) (h : -32768 ≤ k) :
    0 < (beaconNominalFrequency k).1 ∧ 0 < (beaconNominalFrequency k).2 := by
  have hr : (-32768 : ℝ) ≤ (k : ℝ) := by exact_mod_cast h
  rw [(nominal_law k).1, (nominal_law k).2]
  constructor <;> linarith

example : (beaconNominalFrequency 0).1 = 2036250000 := by
  rw [nominal_zero]; unfold freq1MHz; norm_num

/-! ### C12 -/

theorem gamma_ne_one : gamma - 1 ≠ 0 := by
  unfold gamma gammaSqrt freq1MHz freq2MHz; norm_num

/-- A carrier observed on frequency `f` (Hz), in cycles: geometric range `rho`, first-order
ionospheric advance `iono / f²`, speed of light `c`. -/
noncomputable def carrier (rho iono f c : ℝ) : ℝ := (rho - iono / f ^ 2) * f / c

/-- **C12 (a)** For every range, every ionospheric content and every pair of non-zero
frequencies in the DORIS ratio, the corrected 2 GHz carrier is the ionosphere-free one. -/
theorem iono_removed (rho iono f1 f2 c : ℝ) (hf2 : f2 ≠ 0) (hr : f1 = gammaSqrt * f2) :
    carrier rho iono f1 c + carrierIonoCorrection (carrier rho iono f1 c) (carrier rho iono f2 c)
      = carrier rho 0 f1 c := by
  have hg : gammaSqrt ≠ 0 := by unfold gammaSqrt freq1MHz freq2MHz; norm_num
  have hgam := gamma_ne_one
  subst hr
  unfold carrierIonoCorrection carrier
  unfold gamma at hgam ⊢
  by_cases hc : c = 0
  · subst hc; simp
  · have key : (gammaSqrt ^ 2 - 1) ≠ 0 := by rw [pow_two]; exact hgam
    rw [← pow_two]
    field_simp
    ring

/-- **C12 (b)** In particular for the nominal frequencies of every beacon. -/
theorem iono_removed_beacon (rho iono c : ℝ) (k : Int) (h : -32768 ≤ k) :
    carrier rho iono (beaconNominalFrequency k).1 c +
      carrierIonoCorrection (carrier rho iono (beaconNominalFrequency k).1 c)
        (carrier rho iono (beaconNominalFrequency k).2 c)
      = carrier rho 0 (beaconNominalFrequency k).1 c :=
  iono_removed rho iono _ _ c (ne_of_gt (nominal_pos k h).2) (nominal_ratio k)

/-- **C12 (c)** without ionosphere the correction is zero. -/
theorem iono_none (rho f1 f2 c : ℝ) (hf2 : f2 ≠ 0) (hr : f1 = gammaSqrt * f2) :
    carrierIonoCorrection (carrier rho 0 f1 c) (carrier rho 0 f2 c) = 0 := by
  have := iono_removed rho 0 f1 f2 c hf2 hr
  linarith

/-- **C12 (d)** The iono-free phase centre is a combination of the two phase centres with
weights `γ/(γ-1)` and `-1/(γ-1)`, which sum to one; it is defined exactly for station ids whose
fourth character is A, B or C. -/
theorem phase_center (ch : Char) :
    (∀ t, antennaType ch = some t → ∃ v, ionoFreePhaseCenter ch = some v ∧
      ∀ i, v i = (gamma / (gamma - 1) * pco t false i + (-1 / (gamma - 1)) * pco t true i) * 1e-3) ∧
    (antennaType ch = none → ionoFreePhaseCenter ch = none) ∧
    gamma / (gamma - 1) + (-1 / (gamma - 1)) = 1 := by
  have hg := gamma_ne_one
  refine ⟨?_, ?_, ?_⟩
  · intro t ht
    unfold ionoFreePhaseCenter
    rw [ht]
    refine ⟨_, rfl, ?_⟩
    intro i
    cases t
    · simp [b2r]; left; field_simp; ring
    · simp [b2r]; left; field_simp; ring
    · have e1 : pco .starecC false = pco .starecB false := rfl
      have e2 : pco .starecC true = pco .starecB true := rfl
      rw [e1, e2]
      simp [b2r]; left; field_simp; ring
  · intro h; unfold ionoFreePhaseCenter; rw [h]; rfl
  · field_simp; ring

example : antennaType 'B' = some .starecB := rfl
example : ∃ f1 f2 : ℝ, f2 ≠ 0 ∧ f1 = gammaSqrt * f2 := ⟨gammaSqrt * 1, 1, one_ne_zero, rfl⟩

end Verif.SystemInfo
