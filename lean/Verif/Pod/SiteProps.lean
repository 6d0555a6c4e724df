import Verif.Pod.SiteModel
import Verif.SystemInfo.Props
import Verif.Corrections.Props
import Mathlib.Analysis.Real.Pi.Bounds
import Mathlib.Tactic.FieldSimp
import Mathlib.Tactic.Ring
import Mathlib.Tactic.Positivity

/-
C104: reference points of the beacons; C105: mass, centre of gravity and phase centre of the
satellites; C106: zenith angle of the troposphere.
-/
namespace Verif.Pod

open Verif.Astro Verif.SystemInfo

/-! ### C104 -/

/-- Specification: the height of a station, from the first entry of the table with its identifier. -/
def heightOf (tbl : List Height) (id : Id4) : Option ℝ := (tbl.find? (·.1 == id)).map (·.2)

/-- **C104** If every beacon is in the table, all are moved from their mark up along the local vertical
by the height of the table; identifiers and order are kept. -/
theorem prepare_ok (loc : V3 → M3) (tbl : List Height) (sites : List Site)
    (h : ∀ s ∈ sites, (heightOf tbl s.id).isSome) :
    prepare loc tbl sites
      = (0, sites.map fun s => ⟨s.id, s.pos.add ((loc s.pos).r2.smul ((heightOf tbl s.id).getD 0))⟩) := by
  induction sites with
  | nil => rfl
  | cons s l ih =>
    have hs := h s (by simp)
    have ih' := ih fun t ht => h t (by simp [ht])
    unfold prepare
    unfold heightOf at hs ⊢
    cases hf : tbl.find? (·.1 == s.id) with
    | none => rw [hf] at hs; cases hs
    | some e =>
      simp only [ih', List.map_cons, hf, Option.map_some, Option.getD_some]
      congr 2
      simp only [antennaPoint]
      congr 1
      congr 1
      ext <;> simp [M3.mulVec, M3.transpose, V3.dot, V3.smul, mul_comm]

/-- **C104** The code is nonzero exactly if a beacon is missing from the table. -/
theorem prepare_code (loc : V3 → M3) (tbl : List Height) (sites : List Site) :
    (prepare loc tbl sites).1 = if ∀ s ∈ sites, (heightOf tbl s.id).isSome then 0 else 1 := by
  induction sites with
  | nil => simp [prepare]
  | cons s l ih =>
    unfold prepare
    cases hf : tbl.find? (·.1 == s.id) with
    | none =>
      have : ¬ ∀ t ∈ s :: l, (heightOf tbl t.id).isSome = true := by
        intro hc
        have := hc s (by simp)
        unfold heightOf at this
        rw [hf] at this
        cases this
      rw [if_neg this]
    | some e =>
      have hs : (heightOf tbl s.id).isSome = true := by
        unfold heightOf
        rw [hf]
        rfl
      simp only [ih, List.forall_mem_cons, hs, true_and]

/-- **C104** In a frame of unit vectors the antenna is exactly its height away from the mark. -/
theorem antenna_distance (loc : V3 → M3) (p : V3) (h : ℝ) (hu : (loc p).r2.dot (loc p).r2 = 1) :
    ((antennaPoint loc p h).sub p).norm = |h| := by
  have : (antennaPoint loc p h).sub p = (loc p).r2.smul h := by
    ext <;> simp [antennaPoint, V3.add, V3.sub, M3.mulVec, M3.transpose, V3.dot, V3.smul, mul_comm]
  rw [this]
  have h2 : ((loc p).r2.smul h).dot ((loc p).r2.smul h) = h ^ 2 * ((loc p).r2.dot (loc p).r2) := by
    simp only [V3.smul, V3.dot]
    ring
  unfold V3.norm
  rw [h2, hu, mul_one, Real.sqrt_sq_eq_abs]

/-- **C104** After a failure the beacons before the missing one have been moved and the others not. -/
theorem prepare_failure (loc : V3 → M3) (tbl : List Height) (a b : List Site) (s : Site)
    (ha : ∀ t ∈ a, (heightOf tbl t.id).isSome) (hs : heightOf tbl s.id = none) :
    prepare loc tbl (a ++ s :: b) = (1, (prepare loc tbl a).2 ++ s :: b) := by
  induction a with
  | nil =>
    have hf : tbl.find? (·.1 == s.id) = none := by
      unfold heightOf at hs
      simpa using hs
    simp only [List.nil_append, prepare, hf]
  | cons t l ih =>
    have ht := ha t (by simp)
    have ih' := ih fun u hu => ha u (by simp [hu])
    unfold heightOf at ht
    cases hf : tbl.find? (·.1 == t.id) with
    | none => rw [hf] at ht; cases ht
    | some e => simp only [List.cons_append, prepare, hf, ih']

/-- **C104** The coordinates of a beacon are found under its identifier, and only for a beacon that
was in the list of coordinates: for one that the coordinate file lacks the assertion fails. -/
theorem coordinates_iff (sites : List Site) (id : Id4) :
    (beaconCoordinates sites id = none ↔ ∀ s ∈ sites, s.id ≠ id) ∧
    (∀ s ∈ sites, (∀ t ∈ sites, t.id = s.id → t = s) → s.id = id → beaconCoordinates sites id = some s.pos) := by
  unfold beaconCoordinates
  constructor
  · simp [List.find?_eq_none]
  · intro s hs huniq hid
    cases hf : sites.find? (·.id == id) with
    | none =>
      rw [List.find?_eq_none] at hf
      exact absurd (by simpa using hid) (hf s hs)
    | some t =>
      have h1 := List.mem_of_find?_eq_some hf
      have h2 : t.id = id := by simpa using List.find?_some hf
      rw [huniq t h1 (by rw [h2, hid])]
      rfl

/-- **C104** The point used in the observation equation lies above the antenna along the local vertical,
by the ionosphere-free combination of the two phase centres; it exists exactly for identifiers ending
in A, B or C. -/
theorem arp2ion_spec (loc : V3 → M3) (p : V3) (id : Id4) :
    (antennaType id.2.2.2 = none → arp2ion loc p id = none) ∧
    (∀ t, antennaType id.2.2.2 = some t → arp2ion loc p id = some (p.add ((loc p).r2.smul
      ((gamma / (gamma - 1) * pco t false 2 + (-1 / (gamma - 1)) * pco t true 2) * 1e-3)))) := by
  obtain ⟨h1, h2, _⟩ := phase_center id.2.2.2
  constructor
  · intro hn
    unfold arp2ion
    rw [h2 hn]
    rfl
  · intro t ht
    obtain ⟨v, hv, hvi⟩ := h1 t ht
    unfold arp2ion
    rw [hv]
    simp only [Option.map_some, Option.some.injEq]
    congr 1
    have e0 : v 0 = 0 := by rw [hvi]; cases t <;> simp [pco]
    have e1 : v 1 = 0 := by rw [hvi]; cases t <;> simp [pco]
    rw [e0, e1, ← hvi 2]
    ext <;> simp [M3.mulVec, M3.transpose, V3.dot, V3.smul, mul_comm]

/-! ### C105 -/

/-- **C105** Mass and centre of gravity are the initial ones plus the corrections read; if these cannot
be read, the outputs are left alone and 1 is returned. -/
theorem massCog_spec (sat : Sat) (status : Nat) (a b c d : ℚ) (mass : ℚ) (cog : ℚ × ℚ × ℚ) :
    massCog sat (.ret 0 [a, b, c, d]) mass cog
      = some (0, sat.mass + a, (sat.cog.1 + b, sat.cog.2.1 + c, sat.cog.2.2 + d)) ∧
    (status ≠ 0 → massCog sat (.ret status [a, b, c, d]) mass cog = some (1, mass, cog)) := by
  refine ⟨rfl, fun h => ?_⟩
  unfold massCog
  simp [h]

/-- **C105** With a file as in C39 they are the initial values plus the corrections in force at the
epoch. -/
theorem massCog_file (sat : Sat) (fc : Corrections.FromChars) (jd sec : ℚ) (rs : List Corrections.Record)
    (hok : ∀ r ∈ rs, r.Ok fc) (hc : Corrections.Chronological rs) (hsec : ∀ r ∈ rs, sec ≤ r.sec.val)
    (hne : ∀ r ∈ rs, ¬ (r.day.val = jd ∧ r.sec.val = sec)) (d : List ℚ) (mass : ℚ) (cog : ℚ × ℚ × ℚ) :
    ∃ a b c e, Corrections.inForce jd sec rs = [a, b, c, e] ∧
      massCog sat (Corrections.corrections fc jd sec (some (rs.map fun r => ⟨r.text, true⟩)) d) mass cog
        = some (0, sat.mass + a, (sat.cog.1 + b, sat.cog.2.1 + c, sat.cog.2.2 + e)) := by
  rw [Corrections.corrections_in_force_partial fc jd sec rs hok hc hsec hne d]
  have h4 : ∃ a b c e, Corrections.inForce jd sec rs = [a, b, c, e] := by
    unfold Corrections.inForce
    cases (rs.filter (Corrections.notLater jd sec)).getLast? with
    | none => exact ⟨0, 0, 0, 0, rfl⟩
    | some r => exact ⟨_, _, _, _, rfl⟩
  obtain ⟨a, b, c, e, h⟩ := h4
  exact ⟨a, b, c, e, h, by rw [h]; rfl⟩

/-- Specification: the phase centre that belongs to ionosphere-free phases, weights as in C12. -/
noncomputable def ionoFree (l1 l2 : V3) : V3 := (l1.smul (gamma / (gamma - 1))).sub (l2.smul (1 / (gamma - 1)))

/-- The program's combination, exactly: the correction has the opposite sign. -/
theorem l3pco_eq (l1 l2 : V3) : l3pco l1 l2 = (ionoFree l1 l2).sub ((l1.sub l2).smul (2 / (gamma - 1))) := by
  have hg := gamma_ne_one
  ext <;> simp only [l3pco, ionoFree, V3.add, V3.sub, V3.smul] <;> field_simp <;> ring

/-- **C105** The phase centre of the satellite is not the ionosphere-free one: for Jason-3 it lies more
than 13 mm too low along the z axis of the satellite (the beacons have the right sign, C12). -/
theorem l3pco_counterexample :
    (l3pco Sat.jason3.pco.1 Sat.jason3.pco.2).z < (ionoFree Sat.jason3.pco.1 Sat.jason3.pco.2).z - 0.013 := by
  rw [l3pco_eq]
  simp only [V3.sub, V3.smul, Sat.pco]
  have : gamma - 1 < 25 ∧ 0 < gamma - 1 := by
    unfold gamma gammaSqrt freq1MHz freq2MHz
    norm_num
  have h : (0.08 : ℝ) < 2 / (gamma - 1) := by
    rw [lt_div_iff₀ this.2]
    linarith [this.1]
  have h2 : (0.08 : ℝ) * (0.9235 - 0.7555) < 2 / (gamma - 1) * (0.9235 - 0.7555) :=
    mul_lt_mul_of_pos_right h (by norm_num)
  norm_num at h2 ⊢
  linarith

/-- **C105** (partial: only if both phase centres coincide) the point is the ionosphere-free one.
Missing: distinct phase centres. -/
theorem l3pco_partial (l : V3) : l3pco l l = ionoFree l l := by
  rw [l3pco_eq]
  ext <;> simp [V3.sub, V3.smul]

/-! ### C106 -/

/-- **C106** With the gridded model the mapping functions are taken at the zenith angle. -/
theorem tropoGpt_angle (zhd zwd mfh mfw zd : ℝ) (vmf3 : ℝ → Option (ℝ × ℝ)) (h : vmf3 zd = some (mfh, mfw)) :
    tropoGpt (some (zhd, zwd)) vmf3 zd = some (zhd, mfh, zwd, mfw) := by
  simp [tropoGpt, h]

/-- **C106** With site-wise data, the variant the program uses, the angle is converted from degrees to
radians although it is in radians: for every satellite off the zenith the mapping functions are
asked for another angle, at most 1.6 degrees if `vmf3`, which is not part of the repository, takes
radians. -/
theorem tropoVmf_counterexample (zhd zwd zd : ℝ) (mf : ℝ → ℝ × ℝ) (h0 : 0 < zd) (h1 : zd ≤ Real.pi / 2) :
    ∃ z, z ≠ zd ∧ 0 < z ∧ z ≤ Real.pi * (1.6 / 180) ∧
      tropoVmf (some (zhd, zwd)) (fun z => some (mf z)) zd = some (zhd, (mf z).1, zwd, (mf z).2) := by
  have hpi := Real.pi_pos
  have hpi4 := Real.pi_le_four
  refine ⟨zd * Real.pi / 180, ?_, by positivity, ?_, rfl⟩
  · intro h
    have h2 : zd * (Real.pi - 180) = 0 := by linarith
    rcases mul_eq_zero.1 h2 with h3 | h3 <;> linarith
  · have : zd ≤ 1.6 := by
      have := Real.pi_lt_d4
      linarith
    have := mul_le_mul_of_nonneg_right this hpi.le
    linarith

/-- **C106** (partial: only at the zenith) the site-wise variant uses the zenith angle. -/
theorem tropoVmf_partial (zhd zwd mfh mfw : ℝ) (vmf3 : ℝ → Option (ℝ × ℝ)) (h : vmf3 0 = some (mfh, mfw)) :
    tropoVmf (some (zhd, zwd)) vmf3 0 = some (zhd, mfh, zwd, mfw) := by
  simp [tropoVmf, h]

/-! ### Examples -/

example : prepare (fun _ => M3.one) [(('T', 'L', 'S', 'B'), 2)] [⟨('T', 'L', 'S', 'B'), ⟨1, 2, 3⟩⟩]
    = (0, [⟨('T', 'L', 'S', 'B'), ⟨1, 2, 5⟩⟩]) := by
  rw [prepare_ok _ _ _ (by decide)]
  simp only [List.map_cons, List.map_nil]
  have : (heightOf [(('T', 'L', 'S', 'B'), 2)] ('T', 'L', 'S', 'B')).getD 0 = 2 := by
    simp [heightOf]
  rw [this]
  simp only [M3.one, V3.smul, V3.add]
  norm_num

example : massCog .jason3 (.ret 0 [-1, 0, 0, 0.001]) 0 (0, 0, 0) = some (0, 508.6, (1.0023, 0, -0.0011)) := by
  decide +kernel

end Verif.Pod
