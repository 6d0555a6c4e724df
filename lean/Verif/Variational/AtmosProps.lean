import Verif.Variational.AtmosModel
import Verif.Forces.Frames
import Mathlib.Tactic.Linarith
import Mathlib.Tactic.NormNum
import Mathlib.Tactic.FieldSimp

/-
C112: what the atmosphere model is evaluated for during orbit integration.
-/
namespace Verif.Variational

open Verif.Astro Verif.Forces Verif.Atmosphere

/-! ### Specification -/

/-- The input has the place with Cartesian coordinates `xyz`. -/
def AtPlace (E : AtmExt) (xyz : V3) (x : Msis.In ℝ) : Prop :=
  x.glon * Real.pi = 180 * (E.lfh xyz).x ∧ x.glat * Real.pi = 180 * (E.lfh xyz).y ∧ 1000 * x.alt = (E.lfh xyz).z

/-- The input has the date and the space weather of the instant `ms` milliseconds after the begin of the day `mjd`. -/
def AtDate (E : AtmExt) (mjd ms : ℤ) (x : Msis.In ℝ) : Prop :=
  x.doy = (E.stamp mjd ms).1 ∧ x.sec = (E.stamp mjd ms).2 ∧
    (x.f107A, x.f107, x.ap, x.aparr) = E.feed (E.stamp mjd ms).1 (E.stamp mjd ms).2

/-- Universal time, local time and longitude are consistent (src/atmosphere/nrlmsise00.hpp:172-178), up to whole days. -/
def Consistent (x : Msis.In ℝ) : Prop := ∃ k : ℤ, x.lst = x.sec / 3600 + x.glon / 15 + 24 * k

/-- Switches and units are those of the record before. -/
def SameSettings (x y : Msis.In ℝ) : Prop := y.sw = x.sw ∧ y.swc = x.swc ∧ y.meters = x.meters

/-! ### Proofs -/

theorem setSpatial_place (E : AtmExt) (x : Msis.In ℝ) (p : V3) : AtPlace E p (setSpatial E x p) := by
  have := Real.pi_ne_zero
  refine ⟨?_, ?_, ?_⟩
  · show (E.lfh p).x * 180 / Real.pi * Real.pi = _
    field_simp
  · show (E.lfh p).y * 180 / Real.pi * Real.pi = _
    field_simp
  · show 1000 * ((E.lfh p).z / 1000) = _
    ring

/-- The part of a record that `setSpatial` leaves alone. -/
def Rest (x y : Msis.In ℝ) : Prop :=
  SameSettings x y ∧ y.doy = x.doy ∧ y.sec = x.sec ∧ y.lst = x.lst ∧
    (y.f107A, y.f107, y.ap, y.aparr) = (x.f107A, x.f107, x.ap, x.aparr)

theorem Rest.refl (x : Msis.In ℝ) : Rest x x := ⟨⟨rfl, rfl, rfl⟩, rfl, rfl, rfl, rfl⟩

theorem densityInputs_spec (E : AtmExt) (r : V3) (ds : List V3) (x : Msis.In ℝ) :
    (densityInputs E r ds x).length = ds.length ∧
      ∀ i (h : i < (densityInputs E r ds x).length) (h' : i < ds.length),
        AtPlace E (r.add ds[i]) (densityInputs E r ds x)[i] ∧ Rest x (densityInputs E r ds x)[i] := by
  induction ds generalizing x with
  | nil => exact ⟨rfl, fun i h => absurd h (Nat.not_lt_zero i)⟩
  | cons d ds ih =>
    obtain ⟨hl, hi⟩ := ih (setSpatial E x (r.add d))
    refine ⟨by simp [densityInputs, hl], ?_⟩
    intro i h h'
    match i with
    | 0 => exact ⟨setSpatial_place E x _, Rest.refl x⟩
    | i + 1 =>
      have := hi i (by simpa [densityInputs] using h) (by simpa using h')
      exact this

theorem evaluation_lst (E : AtmExt) (x : Msis.In ℝ) (mjd : ℤ) (secday : ℝ) (r : V3) :
    (∀ y ∈ (evaluation E x mjd secday r).1, y.lst = x.lst) ∧ (evaluation E x mjd secday r).2.lst = x.lst := by
  have h : ∀ y ∈ (evaluation E x mjd secday r).1, y.lst = x.lst := by
    intro y hy
    obtain ⟨i, hi, rfl⟩ := List.getElem_of_mem hy
    have := (densityInputs_spec E r displacements (updateParams E x mjd secday)).2 i hi
      (by rw [← (densityInputs_spec E r displacements (updateParams E x mjd secday)).1]; exact hi)
    exact this.2.2.2.2.1
  exact ⟨h, rfl⟩

/-- **C112.**  Every evaluation has the date and the space weather of the instant asked for (to the millisecond) and the place
of the position handed to it, displaced by nothing, by a metre either way along the first and the second axis, and twice by a
metre forward along the third; switches and units stay as they were set; there are seven evaluations.  Missing: local time, and
that the position is Earth-fixed; neither holds. -/
theorem density_inputs_partial (E : AtmExt) (x : Msis.In ℝ) (mjd : ℤ) (secday : ℝ) (r : V3) :
    (evaluation E x mjd secday r).1.length = 7 ∧
      ∀ i (h : i < (evaluation E x mjd secday r).1.length) (h' : i < 7),
        AtPlace E (r.add (([⟨0, 0, 0⟩, ⟨1, 0, 0⟩, ⟨-1, 0, 0⟩, ⟨0, 1, 0⟩, ⟨0, -1, 0⟩, ⟨0, 0, 1⟩, ⟨0, 0, 1⟩] : List V3)[i]'h'))
            (evaluation E x mjd secday r).1[i] ∧
          AtDate E mjd (toMs (secday * 1000)) (evaluation E x mjd secday r).1[i] ∧
          SameSettings x (evaluation E x mjd secday r).1[i] := by
  obtain ⟨hl, hi⟩ := densityInputs_spec E r displacements (updateParams E x mjd secday)
  refine ⟨hl, ?_⟩
  intro i h h'
  obtain ⟨h1, h2, h3, h4, -, h5⟩ := hi i h h'
  exact ⟨h1, ⟨h3, h4, h5⟩, h2⟩

/-- The milliseconds are those of the seconds, rounded down. -/
theorem ms_close (secday : ℝ) (h : 0 ≤ secday) :
    (toMs (secday * 1000) : ℝ) ≤ secday * 1000 ∧ secday * 1000 < toMs (secday * 1000) + 1 := by
  unfold toMs
  rw [if_pos (by positivity)]
  exact ⟨Int.floor_le _, Int.lt_floor_add_one _⟩

/-- No evaluation of any integration sets the local time: it is what memory held before. -/
theorem local_time_unset (E : AtmExt) (x : Msis.In ℝ) (l : List (ℤ × ℝ × V3)) :
    ∀ e ∈ integration E x l, ∀ y ∈ e, y.lst = x.lst := by
  induction l generalizing x with
  | nil => intro e he; simp [integration] at he
  | cons a l ih =>
    obtain ⟨mjd, secday, r⟩ := a
    intro e he y hy
    simp only [integration, List.mem_cons] at he
    obtain ⟨h1, h2⟩ := evaluation_lst E x mjd secday r
    rcases he with rfl | he
    · exact h1 y hy
    · rw [ih _ e he y hy, h2]

/-- **C112 is false.**  Local time is never set: of two evaluations at the same instant at longitudes that differ by other than
whole turns, at least one is inconsistent, whatever memory held. -/
theorem local_time_counterexample (E : AtmExt) (x : Msis.In ℝ) (mjd : ℤ) (secday : ℝ) (r r' : V3)
    (hr : ∀ k : ℤ, (E.lfh (r.add ⟨0, 0, 0⟩)).x ≠ (E.lfh (r'.add ⟨0, 0, 0⟩)).x + 2 * Real.pi * k) :
    ∃ y ∈ (evaluation E x mjd secday r).1 ++ (evaluation E x mjd secday r').1, ¬ Consistent y := by
  have hπ := Real.pi_ne_zero
  by_contra hc
  have hc : ∀ y ∈ (evaluation E x mjd secday r).1 ++ (evaluation E x mjd secday r').1, Consistent y := by
    intro y hy
    by_contra h
    exact hc ⟨y, hy, h⟩
  obtain ⟨k, hk⟩ := hc (setSpatial E (updateParams E x mjd secday) (r.add ⟨0, 0, 0⟩))
    (List.mem_append.mpr (Or.inl (List.mem_cons_self ..)))
  obtain ⟨k', hk'⟩ := hc (setSpatial E (updateParams E x mjd secday) (r'.add ⟨0, 0, 0⟩))
    (List.mem_append.mpr (Or.inr (List.mem_cons_self ..)))
  have e : (E.lfh (r.add ⟨0, 0, 0⟩)).x * 180 / Real.pi / 15 + 24 * k =
      (E.lfh (r'.add ⟨0, 0, 0⟩)).x * 180 / Real.pi / 15 + 24 * k' := by
    have h1 : x.lst = (updateParams E x mjd secday).sec / 3600 + (E.lfh (r.add ⟨0, 0, 0⟩)).x * 180 / Real.pi / 15 + 24 * k := hk
    have h2 : x.lst = (updateParams E x mjd secday).sec / 3600 + (E.lfh (r'.add ⟨0, 0, 0⟩)).x * 180 / Real.pi / 15 + 24 * k' := hk'
    linarith
  apply hr (k' - k)
  field_simp at e
  push_cast
  linarith

/-- **C112 is false.**  The place is that of the celestial coordinates: after a quarter turn of the Earth the longitude of a
satellite over the x axis is taken to be that of the x axis, not that of the Earth-fixed position. -/
theorem celestial_place_counterexample (E : AtmExt) (x : Msis.In ℝ) (mjd : ℤ) (secday a : ℝ)
    (hE : (E.lfh ⟨a, 0, 0⟩).x ≠ (E.lfh ⟨0, -a, 0⟩).x) :
    ∃ y ∈ (evaluation E x mjd secday ⟨a, 0, 0⟩).1,
      AtPlace E ⟨a, 0, 0⟩ y ∧ ¬ AtPlace E (rcel2ter ⟨a, 0, 0⟩ M3.one (Real.pi / 2) M3.one) y := by
  have e0 : (⟨a, 0, 0⟩ : V3).add ⟨0, 0, 0⟩ = ⟨a, 0, 0⟩ := by simp [V3.add]
  have er : rcel2ter ⟨a, 0, 0⟩ M3.one (Real.pi / 2) M3.one = ⟨0, -a, 0⟩ := by
    simp [rcel2ter, c2t, M3.rotZ, M3.one, M3.mul, M3.mulVec, M3.transpose, V3.dot, Real.cos_neg, Real.sin_neg]
  have hp := setSpatial_place E (updateParams E x mjd secday) ((⟨a, 0, 0⟩ : V3).add ⟨0, 0, 0⟩)
  refine ⟨_, List.mem_cons_self .., by rw [e0] at hp ⊢; exact hp, ?_⟩
  rw [er]
  rintro ⟨h, -, -⟩
  apply hE
  have := hp.1
  rw [e0] at this
  simp only [e0] at h
  linarith

/-! ### Instances -/

/-- A sphere, a calendar of equal days and quiet conditions. -/
noncomputable def sphereExt : AtmExt where
  stamp := fun d ms => (d % 365, ms / 1000)
  feed := fun _ _ => (150, 150, 4, fun _ => 4)
  lfh := fun p => ⟨if p.y = 0 ∧ 0 < p.x then 0 else if p.x = 0 ∧ p.y < 0 then -(Real.pi / 2) else 1, 0, p.norm⟩

example (x : Msis.In ℝ) (mjd : ℤ) (secday : ℝ) :
    ∃ y ∈ (evaluation sphereExt x mjd secday ⟨1, 0, 0⟩).1,
      AtPlace sphereExt ⟨1, 0, 0⟩ y ∧ ¬ AtPlace sphereExt (rcel2ter ⟨1, 0, 0⟩ M3.one (Real.pi / 2) M3.one) y := by
  refine celestial_place_counterexample _ x mjd secday 1 ?_
  have := Real.pi_pos
  simp only [sphereExt]
  rw [if_pos ⟨by norm_num, by norm_num⟩, if_neg (by norm_num), if_pos ⟨by norm_num, by norm_num⟩]
  linarith

example (x : Msis.In ℝ) (mjd : ℤ) (secday : ℝ) :
    ∃ y ∈ (evaluation sphereExt x mjd secday ⟨1, 0, 0⟩).1 ++ (evaluation sphereExt x mjd secday ⟨0, -1, 0⟩).1,
      ¬ Consistent y := by
  refine local_time_counterexample _ x mjd secday _ _ ?_
  intro k hk
  have hπ := Real.pi_pos
  simp only [sphereExt, V3.add] at hk
  rw [if_pos ⟨by norm_num, by norm_num⟩, if_neg (by norm_num), if_pos ⟨by norm_num, by norm_num⟩] at hk
  have h2 : (4 : ℝ) * k = 1 := by
    have : Real.pi * (4 * k - 1) = 0 := by linarith
    rcases mul_eq_zero.mp this with h | h
    · exact absurd h hπ.ne'
    · linarith
  have h3 : (4 : ℤ) * k = 1 := by exact_mod_cast h2
  omega

end Verif.Variational
