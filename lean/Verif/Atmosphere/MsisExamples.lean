import Verif.Atmosphere.MsisCounter
import Mathlib.Analysis.SpecialFunctions.Trigonometric.Basic
import Mathlib.Analysis.SpecialFunctions.Pow.Real

/-
C64: instances of the hypotheses with the compiled tables.
-/
namespace Verif.Atmosphere.Msis

open Data

/-- The library functions over the reals. -/
noncomputable def realFns : Fns ℝ where
  sin := Real.sin
  cos := Real.cos
  exp := Real.exp
  log := Real.log
  pow := fun a b => a ^ b
  deg2rad := fun a => a * Real.pi / 180

/-- Latitudes and local times that the caches can tell apart. -/
theorem spread_example : Spread ({0, 10, 45} : Set ℝ) where
  apart := by
    intro u hu v hv
    simp only [Set.mem_insert_iff, Set.mem_singleton_iff] at hu hv
    rcases hu with rfl | rfl | rfl <;> rcases hv with rfl | rfl | rfl <;>
      simp only [Apart, nearzero] <;> norm_num [abs_of_pos, abs_of_neg]
  init := by
    intro u hu
    simp only [Set.mem_insert_iff, Set.mem_singleton_iff] at hu
    rcases hu with rfl | rfl | rfl <;> simp only [nearzero] <;> norm_num [abs_of_pos]

theorem tabR_pt : tabR.ptm 0 ≠ 0 ∧ tabR.p .pt 0 ≠ 0 ∧ tabR.p .pt 1 ≠ 0 := by
  have h : tabQ.ptm 0 ≠ 0 ∧ tabQ.p .pt 0 ≠ 0 ∧ tabQ.p .pt 1 ≠ 0 := by decide +kernel
  simp only [tabR]
  exact ⟨Rat.cast_ne_zero.mpr h.1, Rat.cast_ne_zero.mpr h.2.1, Rat.cast_ne_zero.mpr h.2.2⟩

/-- An input with all switches on. -/
noncomputable def sampleIn (lat lst alt : ℝ) (doy : ℤ) : In ℝ where
  sw := fun _ => 1
  swc := fun _ => 1
  doy := doy
  sec := 43200
  alt := alt
  glat := lat
  glon := 20
  lst := lst
  f107A := 150
  f107 := 140
  ap := 12
  aparr := fun _ => 12
  meters := true

/-- Two earlier evaluations at 500 and 20 km do not influence the densities at 800 km. -/
example (s s' : St ℝ) (hs : Fresh tabR s) (hs' : Fresh tabR s') (old : Out ℝ) (tz tz' : ℝ) :
    (gtd7 realFns tabR tz (sampleIn 10 0 800 200) 48 old
      (runAll realFns tabR s [⟨sampleIn 45 10 500 199, 48, old, tz⟩, ⟨sampleIn 0 45 20 200, 48, old, tz⟩])).1
      = (gtd7 realFns tabR tz' (sampleIn 10 0 800 200) 48 old s').1 := by
  refine gtd7_history_partial (Lat := {0, 10, 45}) (Lst := {0, 10, 45}) tabR_ok spread_example
    spread_example _ ⟨sampleIn 10 0 800 200, 48, old, tz⟩ ?_ s s' hs hs' ?_ ?_ tz'
  · intro d hd
    simp only [List.mem_cons, List.not_mem_nil, or_false] at hd
    rcases hd with rfl | rfl | rfl <;> constructor <;> simp [sampleIn]
  · left
    show (800 : ℝ) > 32.5
    norm_num
  · left
    show (800 : ℝ) ≥ 72.5
    norm_num

/-- At 32.5 km the returned temperature is whatever storage held. -/
example (s : St ℝ) (old : Out ℝ) (tz : ℝ) :
    (gtd7 realFns tabR tz (sampleIn 10 0 32.5 200) 48 old s).1.t1 = s.tn3 0 :=
  unset_node_counterexample Real.abs_cos_le_one _ rfl 48 old tz s

/-- Rough library functions over the rationals, to evaluate the model. -/
def roughFns : Fns ℚ where
  sin := id
  cos := fun _ => 1
  exp := fun _ => 1
  log := fun _ => 0
  pow := fun _ _ => 1
  deg2rad := id

/-- The latitude terms differ within the tolerance (hypothesis of `near_latitude_counterexample`). -/
example : latTerms (tabQ.p .pt) (legendre roughFns 10) ≠
    latTerms (tabQ.p .pt) (legendre roughFns (10 + 1 / 2000000)) := by decide +kernel

/-- A new instance over the rationals; `v` is the indeterminate content of `dm28`. -/
def blank (v : ℚ) : St ℚ where
  xl := 1000
  tll := 1000
  gdoy := -1
  g14 := 1000
  g18 := 1000
  g32 := 1000
  g39 := 1000
  gcd := ⟨0, 0, 0, 0⟩
  sdoy := -1
  s14 := 1000
  s18 := 1000
  s32 := 1000
  s39 := 1000
  scd := ⟨0, 0, 0, 0⟩
  p24 := fun a => tabQ.p a 24
  p99 := fun a => tabQ.p a 99
  plg := legendre roughFns 0
  trig := trigOf roughFns 0
  dfa := 0
  apdf := 0
  apt0 := 0
  tn1 := fun _ => 1
  tn2 := fun _ => 1
  tn3 := fun _ => 1
  tgn1 := fun _ => 0
  tgn2 := fun _ => 0
  tgn3 := fun _ => 0
  gsurf := 1
  re := 1
  dd := 0
  dm28 := v
  tlb := 1
  xg0 := 0
  dm28m := 0

/-- An input with all switches off, among them switch 14 (departures from diffusive equilibrium). -/
def offIn : In ℚ where
  sw := fun _ => 0
  swc := fun _ => 0
  doy := 1
  sec := 0
  alt := 50
  glat := 0
  glon := 0
  lst := 0
  f107A := 150
  f107 := 150
  ap := 4
  aparr := fun _ => 4
  meters := false

/-- **C64 is false below 72.5 km with switch 14 off.**  The nitrogen density is then computed from the
member `dm28`, which this evaluation does not write. -/
theorem stale_mix_counterexample :
    (gtd7 roughFns tabQ 0 offIn 48 ⟨fun _ => 0, 0, 0⟩ (blank 1)).1.d 2 ≠
      (gtd7 roughFns tabQ 0 offIn 48 ⟨fun _ => 0, 0, 0⟩ (blank 2)).1.d 2 := by
  decide +kernel

end Verif.Atmosphere.Msis
