import Verif.Pcv.Model
import Mathlib.Tactic.Linarith
import Mathlib.Tactic.FieldSimp
import Mathlib.Tactic.Ring
import Mathlib.Tactic.Positivity

/-! C60: phase-centre variations. -/
namespace Verif.Pcv
open Verif.SystemInfo (AntType)

/-! ### Specification -/

/-- Linear interpolation between `(x0, y0)` and `(x0 + 5, y1)`. -/
noncomputable def lin5 (x0 y0 y1 x : ℝ) : ℝ :=
  y0 * (1 - (x - x0) / 5) + y1 * ((x - x0) / 5)

theorem table_length (a : AntType) : (table a).length = 19 := by cases a <;> rfl

theorem rad2deg_lt {z : ℝ} (h : z < Real.pi / 2) : rad2deg z < 90 := by
  unfold rad2deg
  have := Real.pi_pos
  rw [div_lt_iff₀ this]; linarith

theorem rad2deg_nonneg {z : ℝ} (h : 0 ≤ z) : 0 ≤ rad2deg z := by
  unfold rad2deg
  have := Real.pi_pos
  positivity

theorem interpolate_eq (a : AntType) (x : ℝ) (k : Nat) (hk : k < 18) (h1 : 5 * (k : ℝ) ≤ x)
    (h2 : x < 5 * ((k : ℝ) + 1)) :
    ∃ y0 y1, (table a)[k]? = some y0 ∧ (table a)[k + 1]? = some y1 ∧
      interpolate (table a) x = some (lin5 (5 * k) y0 y1 x) := by
  have hf : ⌊x / 5⌋ = (k : Int) := by
    rw [Int.floor_eq_iff]
    constructor
    · rw [le_div_iff₀ (by norm_num)]; push_cast; linarith
    · rw [div_lt_iff₀ (by norm_num)]; push_cast; linarith
  have hl := table_length a
  have e0 : (table a)[k]? = some (table a)[k] := List.getElem?_eq_getElem (by omega)
  have e1 : (table a)[k + 1]? = some (table a)[k + 1] := List.getElem?_eq_getElem (by omega)
  refine ⟨_, _, e0, e1, ?_⟩
  unfold interpolate
  simp only [hf, Int.toNat_natCast, e0, e1]
  rw [if_neg (by omega)]
  unfold lin5
  congr 1
  push_cast
  ring

/-- **C60 (a), partial** For every antenna and every zenith angle in `[0, 90°)` there is one
table interval containing the angle, the result is the linear interpolation between its two
nodes, the table is not left and nothing is flagged.  Missing: 90° itself, where the code reads
behind the table (`pcv1_ninety_counterexample`). -/
theorem pcv1_interpolates_partial (a : AntType) (z : ℝ) (h0 : 0 ≤ z) (h1 : z < Real.pi / 2) :
    ∃ k : Nat, k < 18 ∧ 5 * (k : ℝ) ≤ rad2deg z ∧ rad2deg z < 5 * ((k : ℝ) + 1) ∧
      ∃ y0 y1, (table a)[k]? = some y0 ∧ (table a)[k + 1]? = some y1 ∧
        (pcv1 a z).value = some (lin5 (5 * k) y0 y1 (rad2deg z)) ∧ (pcv1 a z).outOfBounds = 0 := by
  have hx0 := rad2deg_nonneg h0
  have hx1 := rad2deg_lt h1
  have hfl : 0 ≤ ⌊rad2deg z / 5⌋ := Int.floor_nonneg.2 (by positivity)
  obtain ⟨k, hk⟩ := Int.eq_ofNat_of_zero_le hfl
  rw [Int.floor_eq_iff] at hk
  push_cast at hk
  obtain ⟨a1, a2⟩ := hk
  rw [le_div_iff₀ (by norm_num)] at a1
  rw [div_lt_iff₀ (by norm_num)] at a2
  have hk18 : k < 18 := by
    have : (k : ℝ) < 18 := by linarith
    exact_mod_cast this
  refine ⟨k, hk18, by linarith, by linarith, ?_⟩
  obtain ⟨y0, y1, e0, e1, e⟩ := interpolate_eq a (rad2deg z) k hk18 (by linarith) (by linarith)
  have hin : ¬ (z < 0 ∨ z > Real.pi / 2) := by
    rintro (h | h) <;> linarith
  refine ⟨y0, y1, e0, e1, ?_, ?_⟩
  · unfold pcv1; rw [if_neg hin]; exact e
  · unfold pcv1; rw [if_neg hin]

/-- **C60 (b)** at the nodes `0°, 5°, …, 85°` the table value is returned. -/
theorem pcv1_node (a : AntType) (k : Nat) (hk : k < 18) :
    (pcv1 a (5 * k * Real.pi / 180)).value = (table a)[k]? := by
  have hpi := Real.pi_pos
  have hk' : (k : ℝ) < 18 := by exact_mod_cast hk
  have hz1 : 5 * (k : ℝ) * Real.pi / 180 < Real.pi / 2 := by
    rw [div_lt_div_iff₀ (by norm_num) (by norm_num)]
    nlinarith
  have hdeg : rad2deg (5 * k * Real.pi / 180) = 5 * k := by
    unfold rad2deg; field_simp
  obtain ⟨y0, y1, e0, e1, e⟩ := interpolate_eq a (5 * k) k hk (le_refl _) (by linarith)
  unfold pcv1
  rw [if_neg (by
    rintro (h | h)
    · have : 0 ≤ 5 * (k : ℝ) * Real.pi / 180 := by positivity
      linarith
    · linarith), hdeg]
  simp only
  rw [e, e0]
  congr 1
  unfold lin5; ring

/-- **C60 (c)** the interpolation is continuous across nodes: the formula of an interval, taken
at its right end, gives the next node. -/
theorem lin5_right (x0 y0 y1 : ℝ) : lin5 x0 y0 y1 (x0 + 5) = y1 := by
  unfold lin5; ring

/-- **C60 (d)** the interpolated value lies between the two neighbouring nodes. -/
theorem lin5_between (x0 y0 y1 x : ℝ) (h0 : x0 ≤ x) (h1 : x ≤ x0 + 5) :
    min y0 y1 ≤ lin5 x0 y0 y1 x ∧ lin5 x0 y0 y1 x ≤ max y0 y1 := by
  have e : lin5 x0 y0 y1 x = y0 + ((x - x0) / 5) * (y1 - y0) := by unfold lin5; ring
  have l0 : 0 ≤ (x - x0) / 5 := by linarith
  have l1 : (x - x0) / 5 ≤ 1 := by linarith
  rcases le_total y0 y1 with h | h
  · rw [min_eq_left h, max_eq_right h, e]; constructor <;> nlinarith
  · rw [min_eq_right h, max_eq_left h, e]; constructor <;> nlinarith

/-- **C60 (e)** angles outside `[0°, 90°]` yield 0, and are flagged, on frequency 2 for every
antenna and on frequency 1 for the Starec antennas. -/
theorem out_of_range_flagged (a : AntType) (z : ℝ) (h : z < 0 ∨ z > Real.pi / 2) :
    (pcv1 a z).value = some 0 ∧ (pcv2 a z).value = some 0 ∧ (pcv2 a z).outOfBounds ≠ 0 ∧
    (a ≠ .alcatel → (pcv1 a z).outOfBounds ≠ 0) := by
  refine ⟨?_, rfl, ?_, ?_⟩
  · unfold pcv1; rw [if_pos h]
  · unfold pcv2
    simp only
    rcases h with h | h
    · rw [if_pos h]; split <;> decide
    · rw [if_pos h]; split <;> decide
  · intro ha
    unfold pcv1
    rw [if_pos h]
    cases a
    · exact absurd rfl ha
    · decide
    · decide

/-- in-range angles are not flagged on frequency 2 -/
theorem pcv2_in_range (a : AntType) (z : ℝ) (h0 : 0 ≤ z) (h1 : z ≤ Real.pi / 2) :
    (pcv2 a z).value = some 0 ∧ (pcv2 a z).outOfBounds = 0 := by
  refine ⟨rfl, ?_⟩
  unfold pcv2
  simp only
  rw [if_neg (not_lt.2 h0), if_neg (not_lt.2 h1)]; rfl

/-- **C60, violation** the Alcatel antenna never flags an angle out of range on frequency 1. -/
theorem alcatel_never_flags (z : ℝ) : (pcv1 .alcatel z).outOfBounds = 0 := by
  unfold pcv1; split <;> rfl

/-- **C60, violation** at a zenith angle of exactly 90° the table is read one element behind its
end, for every antenna. -/
theorem pcv1_ninety_counterexample (a : AntType) : (pcv1 a (Real.pi / 2)).value = none := by
  have hpi := Real.pi_pos
  unfold pcv1
  rw [if_neg (by rintro (h | h) <;> linarith)]
  have : rad2deg (Real.pi / 2) = 90 := by unfold rad2deg; field_simp; norm_num
  simp only [this]
  unfold interpolate
  have hf : ⌊(90 : ℝ) / 5⌋ = 18 := by norm_num
  simp only [hf]
  have e : (table a)[(18 : Int).toNat + 1]? = none := by
    rw [List.getElem?_eq_none]; rw [table_length]; decide
  rw [e]
  split
  · rfl
  · rename_i h; split <;> simp_all

example : (pcv1 .starecB (5 * (17 : Nat) * Real.pi / 180)).value = some 17.27 :=
  pcv1_node .starecB 17 (by decide)

/-- **C60** The variations are relative to the zenith: they vanish there. -/
theorem zenith_zero (a : AntType) : (pcv1 a 0).value = some 0 ∧ (pcv2 a 0).value = some 0 := by
  have h := pcv1_node a 0 (by norm_num)
  simp only [Nat.cast_zero, mul_zero, zero_mul, zero_div] at h
  refine ⟨?_, rfl⟩
  rw [h]
  cases a <;> simp [table, alcatel1, starec1]

end Verif.Pcv
