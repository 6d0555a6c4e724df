import Verif.Atmosphere.ExpModel
import Mathlib.Tactic.IntervalCases
import Mathlib.Tactic.Positivity

/-
C66: the exponential atmosphere.
-/
namespace Verif.Atmosphere.Exponential

/-- Row `l` of the table, the `i`-th, covers altitude `h`: from its lower limit on, up to (not
including) its upper limit unless it is the last row. -/
def Covers (i : ℕ) (h : ℝ) : Prop :=
  ∃ l, table[i]? = some l ∧ (l.lo : ℝ) ≤ h ∧ (h < (l.hi : ℝ) ∨ i = 27)

theorem findLayer_spec (alt : ℤ) (d : ℕ) (ls : List Layer) (k : ℕ) :
    (∃ i l, ls[i]? = some l ∧ l.lo ≤ alt ∧ alt < l.hi ∧ findLayer alt d ls k = k + i) ∨
    (findLayer alt d ls k = d ∧ ∀ l ∈ ls, ¬ (l.lo ≤ alt ∧ alt < l.hi)) := by
  induction ls generalizing k with
  | nil => exact Or.inr ⟨rfl, by simp⟩
  | cons l ls ih =>
    simp only [findLayer]
    by_cases h : alt ≥ l.lo ∧ alt < l.hi
    · exact Or.inl ⟨0, l, rfl, h.1, h.2, by rw [if_pos h]; rfl⟩
    · rw [if_neg h]
      rcases ih (k + 1) with ⟨i, l', h1, h2, h3, h4⟩ | ⟨h1, h2⟩
      · exact Or.inl ⟨i + 1, l', h1, h2, h3, by rw [h4]; omega⟩
      · refine Or.inr ⟨h1, ?_⟩
        intro l' hl'
        rcases List.mem_cons.mp hl' with rfl | hl'
        · exact h
        · exact h2 l' hl'

/-- The rows adjoin each other: the upper limit of each row but the last is the lower limit of the
next. -/
theorem table_contiguous : ∀ i < 27, (table.getD i ⟨0,0,0,0,0⟩).hi = (table.getD (i + 1) ⟨0,0,0,0,0⟩).lo ∧
    (table.getD i ⟨0,0,0,0,0⟩).lo < (table.getD i ⟨0,0,0,0,0⟩).hi := by decide +kernel

theorem table_lo_mono : ∀ j < 28, ∀ i < j,
    (table.getD i ⟨0,0,0,0,0⟩).hi ≤ (table.getD j ⟨0,0,0,0,0⟩).lo := by decide +kernel

theorem table_length : table.length = 28 := by decide +kernel

theorem table_positive : ∀ l ∈ table, 0 < l.rho ∧ 0 < l.scale ∧ l.base = l.lo := by decide +kernel

theorem getD_of_some {i : ℕ} {l : Layer} (h : table[i]? = some l) :
    table.getD i ⟨0,0,0,0,0⟩ = l := by
  rw [List.getD_eq_getElem?_getD, h]; rfl

theorem dropLast_some {i : ℕ} {l : Layer} (h : table.dropLast[i]? = some l) :
    table[i]? = some l ∧ i < 27 := by
  have hi : i < table.dropLast.length := by
    by_contra hc
    rw [List.getElem?_eq_none (not_lt.mp hc)] at h; cases h
  have hi' : i < 27 := by rw [List.length_dropLast, table_length] at hi; exact hi
  rw [List.getElem?_eq_getElem hi, List.getElem_dropLast] at h
  rw [List.getElem?_eq_getElem (by rw [table_length]; omega)]
  exact ⟨h, hi'⟩

/-- Truncated altitude below 1000: some row other than the last matches. -/
theorem row_exists (alt : ℤ) (h0 : 0 ≤ alt) (h1 : alt < 1000) :
    ∃ l ∈ table.dropLast, l.lo ≤ alt ∧ alt < l.hi := by
  have key : ∀ n : ℕ, n < 1000 → (table.dropLast.any fun l => decide (l.lo ≤ (n : ℤ) ∧ (n : ℤ) < l.hi)) = true := by
    decide +kernel
  have := key alt.toNat (by omega)
  rw [List.any_eq_true] at this
  obtain ⟨l, hl, h⟩ := this
  rw [Int.toNat_of_nonneg h0] at h
  exact ⟨l, hl, by simpa using h⟩

/-- **C66 (selected layer).**  For every positive altitude the selected row covers the altitude. -/
theorem layer_covers (h : ℝ) (h0 : 0 < h) : Covers (layerNr ⌊h⌋) h := by
  have hf : (0 : ℤ) ≤ ⌊h⌋ := Int.floor_nonneg.mpr h0.le
  rcases findLayer_spec ⌊h⌋ (table.length - 1) table.dropLast 0 with ⟨i, l, h1, h2, h3, h4⟩ | ⟨h1, h2⟩
  · refine ⟨l, ?_, Int.le_floor.mp h2, Or.inl ?_⟩
    · rw [layerNr, h4, Nat.zero_add]; exact (dropLast_some h1).1
    · exact Int.floor_lt.mp h3
  · have hlen : layerNr ⌊h⌋ = 27 := by rw [layerNr, h1, table_length]
    rw [hlen]
    refine ⟨⟨1000, -1, 1000, 3.019e-15, 268.00e0⟩, by decide +kernel, ?_, Or.inr rfl⟩
    have : (1000 : ℤ) ≤ ⌊h⌋ := by
      by_contra hc
      obtain ⟨l, hl, hcov⟩ := row_exists ⌊h⌋ hf (not_le.mp hc)
      exact h2 l hl hcov
    exact Int.le_floor.mp this

theorem covers_lt {i : ℕ} {h : ℝ} (hc : Covers i h) : i < 28 := by
  obtain ⟨l, hl, _⟩ := hc
  by_contra hge
  rw [List.getElem?_eq_none (by rw [table_length]; omega)] at hl; cases hl

/-- **C66 (unique layer).**  Exactly one row covers a given positive altitude, and `density` uses
it. -/
theorem layer_unique (h : ℝ) (h0 : 0 < h) (i : ℕ) (hc : Covers i h) : i = layerNr ⌊h⌋ := by
  have aux : ∀ i j, Covers i h → Covers j h → i < j → False := by
    intro i j hi hj hlt
    have hj28 := covers_lt hj
    obtain ⟨l, hl, _, h2⟩ := hi
    obtain ⟨l', hl', h3, _⟩ := hj
    have := table_lo_mono j hj28 i hlt
    rw [getD_of_some hl, getD_of_some hl'] at this
    have h4 : h < (l.hi : ℝ) := h2.resolve_right (by omega)
    have : (l.hi : ℝ) ≤ (l'.lo : ℝ) := by exact_mod_cast this
    linarith
  rcases lt_trichotomy i (layerNr ⌊h⌋) with hl | he | hl
  · exact (aux _ _ hc (layer_covers h h0) hl).elim
  · exact he
  · exact (aux _ _ (layer_covers h h0) hc hl).elim

/-- **C66 (value).**  At an altitude covered by row `i`, the density is the nominal density of that
row decayed exponentially from the row's lower limit with the row's scale height. -/
theorem density_eq (h : ℝ) (h0 : 0 < h) (i : ℕ) (l : Layer) (hl : table[i]? = some l)
    (h1 : (l.lo : ℝ) ≤ h) (h2 : h < (l.hi : ℝ) ∨ i = 27) :
    density h = l.rho * Real.exp (-((h - l.lo) / l.scale)) := by
  have hi := layer_unique h h0 i ⟨l, hl, h1, h2⟩
  rw [density, ← hi, getD_of_some hl, (table_positive l (List.mem_of_getElem? hl)).2.2]
  simp only [neg_div]

/-- **C66 (positive).** -/
theorem density_pos (h : ℝ) (h0 : 0 < h) : 0 < density h := by
  obtain ⟨l, hl, h1, h2⟩ := layer_covers h h0
  rw [density_eq h h0 _ l hl h1 h2]
  have : (0 : ℝ) < l.rho := by exact_mod_cast (table_positive l (List.mem_of_getElem? hl)).1
  positivity

/-- **C66 (decreasing inside a layer).** -/
theorem density_strictAnti (h k : ℝ) (h0 : 0 < h) (hk : h < k) (i : ℕ) (hc : Covers i h)
    (hd : Covers i k) : density k < density h := by
  obtain ⟨l, hl, h1, h2⟩ := hc
  obtain ⟨l', hl', h3, h4⟩ := hd
  obtain rfl : l = l' := by rw [hl] at hl'; exact Option.some.inj hl'
  rw [density_eq h h0 i l hl h1 h2, density_eq k (h0.trans hk) i l hl h3 h4]
  have hp := table_positive l (List.mem_of_getElem? hl)
  have hr : (0 : ℝ) < l.rho := by exact_mod_cast hp.1
  have hs : (0 : ℝ) < l.scale := by exact_mod_cast hp.2.1
  refine mul_lt_mul_of_pos_left (Real.exp_lt_exp.mpr ?_) hr
  have : (h - l.lo) / (l.scale : ℝ) < (k - l.lo) / l.scale := div_lt_div_of_pos_right (by linarith) hs
  linarith

/-- **C66 (upper bound).**  The density never exceeds the nominal density of its layer. -/
theorem density_le_nominal (h : ℝ) (h0 : 0 < h) (i : ℕ) (l : Layer) (hl : table[i]? = some l)
    (h1 : (l.lo : ℝ) ≤ h) (h2 : h < (l.hi : ℝ) ∨ i = 27) : density h ≤ l.rho := by
  rw [density_eq h h0 i l hl h1 h2]
  have hp := table_positive l (List.mem_of_getElem? hl)
  have hr : (0 : ℝ) < l.rho := by exact_mod_cast hp.1
  have hs : (0 : ℝ) < l.scale := by exact_mod_cast hp.2.1
  have : Real.exp (-((h - l.lo) / (l.scale : ℝ))) ≤ 1 := by
    rw [Real.exp_le_one_iff]
    have := div_nonneg (sub_nonneg.mpr h1) hs.le
    linarith
  nlinarith

/-- The row 180–200 km carries a scale height of 29740 km (the published value is 29.740 km), so the
density hardly decays there: at every altitude in that layer it is more than 1.9 times the density at
200 km, and it drops by that factor at the boundary. -/
theorem scale_height_row_counterexample (h : ℝ) (h1 : 180 ≤ h) (h2 : h < 200) :
    (1.9 : ℝ) * density 200 < density h := by
  have e1 : density 200 = (2.789e-10 : ℝ) := by
    have := density_eq 200 (by norm_num) 16 ⟨200, 250, 200, 2.789e-10, 37.105e0⟩
      (by decide +kernel) (by norm_num) (Or.inl (by norm_num))
    rw [this]
    norm_num
  have e2 := density_eq h (by linarith) 15 ⟨180, 200, 180, 5.464e-10, 29740e0⟩ (by decide +kernel)
    (by exact_mod_cast h1) (Or.inl (by exact_mod_cast h2))
  rw [e1, e2]
  have hexp := Real.add_one_le_exp (-((h - ((180 : ℤ) : ℝ)) / ((29740e0 : ℚ) : ℝ)))
  have hx : (h - ((180 : ℤ) : ℝ)) / ((29740e0 : ℚ) : ℝ) ≤ 20 / 29740 := by
    push_cast
    rw [div_le_div_iff₀ (by norm_num) (by norm_num)]
    norm_num
    linarith
  have hb : (1 : ℝ) - 20 / 29740 ≤ Real.exp (-((h - ((180 : ℤ) : ℝ)) / ((29740e0 : ℚ) : ℝ))) := by
    linarith
  have : ((5.464e-10 : ℚ) : ℝ) * (1 - 20 / 29740) ≤
      ((5.464e-10 : ℚ) : ℝ) * Real.exp (-((h - ((180 : ℤ) : ℝ)) / ((29740e0 : ℚ) : ℝ))) :=
    mul_le_mul_of_nonneg_left hb (by norm_num)
  refine lt_of_lt_of_le ?_ this
  norm_num

/-- Altitude 187.5 lies in row 15, and 190 too. -/
example : Covers 15 187.5 ∧ Covers 15 190 :=
  ⟨⟨⟨180, 200, 180, 5.464e-10, 29740e0⟩, by decide +kernel, by norm_num, Or.inl (by norm_num)⟩,
   ⟨⟨180, 200, 180, 5.464e-10, 29740e0⟩, by decide +kernel, by norm_num, Or.inl (by norm_num)⟩⟩

end Verif.Atmosphere.Exponential
