import Verif.Eop.ExampleModel
import Verif.Eop.InterpProps
import Verif.Eop.C04Props

/-!
C161: the example program for Earth orientation parameters.
-/
namespace Verif.Eop.Example

open Verif.Eop.Interp

/-! ### Specification -/

/-- The file: its lines, each with an end of line. -/
def fileOf (ls : List (C04.Src ℝ)) : Option (List Rinex.Line) := some (ls.map fun l => ⟨l.text, true⟩)

/-- Every day from 2021-12-01 to 2022-01-31 has a line. -/
def Complete (ls : List (C04.Src ℝ)) : Prop := ∀ d : Int, 59549 ≤ d → d < 59611 → d ∈ C04.srcDays ls

/-- The epochs: every 30 seconds of the eight days from 2021-12-28 on. -/
noncomputable def epoch (k : Nat) : ℝ := 59576 + (k : ℝ) / 2880

/-- Julian centuries since J2000. -/
noncomputable def century (t : ℝ) : ℝ := (t + 2400000.5 - 2451545) / 36525

/-! ### The loop -/

/-- The `k`-th stamp. -/
def stampAt (k : Nat) : Stamp := ⟨59576 + ((k / 2880 : Nat) : Int), k % 2880 * 30000000000⟩

theorem stamp_next (k : Nat) : (stampAt k).add 30 = stampAt (k + 1) := by
  unfold stampAt Stamp.add
  simp only [Stamp.mk.injEq]
  have h1 : k % 2880 < 2880 := Nat.mod_lt _ (by norm_num)
  constructor
  · have : (k % 2880 * 30000000000 + 30 * 1000000000) / 86400000000000 = (k + 1) / 2880 - k / 2880 := by omega
    rw [this]
    omega
  · omega

theorem stamp_lt (k : Nat) : (stampAt k).lt ⟨59584, 0⟩ = true ↔ k < 23040 := by
  unfold stampAt Stamp.lt
  simp only [decide_eq_true_eq]
  omega

theorem stamp_mjd (k : Nat) : (stampAt k).mjd = epoch k := by
  unfold stampAt Stamp.mjd epoch
  have hk : (k : ℝ) = 2880 * ((k / 2880 : Nat) : ℝ) + ((k % 2880 : Nat) : ℝ) := by
    exact_mod_cast (Nat.div_add_mod k 2880).symm
  rw [hk, Int.cast_add, Int.cast_natCast]
  push_cast
  generalize ((k / 2880 : Nat) : ℝ) = q
  ring

theorem interpolate_status (L : Lib) (T : Table) (t : ℝ) (r : Rec) (order : Int) : (interpolate L T t r order).1 = 0 := rfl

/-- The records, by the memory of the record. -/
noncomputable def recAt (L : Lib) (T : Table) (unset : Rec) : Nat → Rec
  | 0 => (interpolate L T (epoch 0) unset 5).2
  | k + 1 => (interpolate L T (epoch (k + 1)) (recAt L T unset k) 5).2

/-- What the record variable holds before round `k`. -/
noncomputable def heldAt (L : Lib) (T : Table) (unset : Rec) : Nat → Rec
  | 0 => unset
  | k + 1 => recAt L T unset k

theorem recAt_eq (L : Lib) (T : Table) (unset : Rec) (k : Nat) :
    recAt L T unset k = (interpolate L T (epoch k) (heldAt L T unset k) 5).2 := by
  cases k <;> rfl

theorem loop_from (L : Lib) (T : Table) (unset : Rec) (n : Nat) : ∀ k, k + n = 23040 → ∀ fuel, n < fuel → ∀ out,
    loop L T ⟨59584, 0⟩ fuel (stampAt k) (heldAt L T unset k) out =
      some (.exit 0, out ++ (List.range' k n).map (recAt L T unset)) := by
  induction n with
  | zero =>
    intro k hk fuel hf out
    match fuel, hf with
    | fuel + 1, _ =>
      rw [loop, if_neg]
      · simp
      · rw [stamp_lt]
        omega
  | succ n ih =>
    intro k hk fuel hf out
    match fuel, hf with
    | fuel + 1, hf =>
      rw [loop, if_pos ((stamp_lt k).2 (by omega)), stamp_next, stamp_mjd]
      simp only [interpolate_status, ne_eq, not_true_eq_false, if_false]
      rw [← recAt_eq]
      have := ih (k + 1) (by omega) fuel (by omega) (out ++ [recAt L T unset k])
      rw [show heldAt L T unset (k + 1) = recAt L T unset k from rfl] at this
      rw [this, List.range'_succ, List.map_cons, List.append_assoc]
      rfl

/-! ### The program -/

section
variable (e : C04.Ext ℝ) (L : Lib) (old : Table) (unset : Rec) (fuel : Nat) (ls : List (C04.Src ℝ))
  (hok : ∀ l ∈ ls, l.Ok e) (hinc : (C04.srcDays ls).Pairwise (· < ·)) (hf : 23040 < fuel)
include hok hinc hf

/-- The run on a complete file. -/
theorem main_complete (hc : Complete ls) :
    ∃ rows : List (C04.Rec ℝ), rows.length = 62 ∧
      (∀ (i : Nat) (hi : i < rows.length), ∃ l, C04.Src.data l ∈ ls ∧ l.day = 59549 + i ∧ rows[i] = l.record e) ∧
      main e L old unset fuel 2 (fileOf ls) =
        some (.exit 0, (List.range 23040).map (recAt L (regularize L (tableOf rows old)) unset)) := by
  obtain ⟨h1, h2⟩ := C04.file_read_partial e ls hok hinc 59549 59611 (by norm_num)
  obtain ⟨rows, hr⟩ := h1.2 hc
  obtain ⟨h3, h4⟩ := h2 rows hr
  refine ⟨rows, by omega, h4, ?_⟩
  have hs : stampAt 0 = ⟨59576, 0⟩ := rfl
  have hl := loop_from L (regularize L (tableOf rows old)) unset 23040 0 (by norm_num) fuel hf []
  rw [hs] at hl
  unfold main fileOf
  rw [hr]
  simp only [ne_eq, not_true_eq_false, if_false]
  rw [show unset = heldAt L (regularize L (tableOf rows old)) unset 0 from rfl, hl, List.range_eq_range']
  rfl

/-- **C161** The program ends with status 0 exactly when every day of the two months has its line. -/
theorem example_status :
    (∃ out, main e L old unset fuel 2 (fileOf ls) = some (.exit 0, out)) ↔ Complete ls := by
  constructor
  · rintro ⟨out, h⟩
    obtain ⟨h1, -⟩ := C04.file_read_partial e ls hok hinc 59549 59611 (by norm_num)
    refine h1.1 ?_
    unfold main fileOf at h
    simp only [ne_eq, not_true_eq_false, if_false] at h
    split at h
    · exact ⟨_, by assumption⟩
    · simp at h
    · simp at h
    · simp at h
  · intro hc
    obtain ⟨rows, -, -, h⟩ := main_complete e L old unset fuel ls hok hinc hf hc
    exact ⟨_, h⟩

/-- **C161** On a complete file 23040 records are printed, one for every 30 seconds of eight days in order.  With an interpolation
that is linear in the tabulated values, each holds the interpolated values of the file with the zonal tides taken
out before and put back after, plus the effects of ocean tides and libration. -/
theorem example_rows_partial (hc : Complete ls) (w : (Nat → ℝ) → Nat → ℝ → Int → Nat → ℝ)
    (hL : ∀ x y n t order old idx, ∃ idx', L.lag x y n t order old idx =
      (0, ((List.range n).map fun j => w x n t order j * y j).sum, idx')) :
    ∃ (day : Nat → C04.DayLine ℝ) (out : List Rec), (∀ i < 62, C04.Src.data (day i) ∈ ls ∧ (day i).day = 59549 + i) ∧
      main e L old unset fuel 2 (fileOf ls) = some (.exit 0, out) ∧ out.length = 23040 ∧
      ∃ tt : Nat → ℝ, (∀ i < 62, tt i = e.ttOf (59549 + i)) ∧
      ∀ (k : Nat) (hk : k < out.length),
        let t := epoch k
        let I := fun y : Nat → ℝ => ((List.range 62).map fun j => w tt 62 t 5 j * y j).sum
        let o := L.oceans (century t)
        let g := L.gravi (century t)
        out[k].mjd = t ∧
        out[k].xp = I (fun j => (day j).x.val) + o.1 + g.1 ∧
        out[k].yp = I (fun j => (day j).y.val) + o.2.1 + g.2 ∧
        out[k].dut = I (fun j => (day j).dut.val) +
          ((L.zont (century t)).1 - I fun j => (L.zont (century (tt j))).1) + o.2.2.1 ∧
        out[k].lod = I (fun j => (day j).lod.val) +
          ((L.zont (century t)).2.1 - I fun j => (L.zont (century (tt j))).2.1) + o.2.2.2 ∧
        out[k].dx = I (fun j => (day j).dx.val) ∧ out[k].dy = I (fun j => (day j).dy.val) := by
  obtain ⟨rows, hlen, hrows, hmain⟩ := main_complete e L old unset fuel ls hok hinc hf hc
  let blank : C04.Tok ℝ := ⟨0, [], 0⟩
  have hex : ∀ i : Nat, ∃ l : C04.DayLine ℝ, i < 62 → C04.Src.data l ∈ ls ∧ l.day = 59549 + i ∧ rows[i]? = some (l.record e) := by
    intro i
    by_cases hi : i < 62
    · obtain ⟨l, a, b, c⟩ := hrows i (by omega)
      exact ⟨l, fun _ => ⟨a, b, by rw [List.getElem?_eq_getElem (by omega), c]⟩⟩
    · exact ⟨⟨[], 0, [], 0, blank, blank, blank, blank, blank, blank, []⟩, fun h => absurd h hi⟩
  choose day hday using hex
  refine ⟨day, _, fun i hi => ⟨(hday i hi).1, (hday i hi).2.1⟩, hmain, by simp, (tableOf rows old).mjd, ?_, ?_⟩
  · intro i hi
    simp only [tableOf, (hday i hi).2.2, C04.DayLine.record, (hday i hi).2.1]
  · intro k hk t I o g
    simp only [List.getElem_map, List.getElem_range, recAt_eq]
    set T := tableOf rows old with hT
    have hsz : T.sz = 62 := hlen
    set r := heldAt L (regularize L T) unset k
    have hcol : ∀ (f : Table → Nat → ℝ) (v : C04.DayLine ℝ → ℝ), (∀ j < 62, f T j = v (day j)) →
        ((List.range 62).map fun j => w T.mjd 62 (epoch k) 5 j * f T j).sum = I fun j => v (day j) := by
      intro f v h
      apply congrArg List.sum
      apply List.map_congr_left
      intro j hj
      rw [h j (List.mem_range.1 hj)]
    have hval : ∀ x y n order old idx, (L.lag x y n (epoch k) order old idx).2.1 =
        ((List.range n).map fun j => w x n (epoch k) order j * y j).sum := by
      intro x y n order old idx
      obtain ⟨_, h⟩ := hL x y n (epoch k) order old idx
      rw [h]
    obtain ⟨-, hdut, hlod⟩ := between_nodes_partial L w hL T (epoch k) r 5
    obtain ⟨h1, h2, h3, h4, h5, h6, -, -⟩ := regularize_rows L T 0
    simp only [hsz] at hdut hlod
    refine ⟨rfl, ?_, ?_, ?_, ?_, ?_, ?_⟩
    · simp only [interpolate, interpolateLagrange, jc2000_eq]
      split <;> simp only [hval, h1, h2, h3, hsz] <;>
        rw [hcol (fun T => T.xp) (fun l => l.x.val) (fun j hj => by simp only [hT, tableOf, (hday j hj).2.2, C04.DayLine.record])] <;> rfl
    · simp only [interpolate, interpolateLagrange, jc2000_eq]
      split <;> simp only [hval, h1, h2, h4, hsz] <;>
        rw [hcol (fun T => T.yp) (fun l => l.y.val) (fun j hj => by simp only [hT, tableOf, (hday j hj).2.2, C04.DayLine.record])] <;> rfl
    · rw [hdut, hcol (fun T => T.dut) (fun l => l.dut.val)
        (fun j hj => by simp only [hT, tableOf, (hday j hj).2.2, C04.DayLine.record])]
      rfl
    · rw [hlod, hcol (fun T => T.lod) (fun l => l.lod.val)
        (fun j hj => by simp only [hT, tableOf, (hday j hj).2.2, C04.DayLine.record])]
      rfl
    · simp only [interpolate, interpolateLagrange]
      split <;> simp only [hval, h1, h2, h5, hsz] <;>
        rw [hcol (fun T => T.dx) (fun l => l.dx.val) (fun j hj => by simp only [hT, tableOf, (hday j hj).2.2, C04.DayLine.record])]
    · simp only [interpolate, interpolateLagrange]
      split <;> simp only [hval, h1, h2, h6, hsz] <;>
        rw [hcol (fun T => T.dy) (fun l => l.dy.val) (fun j hj => by simp only [hT, tableOf, (hday j hj).2.2, C04.DayLine.record])]

/-- When the interpolation fails at every epoch, the program nevertheless prints 23040 records and ends with status 0: the status of the
interpolation is not passed on.  The printed pole is what the memory of the record held, plus the tides of all rounds. -/
theorem example_failure_counterexample (hc : Complete ls) (hfail : ∀ x y n t order v idx, L.lag x y n t order v idx = (1, v, idx)) :
    ∃ out, main e L old unset fuel 2 (fileOf ls) = some (.exit 0, out) ∧ out.length = 23040 ∧
      ∀ (h : 0 < out.length), out[0].xp = unset.xp + (L.oceans (century (epoch 0))).1 + (L.gravi (century (epoch 0))).1 := by
  obtain ⟨rows, hlen, hrows, hmain⟩ := main_complete e L old unset fuel ls hok hinc hf hc
  refine ⟨_, hmain, by simp, ?_⟩
  intro h
  simp only [List.getElem_map, List.getElem_range, recAt, interpolate, interpolateLagrange, hfail, jc2000_eq, century]
  simp

end

/-! ### Example: a file with a line for each day -/

noncomputable def exExt : C04.Ext ℝ :=
  ⟨fun s => match s with | '1' :: rest => some (1, rest) | _ => none, fun d => d + 69.184 / 86400⟩

noncomputable def exTok : C04.Tok ℝ := ⟨2, ['1'], 1⟩

theorem exTok_ok : exTok.Ok exExt := ⟨by simp [exTok], by simp [exTok], fun rest _ => rfl⟩

def exNum (i : Nat) : List Char := (toString (59549 + i)).toList

theorem exNum_ok : ∀ i : Fin 62, (exNum i.1).all Text.isDigit = true ∧
    Text.scanDigits (exNum i.1) 0 0 = (59549 + i.1, (exNum i.1).length, []) ∧ exNum i.1 ≠ [] ∧ (exNum i.1).length = 5 ∧
    '\x00' ∉ exNum i.1 := by
  decide +kernel

attribute [local irreducible] exNum

def exDate : List Char := "2021  12   1".toList

theorem exDate_ok : exDate.length = 12 ∧ (∀ c ∈ exDate.head?, c ≠ ' ' ∧ c ≠ '#') ∧ '\x00' ∉ exDate := by decide +kernel

attribute [local irreducible] exDate

noncomputable def exLine (i : Nat) : C04.DayLine ℝ :=
  ⟨exDate, 2, exNum i, 59549 + i, exTok, exTok, exTok, exTok, exTok, exTok, []⟩

noncomputable def exLines : List (C04.Src ℝ) :=
  .comment "# EOP (IERS) C04".toList :: (List.range 62).map fun i => .data (exLine i)

theorem exLine_ok (i : Nat) (hi : i < 62) : (exLine i).Ok exExt := by
  obtain ⟨h1, h2, h3, -, -⟩ := exNum_ok ⟨i, hi⟩
  refine ⟨exDate_ok.1, exDate_ok.2.1, h1, ?_, h3, ?_, exTok_ok, exTok_ok, exTok_ok, exTok_ok, exTok_ok, exTok_ok, .inl rfl⟩
  · change Text.scanDigits (exNum i) 0 0 = (((59549 : Int) + i).toNat, (exNum i).length, [])
    rw [h2]
    simp only [Prod.mk.injEq, and_true]
    omega
  · change (0 : Int) ≤ 59549 + i ∧ (59549 : Int) + i ≤ Text.longMax
    unfold Text.longMax
    omega

theorem exLines_ok : ∀ l ∈ exLines, l.Ok exExt := by
  intro l hl
  rcases List.mem_cons.1 hl with rfl | hl
  · exact ⟨by decide +kernel, by decide +kernel, fun t h => (by cases h; decide +kernel), fun d h => (by cases h)⟩
  · obtain ⟨i, hi, rfl⟩ := List.mem_map.1 hl
    have hi := List.mem_range.1 hi
    obtain ⟨-, -, -, h4, h5⟩ := exNum_ok ⟨i, hi⟩
    refine ⟨?_, ?_, fun t h => (by cases h), fun d h => (by cases h; exact exLine_ok i hi)⟩
    · simp only [C04.Src.text, C04.DayLine.text, C04.DayLine.values, exLine, exTok, C04.Tok.text, List.length_append,
        List.length_replicate, List.length_cons, List.length_nil, h4, exDate_ok.1]
      norm_num
    · simp [exDate_ok.2.2, C04.Src.text, C04.DayLine.text, C04.DayLine.values, exLine, exTok, C04.Tok.text, h5, List.replicate]

theorem exLines_days : C04.srcDays exLines = (List.range 62).map fun i : Nat => 59549 + (i : Int) := by
  have h : ∀ l : List Nat, C04.srcDays (l.map fun i => (C04.Src.data (exLine i))) = l.map fun i : Nat => 59549 + (i : Int) := by
    intro l
    induction l with
    | nil => rfl
    | cons a l ih => rw [List.map_cons, List.map_cons, C04.srcDays, ih]; rfl
  exact h _

example (L : Lib) (old : Table) (unset : Rec) : ∃ out, main exExt L old unset 23041 2 (fileOf exLines) = some (.exit 0, out) := by
  refine (example_status exExt L old unset 23041 exLines exLines_ok ?_ (by norm_num)).2 ?_
  · rw [exLines_days]
    decide +kernel
  · intro d h1 h2
    rw [exLines_days, List.mem_map]
    exact ⟨(d - 59549).toNat, List.mem_range.2 (by omega), by omega⟩

/-- An interpolation that always fails. -/
example : ∃ L : Lib, ∀ x y n t order v idx, L.lag x y n t order v idx = (1, v, idx) :=
  ⟨⟨fun _ _ _ _ _ v idx => (1, v, idx), fun _ => (0, 0, 0), fun _ => (0, 0, 0, 0), fun _ => (0, 0)⟩, fun _ _ _ _ _ _ _ => rfl⟩

end Verif.Eop.Example
