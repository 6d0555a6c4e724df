import Verif.Eop.InterpModel
import Mathlib.Tactic.Linarith
import Mathlib.Tactic.NormNum
import Mathlib.Tactic.Ring
import Mathlib.Tactic.FieldSimp

/-!
Properties of the interpolation of Earth orientation parameters (C84) and of `gcrs2itrs` (C85).
-/
namespace Verif.Eop.Interp

open Verif.Astro

/-! ### C84 -/

/-- Julian centuries since J2000 of a modified Julian date. -/
theorem jc2000_eq (t : ℝ) : jc2000 t = (t + 2400000.5 - 2451545) / 36525 := by
  unfold jc2000 modf
  simp only
  ring

theorem regularizeLoop_eq (L : Lib) (T : Table) : ∀ n,
    (regularizeLoop L T n).sz = T.sz ∧ (regularizeLoop L T n).mjd = T.mjd ∧ (regularizeLoop L T n).xp = T.xp ∧
    (regularizeLoop L T n).yp = T.yp ∧ (regularizeLoop L T n).dx = T.dx ∧ (regularizeLoop L T n).dy = T.dy ∧
    (∀ i, (regularizeLoop L T n).dut i = if i < n then T.dut i - (L.zont (jc2000 (T.mjd i))).1 else T.dut i) ∧
    (∀ i, (regularizeLoop L T n).lod i = if i < n then T.lod i - (L.zont (jc2000 (T.mjd i))).2.1 else T.lod i) ∧
    (∀ i, (regularizeLoop L T n).omega i = if i < n then T.omega i - (L.zont (jc2000 (T.mjd i))).2.2 else T.omega i)
  | 0 => by simp [regularizeLoop]
  | n + 1 => by
    obtain ⟨h1, h2, h3, h4, h5, h6, h7, h8, h9⟩ := regularizeLoop_eq L T n
    refine ⟨h1, h2, h3, h4, h5, h6, ?_, ?_, ?_⟩
    all_goals
      intro i
      simp only [regularizeLoop, subAt, h2, h7, h8, h9]
      by_cases hi : i = n
      · subst hi
        simp
      · rcases lt_or_ge i n with h | h
        · rw [if_neg hi, if_pos h, if_pos (by omega)]
        · rw [if_neg hi, if_neg (by omega), if_neg (by omega)]

/-- **C84** Regularizing subtracts from every tabulated row, once, the effect of the zonal tides at its
date, from UT1, length of day and rotation rate, and changes nothing else. -/
theorem regularize_rows (L : Lib) (T : Table) (i : Nat) :
    let z := L.zont ((T.mjd i + 2400000.5 - 2451545) / 36525)
    (regularize L T).sz = T.sz ∧ (regularize L T).mjd = T.mjd ∧ (regularize L T).xp = T.xp ∧
    (regularize L T).yp = T.yp ∧ (regularize L T).dx = T.dx ∧ (regularize L T).dy = T.dy ∧
    (i < T.sz → (regularize L T).dut i + z.1 = T.dut i ∧ (regularize L T).lod i + z.2.1 = T.lod i ∧
      (regularize L T).omega i + z.2.2 = T.omega i) ∧
    (T.sz ≤ i → (regularize L T).dut i = T.dut i ∧ (regularize L T).lod i = T.lod i ∧
      (regularize L T).omega i = T.omega i) := by
  intro z
  obtain ⟨h1, h2, h3, h4, h5, h6, h7, h8, h9⟩ := regularizeLoop_eq L T T.sz
  have hz : L.zont (jc2000 (T.mjd i)) = z := by rw [jc2000_eq]
  refine ⟨h1, h2, h3, h4, h5, h6, fun h => ?_, fun h => ?_⟩
  · unfold regularize
    rw [h7, h8, h9, if_pos h, if_pos h, if_pos h, hz]
    refine ⟨by ring, by ring, by ring⟩
  · unfold regularize
    rw [h7, h8, h9, if_neg (by omega), if_neg (by omega), if_neg (by omega)]
    exact ⟨rfl, rfl, rfl⟩

/-- Interpolation reproduces the tabulated values: at a date of a table in chronological order it
succeeds with the value of that row. -/
def Reproduces (lag : LagInt) : Prop :=
  ∀ (x y : Nat → ℝ) (n i : Nat) (order : Int) (old : ℝ) (idx : Int), (∀ a b, a < b → b < n → x a < x b) → i < n →
    ∃ idx', lag x y n (x i) order old idx = (0, y i, idx')

theorem lagrange_node (L : Lib) (hL : Reproduces L.lag) (T : Table)
    (hT : ∀ a b, a < b → b < T.sz → T.mjd a < T.mjd b) (i : Nat) (hi : i < T.sz) (r : Rec) (order : Int) :
    interpolateLagrange L T (T.mjd i) r order =
      (0, ⟨T.mjd i, T.xp i, T.yp i, T.dut i, T.lod i, T.dx i, T.dy i, r.omega⟩) := by
  unfold interpolateLagrange
  obtain ⟨i1, e1⟩ := hL T.mjd T.xp T.sz i order r.xp (-1) hT hi
  obtain ⟨i2, e2⟩ := hL T.mjd T.yp T.sz i order r.yp i1 hT hi
  obtain ⟨i3, e3⟩ := hL T.mjd T.dut T.sz i order r.dut i2 hT hi
  obtain ⟨i4, e4⟩ := hL T.mjd T.dx T.sz i order r.dx i3 hT hi
  obtain ⟨i5, e5⟩ := hL T.mjd T.dy T.sz i order r.dy i4 hT hi
  obtain ⟨i6, e6⟩ := hL T.mjd T.lod T.sz i order r.lod i5 hT hi
  obtain ⟨i7, e7⟩ := hL T.mjd T.dx T.sz i order (T.dx i) i6 hT hi
  obtain ⟨i8, e8⟩ := hL T.mjd T.dy T.sz i order (T.dy i) i7 hT hi
  simp only [e1, e2, e3, e4, e5, e6, e7, e8]
  simp

/-- **C84** (partial) At a tabulated date the regularized table gives back the row, UT1 and length of
day with the zonal tides restored, plus ocean tides (pole, UT1, length of day) and libration (pole),
all evaluated at that date. -/
theorem restored_at_nodes_partial (L : Lib) (hL : Reproduces L.lag) (T : Table)
    (hT : ∀ a b, a < b → b < T.sz → T.mjd a < T.mjd b) (i : Nat) (hi : i < T.sz) (r : Rec)
    (order : Int) :
    let c := (T.mjd i + 2400000.5 - 2451545) / 36525
    let o := L.oceans c
    let g := L.gravi c
    let e := interpolate L (regularize L T) (T.mjd i) r order
    e.1 = 0 ∧ e.2.mjd = T.mjd i ∧ e.2.xp = T.xp i + o.1 + g.1 ∧ e.2.yp = T.yp i + o.2.1 + g.2 ∧
    e.2.dut = T.dut i + o.2.2.1 ∧ e.2.lod = T.lod i + o.2.2.2 ∧ e.2.dx = T.dx i ∧ e.2.dy = T.dy i := by
  obtain ⟨h1, h2, h3, h4, h5, h6, h7, -⟩ := regularize_rows L T i
  obtain ⟨h7, h8, -⟩ := h7 hi
  have hn := lagrange_node L hL (regularize L T) (by rw [h1, h2]; exact hT) i (by rw [h1]; exact hi) r order
  rw [h2] at hn
  simp only [interpolate, hn, jc2000_eq, h3, h4, h5, h6]
  refine ⟨trivial, trivial, trivial, trivial, ?_, ?_, trivial, trivial⟩
  · rw [h7]
  · rw [h8]

/-- **C84** Between the tabulated dates: if the interpolation is linear in the tabulated values (as
Lagrange's is), regularizing before and restoring after is interpolation of the residual, that is, the
table is interpolated and the difference between the tides at the date and the interpolated
tides is added. -/
theorem between_nodes_partial (L : Lib) (w : (Nat → ℝ) → Nat → ℝ → Int → Nat → ℝ)
    (hL : ∀ x y n t order old idx, ∃ idx', L.lag x y n t order old idx =
      (0, ((List.range n).map fun j => w x n t order j * y j).sum, idx')) (T : Table) (t : ℝ) (r : Rec) (order : Int) :
    let c := fun s : ℝ => (s + 2400000.5 - 2451545) / 36525
    let I := fun y : Nat → ℝ => ((List.range T.sz).map fun j => w T.mjd T.sz t order j * y j).sum
    let e := interpolate L (regularize L T) t r order
    e.1 = 0 ∧
    e.2.dut = I T.dut + ((L.zont (c t)).1 - I fun j => (L.zont (c (T.mjd j))).1) + (L.oceans (c t)).2.2.1 ∧
    e.2.lod = I T.lod + ((L.zont (c t)).2.1 - I fun j => (L.zont (c (T.mjd j))).2.1) + (L.oceans (c t)).2.2.2 := by
  intro c I
  have hval : ∀ x y n order old idx, (L.lag x y n t order old idx).2.1 =
      ((List.range n).map fun j => w x n t order j * y j).sum := by
    intro x y n order old idx
    obtain ⟨_, h⟩ := hL x y n t order old idx
    rw [h]
  obtain ⟨h1, h2, -⟩ := regularize_rows L T 0
  have hsub : ∀ (y z : Nat → ℝ) (m : Nat), m ≤ T.sz → ∀ u : Nat → ℝ, (∀ j < T.sz, u j + z j = y j) →
      ((List.range m).map fun j => w T.mjd T.sz t order j * u j).sum =
      ((List.range m).map fun j => w T.mjd T.sz t order j * y j).sum -
        ((List.range m).map fun j => w T.mjd T.sz t order j * z j).sum := by
    intro y z m
    induction m with
    | zero => simp
    | succ m ih =>
      intro hm u hu
      simp only [List.range_succ, List.map_append, List.sum_append, List.map_cons, List.map_nil, List.sum_cons,
        List.sum_nil, add_zero]
      rw [ih (by omega) u hu, ← hu m (by omega)]
      ring
  have hd : ∀ s : Int × Rec, s = interpolateLagrange L (regularize L T) t r order →
      s.2.dut = I T.dut - (I fun j => (L.zont (c (T.mjd j))).1) ∧
      s.2.lod = I T.lod - (I fun j => (L.zont (c (T.mjd j))).2.1) := by
    intro s hs
    have e1 : s.2.dut = ((List.range T.sz).map fun j => w T.mjd T.sz t order j * (regularize L T).dut j).sum := by
      rw [hs]
      unfold interpolateLagrange
      simp only
      split <;> simp only [hval, h1, h2]
    have e2 : s.2.lod = ((List.range T.sz).map fun j => w T.mjd T.sz t order j * (regularize L T).lod j).sum := by
      rw [hs]
      unfold interpolateLagrange
      simp only
      split <;> simp only [hval, h1, h2]
    rw [e1, e2]
    constructor
    · refine hsub _ _ T.sz le_rfl _ fun j hj => ?_
      exact ((regularize_rows L T j).2.2.2.2.2.2.1 hj).1
    · refine hsub _ _ T.sz le_rfl _ fun j hj => ?_
      exact ((regularize_rows L T j).2.2.2.2.2.2.1 hj).2.1
  obtain ⟨hdut, hlod⟩ := hd _ rfl
  refine ⟨rfl, ?_, ?_⟩
  · simp only [interpolate, jc2000_eq, hdut]
    ring
  · simp only [interpolate, jc2000_eq, hlod]
    ring

/-- A table of one row, and an interpolation that fails. -/
def one : Table := ⟨1, fun _ => 59000, fun _ => 0, fun _ => 0, fun _ => 0, fun _ => 0, fun _ => 0, fun _ => 0, fun _ => 0⟩
def failing : Lib := ⟨fun _ _ _ _ _ old idx => (1, old, idx), fun _ => (0, 0, 1), fun _ => (0, 0, 0, 0), fun _ => (0, 0)⟩

/-- **C84, where it fails.**  Success is reported even when all eight interpolations fail: the status of
`interpolate_lagrange` is not looked at, and the parameters are what the record happened to hold. -/
theorem failure_counterexample (r : Rec) :
    (interpolateLagrange failing one 58000 r 5).1 = 1 ∧ (interpolate failing one 58000 r 5).1 = 0 ∧
    (interpolate failing one 58000 r 5).2.xp = r.xp ∧ (interpolate failing one 58000 r 5).2.dut = r.dut := by
  simp [interpolate, interpolateLagrange, failing]

/-- **C84, where it fails.**  The rotation rate is never interpolated: the tidal effect is added to what
the record held before the call. -/
theorem omega_counterexample (r : Rec) : (interpolate failing one 58000 r 5).2.omega = r.omega + 1 := by
  simp [interpolate, interpolateLagrange, failing]

/-! ### C85 -/

theorem trunc_err (x : ℝ) : |(trunc x : ℝ) - x| < 1 ∧ (0 ≤ x → (trunc x : ℝ) ≤ x) := by
  unfold trunc
  split
  · have h1 := Int.floor_le x
    have h2 := Int.lt_floor_add_one x
    exact ⟨abs_lt.2 ⟨by linarith, by linarith⟩, fun _ => h1⟩
  · rename_i h
    have h1 := Int.le_ceil x
    have h2 := Int.ceil_lt_add_one x
    exact ⟨abs_lt.2 ⟨by linarith, by linarith⟩, fun h' => absurd h' h⟩

/-- **C85** The date used for the interpolation, the celestial pole and polar motion is TT: 32.184 seconds
after the TAI date, to less than a nanosecond. -/
theorem tt_date (mjdTai : ℝ) :
    |ttMjd (taiDate mjdTai) - (mjdTai + 32.184 / 86400)| < 1 / (86400 * 1000000000) := by
  have h := (trunc_err ((mjdTai - (trunc mjdTai : ℝ)) * 86400 * 1000000000)).1
  have e : ttMjd (taiDate mjdTai) - (mjdTai + 32.184 / 86400) =
      ((trunc ((mjdTai - (trunc mjdTai : ℝ)) * 86400 * 1000000000) : ℝ) -
        (mjdTai - (trunc mjdTai : ℝ)) * 86400 * 1000000000) / (86400 * 1000000000) := by
    unfold ttMjd taiDate
    simp only
    push_cast
    ring
  rw [e, abs_div, abs_of_pos (by norm_num : (0 : ℝ) < 86400 * 1000000000)]
  exact div_lt_div_of_pos_right h (by norm_num)

/-- `tai2utc` subtracts `leap` seconds from a TAI date. -/
def Subtracts (tai2utc : Int → Int → ℝ × Int) (leap : ℝ) : Prop :=
  ∀ day ns, (tai2utc day ns).1 + (tai2utc day ns).2 = day + (ns : ℝ) / (86400 * 1000000000) - leap / 86400

/-- **C85** (partial) The rotation angle is that of UT1: TAI less the leap seconds plus the interpolated
UT1-UTC, to less than a nanosecond; pole, celestial pole offsets and length of day are the
interpolated ones, all in radians. -/
theorem rotation_partial (L : Lib) (S : Sofa) (leap : ℝ) (hS : Subtracts S.tai2utc leap) (T : Table) (mjdTai : ℝ)
    (unset : Rec) (old : Out) :
    ∃ tt ut1 : ℝ, |tt - (mjdTai + 32.184 / 86400)| < 1 / (86400 * 1000000000) ∧
      (let e := (interpolate L T tt unset 5).2
       let o := gcrs2itrs L S T mjdTai unset old
       let X := (S.xy06 2400000.5 tt).1
       let Y := (S.xy06 2400000.5 tt).2
       |ut1 - (mjdTai - leap / 86400 + e.dut / 86400)| < 1 / (86400 * 1000000000) ∧
       o.era = S.era00 2400000.5 ut1 ∧
       o.rc2i = S.c2ixys (X + S.arcsec2rad e.dx) (Y + S.arcsec2rad e.dy) (S.s06 2400000.5 tt X Y) ∧
       o.rpom = S.pom00 (S.arcsec2rad e.xp) (S.arcsec2rad e.yp) (S.sp00 2400000.5 tt) ∧ o.xlod = e.lod) := by
  have htt := tt_date mjdTai
  refine ⟨ttMjd (taiDate mjdTai), _, htt, ?_, rfl, rfl, rfl, rfl⟩
  have hs := hS (taiDate mjdTai).1 (taiDate mjdTai).2
  have e : ttMjd (taiDate mjdTai) = (taiDate mjdTai).1 + ((taiDate mjdTai).2 : ℝ) / (86400 * 1000000000) + 32.184 / 86400 := by
    unfold ttMjd
    push_cast
    ring
  have : (S.tai2utc (taiDate mjdTai).1 (taiDate mjdTai).2).1 +
        (interpolate L T (ttMjd (taiDate mjdTai)) unset 5).2.dut / 86400 +
        ((S.tai2utc (taiDate mjdTai).1 (taiDate mjdTai).2).2 : ℝ) -
      (mjdTai - leap / 86400 + (interpolate L T (ttMjd (taiDate mjdTai)) unset 5).2.dut / 86400) =
      ttMjd (taiDate mjdTai) - (mjdTai + 32.184 / 86400) := by
    rw [e]
    linarith
  rw [this]
  exact htt

/-- **C85, where it fails.**  No date is ever refused, whatever the table covers: the status is 0 and the
pole that of an unset record. -/
theorem outside_table_counterexample (S : Sofa) (mjdTai : ℝ) (unset : Rec) (old : Out) :
    (gcrs2itrs failing S one mjdTai unset old).status = 0 ∧
    (gcrs2itrs failing S one mjdTai unset old).xlod = unset.lod := by
  simp [gcrs2itrs, interpolate, interpolateLagrange, failing]

/-! ### Concrete instances -/

/-- An interpolation that reproduces tables: the value of the row with the date. -/
noncomputable def search : (Nat → ℝ) → (Nat → ℝ) → Nat → ℝ → ℝ
  | _, _, 0, _ => 0
  | x, y, n + 1, t => open Classical in if t = x n then y n else search x y n t

theorem search_node (x y : Nat → ℝ) (n i : Nat) (hx : ∀ a b, a < b → b < n → x a < x b) (hi : i < n) :
    search x y n (x i) = y i := by
  induction n with
  | zero => omega
  | succ n ih =>
    unfold search
    rcases Nat.lt_or_ge i n with h | h
    · rw [if_neg (hx i n h (by omega)).ne]
      exact ih (fun a b hab hb => hx a b hab (by omega)) h
    · obtain rfl : i = n := by omega
      rw [if_pos rfl]

/-- Two days, with that interpolation. -/
example : Reproduces (fun x y n t _ _ idx => (0, search x y n t, idx)) ∧
    ∀ a b, a < b → b < 2 → (59000 + (a : ℝ)) < 59000 + (b : ℝ) :=
  ⟨fun x y n i _ _ idx hx hi => ⟨idx, by simp only [search_node x y n i hx hi]⟩, fun a b h _ => by
    have : (a : ℝ) < b := by exact_mod_cast h
    linarith⟩

/-- Linear interpolation between the first two rows meets the hypothesis of `between_nodes_partial`. -/
example : ∃ (lag : LagInt) (w : (Nat → ℝ) → Nat → ℝ → Int → Nat → ℝ), (∀ x y n t order old idx, ∃ idx',
      lag x y n t order old idx = (0, ((List.range n).map fun j => w x n t order j * y j).sum, idx')) ∧
    ∀ y order old idx, (lag (fun j => (j : ℝ)) y 2 (1 / 4) order old idx).2.1 = 3 / 4 * y 0 + 1 / 4 * y 1 := by
  let w : (Nat → ℝ) → Nat → ℝ → Int → Nat → ℝ := fun x _ t _ j =>
    if j = 0 then (x 1 - t) / (x 1 - x 0) else if j = 1 then (t - x 0) / (x 1 - x 0) else 0
  refine ⟨fun x y n t order _ idx => (0, ((List.range n).map fun j => w x n t order j * y j).sum, idx), w,
    fun x y n t order old idx => ⟨idx, rfl⟩, fun y order old idx => ?_⟩
  norm_num [w, List.range_succ]

/-- A conversion with 37 leap seconds. -/
example : Subtracts (fun day ns => (((ns : ℝ) / (86400 * 1000000000) - 37 / 86400), day)) 37 := by
  intro day ns
  simp only
  ring

end Verif.Eop.Interp
