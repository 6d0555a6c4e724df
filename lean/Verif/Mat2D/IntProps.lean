import Verif.Mat2D.IntModel
import Verif.Mat2D.Props
import Mathlib.Tactic.Linarith
import Mathlib.Tactic.Ring

/-!
C141: `int` arithmetic of matrix indices and of the factors of the gravity code.
-/
namespace Verif.Mat2D

/-! ### Specification -/

/-- A shape whose row and column counts are `int`s. -/
def IntShape (s : Shape) : Prop := s.rows ≤ 2147483647 ∧ s.cols ≤ 2147483647

/-- The value of an expression in exact arithmetic. -/
def E.exact (i j : Int) : E → Int
  | .i => i
  | .j => j
  | .lit n => n
  | .add a b => a.exact i j + b.exact i j
  | .sub a b => a.exact i j - b.exact i j
  | .mul a b => a.exact i j * b.exact i j
  | .neg a => -a.exact i j

/-- Every place of the gravity code computes the exact value, whatever its loop variables. -/
def AllExact (degree order : Int) : Prop :=
  ∀ s ∈ sites, ∀ i j, s.range degree order i j → s.e.eval i j = some (s.e.exact i j)

/-! ### Matrices -/

theorem chk_of {x : Int} (h : InInt x) : chk x = some x := if_pos h

theorem chk_some {x y : Int} (h : chk x = some y) : y = x ∧ InInt x := by
  unfold chk at h
  split at h
  · next hx => exact ⟨(Option.some.inj h).symm, hx⟩
  · cases h

theorem chk_nat {n : Nat} (h : n ≤ 2147483647) : chk (n : Int) = some (n : Int) :=
  chk_of ⟨by omega, by omega⟩

theorem toSize_nat {n : Nat} (h : n < 18446744073709551616) : toSize (n : Int) = n := by
  unfold toSize; omega

theorem numLoopI_succ (cols n : Nat) (v : Nat) (hn : n + 1 ≤ 2147483647) (hc : cols ≤ 2147483647)
    (hv : v + 2147483647 < 18446744073709551616) (h : numLoopI cols n = some v) :
    numLoopI cols (n + 1) = some (v + min (n + 1) cols) := by
  have h4 : toSize (min ((n : Int) + 1) cols) = min (n + 1) cols := by
    have : min ((n : Int) + 1) cols = ((min (n + 1) cols : Nat) : Int) := by omega
    rw [this, toSize_nat (by omega)]
  rw [numLoopI, h, Option.bind_some, chk_of ⟨by omega, by omega⟩, Option.map_some, h4]
  unfold wrap
  rw [Nat.mod_eq_of_lt (by omega)]

theorem numLoopI_eq (cols : Nat) (hc : cols ≤ 2147483647) (n : Nat) (hn : n ≤ 2147483647) :
    numLoopI cols n = some (trapLoop cols n) ∧ trapLoop cols n ≤ n * 2147483647 := by
  induction n with
  | zero => exact ⟨rfl, by simp [trapLoop]⟩
  | succ n ih =>
    obtain ⟨h1, h2⟩ := ih (by omega)
    exact ⟨numLoopI_succ cols n _ hn hc (by omega) h1, by rw [trapLoop]; omega⟩

theorem ptsInRowI_nat (cols n : Nat) (hn : n + 1 ≤ 2147483647) :
    ptsInRowI cols n = some ((min (n + 1) cols : Nat) : Int) := by
  unfold ptsInRowI
  rw [chk_of ⟨by omega, by omega⟩, Option.map_some]
  congr 1; omega

theorem sliceLoopI_succ (cols n v : Nat) (hn : n + 1 ≤ 2147483647) (h : sliceLoopI cols n = some (v : Int))
    (hv : v + min (n + 1) cols ≤ 2147483647) :
    sliceLoopI cols (n + 1) = some ((v + min (n + 1) cols : Nat) : Int) := by
  rw [sliceLoopI, h, Option.bind_some, ptsInRowI_nat cols n hn, Option.bind_some,
    chk_of ⟨by omega, by omega⟩]
  congr 1

theorem sliceLoopI_eq (cols : Nat) (n : Nat) (hn : n ≤ 2147483647)
    (ht : trapLoop cols n ≤ 2147483647) :
    sliceLoopI cols n = some (trapLoop cols n : Int) := by
  induction n with
  | zero => rfl
  | succ n ih =>
    rw [trapLoop] at ht
    exact sliceLoopI_succ cols n _ hn (ih (by omega) (by omega)) ht

/-- Whatever `element_offset` returns is an `int`. -/
theorem offsetI_range (st : Storage) (r c i j v : Int) (h : offsetI st r c i j = some v) :
    InInt v := by
  have key : ∀ (o : Option Int) (f : Int → Int), (o.bind fun s => chk (f s)) = some v → InInt v := by
    intro o f ho
    cases o with
    | none => cases ho
    | some w =>
      obtain ⟨h1, h2⟩ := chk_some (show chk (f w) = some v from ho)
      rw [h1]; exact h2
  cases st with
  | trapezoid =>
    simp only [offsetI, trapOffsetI] at h
    split at h
    · exact key _ _ h
    · exact key _ _ h
  | rowWise => exact key _ _ h
  | columnWise => exact key _ _ h

/-- Offsets below `2^31` are computed exactly. -/
theorem offsetI_exact (st : Storage) (s : Shape) (hs : IntShape s) (i j : Nat) (h : Cell st s i j)
    (hb : offset st s i j ≤ 2147483647) :
    offsetI st s.rows s.cols i j = some (offset st s i j : Int) := by
  obtain ⟨hr, hc⟩ := hs
  obtain ⟨hi, hj, hd⟩ := id h
  cases st with
  | trapezoid =>
    have ho := (offset_of_cell h).1
    rw [ho, trapSlice_eq_loop] at hb ⊢
    simp only [offsetI, trapOffsetI, trapSliceI]
    rw [if_pos (by have := hd rfl; omega), Int.toNat_natCast,
      sliceLoopI_eq s.cols i (by omega) (by omega), Option.bind_some,
      chk_of ⟨by omega, by omega⟩]
    simp
  | rowWise =>
    simp only [offset] at hb ⊢
    simp only [offsetI]
    have e1 : (i : Int) * s.cols = ((i * s.cols : Nat) : Int) := by push_cast; rfl
    rw [e1, chk_of ⟨by omega, by omega⟩, Option.bind_some, chk_of ⟨by omega, by omega⟩]
    simp
  | columnWise =>
    simp only [offset] at hb ⊢
    simp only [offsetI]
    have e1 : (j : Int) * s.rows = ((j * s.rows : Nat) : Int) := by push_cast; rfl
    rw [e1, chk_of ⟨by omega, by omega⟩, Option.bind_some, chk_of ⟨by omega, by omega⟩]
    simp

/-- **C141 (a)** For every shape, the offsets of all elements are computed without overflow, and
exactly, if and only if there are at most `2^31` elements. -/
theorem offsets_exact_iff (st : Storage) (s : Shape) (hs : IntShape s) :
    (∀ i j, Cell st s i j → offsetI st s.rows s.cols i j = some (offset st s i j : Int)) ↔
      numElements st s ≤ 2147483648 := by
  constructor
  · intro h
    by_contra hn
    obtain ⟨i, j, hc, ho⟩ := offset_surj st s 2147483648 (by omega)
    have h1 := h i j hc
    have h2 := (offsetI_range st _ _ _ _ _ h1).2
    rw [ho] at h2
    omega
  · intro h i j hc
    have := offset_lt st s i j hc
    exact offsetI_exact st s hs i j hc (by omega)

/-- **C141 (b)** In a larger matrix an element exists whose offset overflows. -/
theorem some_offset_overflows (st : Storage) (s : Shape) (hn : 2147483648 < numElements st s) :
    ∃ i j, Cell st s i j ∧ offsetI st s.rows s.cols i j ≠ some (offset st s i j : Int) := by
  obtain ⟨i, j, hc, ho⟩ := offset_surj st s 2147483648 hn
  refine ⟨i, j, hc, fun h => ?_⟩
  have h2 := (offsetI_range st _ _ _ _ _ h).2
  rw [ho] at h2
  omega

/-- **C141 (c)** The trapezoid's `num_elements` is exact for every shape. -/
theorem trap_size_exact (s : Shape) (hs : IntShape s) :
    numElementsI .trapezoid s.rows s.cols = some (numElements .trapezoid s) := by
  obtain ⟨hr, hc⟩ := hs
  simp only [numElementsI, numElements, trapNumElementsI, trapNumElements]
  by_cases h : s.rows = s.cols
  · rw [if_pos (by omega), if_pos h, toSize_nat (by omega)]
    unfold wrap
    rw [Nat.mod_eq_of_lt (a := s.rows + 1) (by omega)]
    have : s.rows * (s.rows + 1) ≤ 2147483647 * 2147483648 := Nat.mul_le_mul hr (by omega)
    rw [Nat.mod_eq_of_lt (by omega)]
  · rw [if_neg (by omega), if_neg h, Int.toNat_natCast]
    exact (numLoopI_eq s.cols hc s.rows hr).1

/-- **C141 (d)** The dense `num_elements` is exact if the product is an `int`, and otherwise
overflows. -/
theorem dense_size_iff (s : Shape) (st : Storage) (hst : st ≠ .trapezoid) :
    numElementsI st s.rows s.cols =
      if s.rows * s.cols ≤ 2147483647 then some (s.rows * s.cols) else none := by
  have key : (chk ((s.rows : Int) * s.cols)).map toSize =
      if s.rows * s.cols ≤ 2147483647 then some (s.rows * s.cols) else none := by
    have e1 : (s.rows : Int) * s.cols = ((s.rows * s.cols : Nat) : Int) := by push_cast; rfl
    rw [e1]
    by_cases h : s.rows * s.cols ≤ 2147483647
    · rw [chk_of ⟨by omega, by omega⟩, if_pos h, Option.map_some, toSize_nat (by omega)]
    · rw [if_neg h]
      have hx : ¬ InInt ((s.rows * s.cols : Nat) : Int) := fun hx => h (by have := hx.2; omega)
      unfold chk
      rw [if_neg hx]
      rfl
  cases st with
  | trapezoid => exact absurd rfl hst
  | rowWise => exact key
  | columnWise => exact key

/-- **C141 (e)** Slices are exact for every row (column) of a matrix with at most `2^31 - 1`
elements. -/
theorem slices_exact (st : Storage) (s : Shape) (hs : IntShape s)
    (hn : numElements st s ≤ 2147483647) (i : Nat)
    (hi : i ≤ match st with | .columnWise => s.cols | _ => s.rows) :
    sliceI st s.rows s.cols i = some (slice st s i : Int) := by
  obtain ⟨hr, hc⟩ := hs
  cases st with
  | trapezoid =>
    simp only at hi
    have := trapSlice_mono s hi
    simp only [numElements, trapNumElements_eq] at hn
    simp only [sliceI, slice, trapSliceI, Int.toNat_natCast]
    rw [trapSlice_eq_loop] at this ⊢
    exact sliceLoopI_eq s.cols i (by omega) (by omega)
  | rowWise =>
    simp only at hi
    simp only [sliceI, slice, numElements] at hn ⊢
    have h1 : i * s.cols ≤ s.rows * s.cols := Nat.mul_le_mul_right _ hi
    have e1 : (i : Int) * s.cols = ((i * s.cols : Nat) : Int) := by push_cast; rfl
    rw [e1, chk_of ⟨by omega, by omega⟩]
  | columnWise =>
    simp only at hi
    simp only [sliceI, slice, numElements] at hn ⊢
    have h1 : i * s.rows ≤ s.cols * s.rows := Nat.mul_le_mul_right _ hi
    rw [Nat.mul_comm s.cols] at h1
    have e1 : (i : Int) * s.rows = ((i * s.rows : Nat) : Int) := by push_cast; rfl
    rw [e1, chk_of ⟨by omega, by omega⟩]

example : IntShape ⟨92, 92⟩ ∧ Cell .trapezoid ⟨92, 92⟩ 91 91 ∧
    numElements .trapezoid ⟨92, 92⟩ ≤ 2147483647 := by
  refine ⟨⟨by decide, by decide⟩, by decide, by decide⟩

/-- **C141 (f)** A square trapezoid of 65536 rows has 2147516416 elements, as `num_elements` says,
and its constructor allocates them; but the offset of some of its elements overflows `int`. -/
theorem trapezoid_offset_counterexample :
    numElementsI .trapezoid 65536 65536 = some 2147516416 ∧
    ∃ i j : Nat, Cell .trapezoid ⟨65536, 65536⟩ i j ∧
      offsetI .trapezoid 65536 65536 i j ≠ some (offset .trapezoid ⟨65536, 65536⟩ i j : Int) := by
  have hs : IntShape ⟨65536, 65536⟩ := ⟨by decide, by decide⟩
  have hn : numElements .trapezoid ⟨65536, 65536⟩ = 2147516416 := by
    simp only [numElements, trapNumElements]; rw [if_pos trivial]
  refine ⟨?_, ?_⟩
  · have := trap_size_exact _ hs; rw [hn] at this; exact this
  · exact some_offset_overflows .trapezoid ⟨65536, 65536⟩ (by rw [hn]; decide)

/-- **C141 (g)** For a dense square matrix of 46341 rows, already the number of elements, computed
in `int`, overflows. -/
theorem dense_size_counterexample :
    numElementsI .rowWise 46341 46341 = none ∧ numElementsI .columnWise 46341 46341 = none ∧
    numElementsI .rowWise 46340 46340 = some 2147395600 := by
  refine ⟨by decide +kernel, by decide +kernel, by decide +kernel⟩

/-! ### Gravity factors -/

theorem bind2 (a b : Int) (f : Int → Int → Int) (h : InInt (f a b)) :
    ((some a).bind fun x => (some b).bind fun y => chk (f x y)) = some (f a b) := chk_of h

theorem sq_bound {x d : Int} (h0 : 0 ≤ x) (h1 : x ≤ d) (hd : d ≤ 46339) :
    (x + 1) * (x + 2) ≤ 2147441940 := by nlinarith

theorem prod_nonneg {x : Int} (h0 : 0 ≤ x) : 0 ≤ (x + 1) * (x + 2) := by positivity

/-- **C141 (h)** Up to degree 46339, no integer factor of the gravity code overflows. -/
theorem gravity_ints_exact (degree order : Int) (ho : 0 ≤ order) (hod : order ≤ degree)
    (hd : degree ≤ 46339) : AllExact degree order := by
  intro s hs i j hr
  simp only [sites, List.mem_cons, List.not_mem_nil, or_false] at hs
  rcases hs with h|h|h|h|h|h|h|h|h|h|h|h|h|h|h|h|h|h|h|h|h <;> subst h
  all_goals
    first
      | (simp only [sZonalNeg, sZonal3, sFirst2, sHigh4, sHigh3, sRatio4, sCol2, sLegN1, sSectM,
          sSectP, sInner2, sInnerS, sInnerD, sFac2, sFacStart, sFacStop, sIcgemI, sIcgemM,
          zonalR, firstR, tessR, highR, zonalL, sectL, innerL, facR, icgemR, E.diff, E.eval,
          E.exact, Option.bind_some] at hr ⊢
         repeat (rw [chk_of (by constructor <;> omega)]; try simp only [Option.bind_some])
         )
      | skip
  · simp only [sZonalProd, zonalR, E.eval, E.exact, Option.bind_some] at hr ⊢
    rw [chk_of (x := i + 1) (by constructor <;> omega), Option.bind_some,
      chk_of (x := i + 2) (by constructor <;> omega), Option.bind_some]
    exact chk_of ⟨by have := prod_nonneg hr.1; omega, by have := sq_bound hr.1 hr.2.1 hd; omega⟩
  · simp only [sFirstProd, firstR, E.eval, E.exact, Option.bind_some] at hr ⊢
    rw [chk_of (x := i + 1) (by constructor <;> omega), Option.bind_some]
    exact chk_of ⟨by nlinarith [hr.1], by nlinarith [hr.1, hr.2.1]⟩
  · simp only [sTessProd, tessR, E.diff, E.eval, E.exact, Option.bind_some] at hr ⊢
    rw [chk_of (x := i - j) (by constructor <;> omega), Option.bind_some,
      chk_of (x := i - j + 1) (by constructor <;> omega), Option.bind_some, Option.bind_some,
      chk_of (x := i - j + 2) (by constructor <;> omega), Option.bind_some]
    exact chk_of ⟨by have := prod_nonneg (x := i - j) (by omega); omega,
      by have := sq_bound (x := i - j) (by omega) le_rfl (by omega); omega⟩

/-- **C141 (i)** and beyond that degree some factor does: the statement holds exactly up to degree
46339. -/
theorem gravity_ints_iff (degree order : Int) (ho : 0 ≤ order) (hod : order ≤ degree) :
    AllExact degree order ↔ degree ≤ 46339 := by
  refine ⟨fun h => ?_, gravity_ints_exact degree order ho hod⟩
  by_contra hn
  have h1 := h sZonalProd (by simp [sites]) 46340 0 ⟨by omega, by omega, rfl⟩
  revert h1
  decide +kernel

/-- **C141 (j)** At degree 46340 the factor `(i + 1) * (i + 2)` of the partial derivatives overflows
`int` before it is converted to `double`. -/
theorem gravity_factor_counterexample : sZonalProd.e.eval 46340 0 = none ∧
    zonalR 46340 0 46340 0 ∧ sZonalProd.e.eval 46339 0 = some 2147441940 := by
  refine ⟨by decide +kernel, ⟨by decide, le_rfl, rfl⟩, by decide +kernel⟩

/-- The statement is not empty: every place is reached, for degree and order at least 3. -/
theorem sites_reached (degree order : Int) (ho : 3 ≤ order) (hod : order ≤ degree) :
    ∀ s ∈ sites, ∃ i j, s.range degree order i j := by
  intro s hs
  simp only [sites, List.mem_cons, List.not_mem_nil, or_false] at hs
  rcases hs with h|h|h|h|h|h|h|h|h|h|h|h|h|h|h|h|h|h|h|h|h <;> subst h
  · exact ⟨0, 0, by decide, by omega, rfl⟩
  · exact ⟨0, 0, by decide, by omega, rfl⟩
  · exact ⟨0, 0, by decide, by omega, rfl⟩
  · exact ⟨1, 1, by decide, by omega, rfl⟩
  · exact ⟨1, 1, by decide, by omega, rfl⟩
  · exact ⟨3, 2, by decide, by omega, by decide, by omega⟩
  · exact ⟨3, 2, ⟨by decide, by omega, by decide, by omega⟩, by decide⟩
  · exact ⟨3, 2, ⟨by decide, by omega, by decide, by omega⟩, by decide⟩
  · exact ⟨3, 2, by decide, by omega, by decide, by omega⟩
  · exact ⟨3, 2, ⟨by decide, by omega, by decide, by omega⟩, by decide⟩
  · exact ⟨2, 0, by decide, by omega, rfl⟩
  · exact ⟨1, 1, rfl, by decide, by omega⟩
  · exact ⟨1, 1, rfl, by decide, by omega⟩
  · exact ⟨3, 1, by decide, by omega, by decide, by omega⟩
  · exact ⟨3, 1, by decide, by omega, by decide, by omega⟩
  · exact ⟨3, 1, by decide, by omega, by decide, by omega⟩
  · exact ⟨2, 1, by decide, by omega, by decide, by omega⟩
  · exact ⟨2, 1, by decide, by omega, by decide, by omega⟩
  · exact ⟨2, 1, by decide, by omega, by decide, by omega⟩
  · exact ⟨2, order, by decide, by omega, rfl⟩
  · exact ⟨2, order, by decide, by omega, rfl⟩

/-- `a` and `b` are the smallest and the largest value of the expression at a place. -/
def Extremes (degree order : Int) (s : Site) (ab : Int × Int) : Prop :=
  (∀ i j, s.range degree order i j → ab.1 ≤ s.e.exact i j ∧ s.e.exact i j ≤ ab.2) ∧
  (∃ i j, s.range degree order i j ∧ s.e.exact i j = ab.1) ∧
  (∃ i j, s.range degree order i j ∧ s.e.exact i j = ab.2)

/-- The smallest and the largest value of every integer factor, from the formulas of the recursions. -/
def extremes (d o : Int) : List (Int × Int) :=
  [(-d - 1, -1), (3, d + 3), (2, (d + 1) * (d + 2)), (2, d * (d + 1)), (3, d + 2), (2, d * (d + 1)),
   (4, d + 2), (3, d + 1), (3, d + 2), (4, o + 2), (1, d + 1), (1, 2 * o + 3), (3, 2 * o + 5),
   (5, 2 * d + 3), (3, d + 1 + min (o + 2) d), (2, d + 1), (3, 2 * d + 1), (1, d + 1), (1, d + o),
   (1, d + 1), (o + 1, o + 1)]

theorem prod_mono {x y : Int} (h0 : 0 ≤ x) (h : x ≤ y) : (x + 1) * (x + 2) ≤ (y + 1) * (y + 2) := by
  nlinarith

theorem prod_low {x : Int} (h0 : 0 ≤ x) : 2 ≤ (x + 1) * (x + 2) := by nlinarith

/-- **C141 (k)** The smallest and the largest value each integer factor takes, for every degree and order from 3 on:
both are reached. -/
theorem site_extremes (degree order : Int) (ho : 3 ≤ order) (hod : order ≤ degree) :
    List.Forall₂ (Extremes degree order) sites (extremes degree order) := by
  have lin : ∀ (s : Site) (ab : Int × Int) (i j i' j' : Int),
      (∀ i j, s.range degree order i j → ab.1 ≤ s.e.exact i j ∧ s.e.exact i j ≤ ab.2) →
      (s.range degree order i j ∧ s.e.exact i j = ab.1) → (s.range degree order i' j' ∧ s.e.exact i' j' = ab.2) →
      Extremes degree order s ab := fun s ab i j i' j' h1 h2 h3 => ⟨h1, ⟨i, j, h2⟩, ⟨i', j', h3⟩⟩
  unfold sites extremes
  refine .cons (lin _ _ degree 0 0 0 ?_ ?_ ?_) <| .cons (lin _ _ 0 0 degree 0 ?_ ?_ ?_) <|
    .cons (lin _ _ 0 0 degree 0 ?_ ?_ ?_) <| .cons (lin _ _ 1 1 degree 1 ?_ ?_ ?_) <|
    .cons (lin _ _ 1 1 degree 1 ?_ ?_ ?_) <| .cons (lin _ _ 1 1 degree 1 ?_ ?_ ?_) <|
    .cons (lin _ _ 2 2 degree 2 ?_ ?_ ?_) <| .cons (lin _ _ 2 2 degree 2 ?_ ?_ ?_) <|
    .cons (lin _ _ 1 1 degree 1 ?_ ?_ ?_) <| .cons (lin _ _ 2 2 degree order ?_ ?_ ?_) <|
    .cons (lin _ _ 2 0 (degree + 2) 0 ?_ ?_ ?_) <| .cons (lin _ _ 1 1 (order + 2) (order + 2) ?_ ?_ ?_) <|
    .cons (lin _ _ 1 1 (order + 2) (order + 2) ?_ ?_ ?_) <| .cons (lin _ _ 3 1 (degree + 2) 1 ?_ ?_ ?_) <|
    .cons (lin _ _ 3 1 (degree + 2) (min (order + 2) degree) ?_ ?_ ?_) <|
    .cons (lin _ _ 3 1 (degree + 2) 1 ?_ ?_ ?_) <| .cons (lin _ _ 1 0 degree 0 ?_ ?_ ?_) <|
    .cons (lin _ _ 1 1 degree 0 ?_ ?_ ?_) <| .cons (lin _ _ 1 0 degree order ?_ ?_ ?_) <|
    .cons (lin _ _ 0 order degree order ?_ ?_ ?_) <| .cons (lin _ _ 0 order 0 order ?_ ?_ ?_) .nil
  all_goals
    simp only [sZonalNeg, sZonal3, sZonalProd, sFirstProd, sFirst2, sTessProd, sHigh4, sHigh3, sRatio4, sCol2,
      sLegN1, sSectM, sSectP, sInner2, sInnerS, sInnerD, sFac2, sFacStart, sFacStop, sIcgemI, sIcgemM,
      zonalR, firstR, tessR, highR, zonalL, sectL, innerL, facR, icgemR, E.diff, E.exact, and_true, true_and, le_refl]
  all_goals first
    | omega
    | (intro i j h
       constructor <;> omega)
    | (refine ⟨by omega, ?_⟩; ring)
    | (constructor <;> omega)
    | skip
  · intro i j h
    exact ⟨prod_low h.1, prod_mono h.1 h.2.1⟩
  · intro i j h
    have e : ∀ x : Int, x * (x + 1) = (x - 1 + 1) * (x - 1 + 2) := fun x => by ring
    rw [e i, e degree]
    exact ⟨prod_low (by omega), prod_mono (by omega) (by omega)⟩
  · intro i j h
    have e : ∀ x : Int, x * (x + 1) = (x - 1 + 1) * (x - 1 + 2) := fun x => by ring
    rw [e degree]
    exact ⟨prod_low (by omega), prod_mono (by omega) (by omega)⟩

/-- **C141 (l)** A negative number of rows or columns is not refused: the number of elements wraps to just below
`2^64`. -/
theorem negative_size (rows cols : Int) (h0 : rows * cols < 0) (h1 : -2147483648 ≤ rows * cols) :
    numElementsI .rowWise rows cols = some (18446744073709551616 - (-(rows * cols)).toNat) := by
  simp only [numElementsI]
  rw [chk_of ⟨h1, by omega⟩, Option.map_some, toSize]
  congr 1
  omega

/-- **C141 (m)** One row too few, `-1`, by five columns asks for `2^64 - 5` elements. -/
theorem negative_size_counterexample : numElementsI .rowWise (-1) 5 = some 18446744073709551611 :=
  negative_size (-1) 5 (by decide) (by decide)

example : AllExact 150 150 := gravity_ints_exact 150 150 (by decide) (by decide) (by decide)

end Verif.Mat2D
