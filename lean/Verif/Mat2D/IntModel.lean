import Verif.Mat2D.Model

/-
The `int` and `size_t` arithmetic of the index functions of `Mat2D` (src/cmat2d.hpp) and of the
integer factors of the gravity code (src/gravity/gravity_acceleration.cpp,
src/gravity/lagrange_poly.cpp, src/gravity/harmonic_coeffs.cpp, src/gravity/icgemio_rddata.cpp).

`int` has 32 bits and `size_t` has 64 bits.  Overflow of an `int` operation is undefined
behaviour and is the outcome `none`; `size_t` wraps.
-/
namespace Verif.Mat2D

/-- The range of `int`. -/
def InInt (x : Int) : Prop := -2147483648 ≤ x ∧ x ≤ 2147483647

instance (x : Int) : Decidable (InInt x) := by unfold InInt; infer_instance

/-- The result of an `int` operation; `none`: overflow. -/
def chk (x : Int) : Option Int := if InInt x then some x else none

/-- Conversion of an `int` to `size_t`. -/
def toSize (x : Int) : Nat := (x % 18446744073709551616).toNat

/-- A `size_t` result. -/
def wrap (n : Nat) : Nat := n % 18446744073709551616

/-! ### Trapezoid -/

/-- `pts_in_row` (src/cmat2d.hpp:51-53). -/
def ptsInRowI (cols row : Int) : Option Int :=
  (chk (row + 1)).map fun r => min r cols

/-- The loop of `slice` (src/cmat2d.hpp:63-64) over the rows `0, …, n - 1`. -/
def sliceLoopI (cols : Int) : Nat → Option Int
  | 0 => some 0
  | n + 1 =>
    (sliceLoopI cols n).bind fun o =>
      (ptsInRowI cols n).bind fun p => chk (o + p)

/-- `slice` of the trapezoid (src/cmat2d.hpp:61-66). -/
def trapSliceI (cols row : Int) : Option Int := sliceLoopI cols row.toNat

/-- `element_offset` of the trapezoid (src/cmat2d.hpp:71-73). -/
def trapOffsetI (rows cols row column : Int) : Option Int :=
  if column ≤ rows then (trapSliceI cols row).bind fun s => chk (s + column)
  else (trapSliceI cols column).bind fun s => chk (s + row)

/-- The loop of `num_elements` (src/cmat2d.hpp:43-46) over the rows `0, …, n - 1`. -/
def numLoopI (cols : Int) : Nat → Option Nat
  | 0 => some 0
  | n + 1 =>
    (numLoopI cols n).bind fun s =>
      (chk ((n : Int) + 1)).map fun r => wrap (s + toSize (min r cols))

/-- `num_elements` of the trapezoid (src/cmat2d.hpp:38-48). -/
def trapNumElementsI (rows cols : Int) : Option Nat :=
  if rows = cols then some (wrap (toSize rows * wrap (toSize rows + 1)) / 2)
  else numLoopI cols rows.toNat

/-! ### All storage classes -/

/-- `num_elements` (src/cmat2d.hpp:38-48, 97, 138). -/
def numElementsI (st : Storage) (rows cols : Int) : Option Nat :=
  match st with
  | .trapezoid => trapNumElementsI rows cols
  | .rowWise => (chk (rows * cols)).map toSize
  | .columnWise => (chk (rows * cols)).map toSize

/-- `element_offset` (src/cmat2d.hpp:71-73, 102-104, 143-145). -/
def offsetI (st : Storage) (rows cols row column : Int) : Option Int :=
  match st with
  | .trapezoid => trapOffsetI rows cols row column
  | .rowWise => (chk (row * cols)).bind fun p => chk (p + column)
  | .columnWise => (chk (column * rows)).bind fun p => chk (p + row)

/-- `slice` (src/cmat2d.hpp:61-66, 114, 155). -/
def sliceI (st : Storage) (rows cols i : Int) : Option Int :=
  match st with
  | .trapezoid => trapSliceI cols i
  | .rowWise => chk (i * cols)
  | .columnWise => chk (i * rows)

/-! ### Integer factors of the gravity code -/

/-- An `int` expression in the loop variables `i` (or `n`) and `j` (or `m`). -/
inductive E where
  | i
  | j
  | lit (n : Int)
  | add (a b : E)
  | sub (a b : E)
  | mul (a b : E)
  | neg (a : E)

/-- The value in `int` arithmetic; `none`: some operation overflows. -/
def E.eval (i j : Int) : E → Option Int
  | .i => some i
  | .j => some j
  | .lit n => some n
  | .add a b => (a.eval i j).bind fun x => (b.eval i j).bind fun y => chk (x + y)
  | .sub a b => (a.eval i j).bind fun x => (b.eval i j).bind fun y => chk (x - y)
  | .mul a b => (a.eval i j).bind fun x => (b.eval i j).bind fun y => chk (x * y)
  | .neg a => (a.eval i j).bind fun x => chk (-x)

/-- A place in the gravity code: the expression and the values its loop variables take, for a
degree and an order. -/
structure Site where
  e : E
  range : (degree order i j : Int) → Prop

/-- Loop over `0 ≤ i ≤ degree` (src/gravity/gravity_acceleration.cpp:21, 84). -/
def zonalR (degree _order i j : Int) : Prop := 0 ≤ i ∧ i ≤ degree ∧ j = 0

/-- Loop over `1 ≤ i ≤ degree`, order 1 (src/gravity/gravity_acceleration.cpp:109). -/
def firstR (degree _order i j : Int) : Prop := 1 ≤ i ∧ i ≤ degree ∧ j = 1

/-- Loops over `1 ≤ i ≤ degree`, `1 ≤ j ≤ min(i, order)`
(src/gravity/gravity_acceleration.cpp:30-31, 125, 141). -/
def tessR (degree order i j : Int) : Prop := 1 ≤ i ∧ i ≤ degree ∧ 1 ≤ j ∧ j ≤ min i order

/-- The same with `j > 1` (src/gravity/gravity_acceleration.cpp:160). -/
def highR (degree order i j : Int) : Prop := tessR degree order i j ∧ 1 < j

/-- Loop over `2 ≤ n ≤ l` (src/gravity/lagrange_poly.cpp:97), where the caller passes
`l = degree + 2`, `k = order + 2` (src/egravity.hpp:191). -/
def zonalL (degree _order i j : Int) : Prop := 2 ≤ i ∧ i ≤ degree + 2 ∧ j = 0

/-- Loop over `1 ≤ m ≤ k` (src/gravity/lagrange_poly.cpp:103). -/
def sectL (_degree order i j : Int) : Prop := i = j ∧ 1 ≤ j ∧ j ≤ order + 2

/-- Loops over `1 ≤ m ≤ k`, `m + 2 ≤ n ≤ l` (src/gravity/lagrange_poly.cpp:103, 114). -/
def innerL (degree order i j : Int) : Prop := 1 ≤ j ∧ j ≤ order + 2 ∧ j + 2 ≤ i ∧ i ≤ degree + 2

/-- Loops over `1 ≤ n ≤ degree`, `0 ≤ i ≤ min(order, n)`
(src/gravity/harmonic_coeffs.cpp:90-92, 70). -/
def facR (degree order i j : Int) : Prop := 1 ≤ i ∧ i ≤ degree ∧ 0 ≤ j ∧ j ≤ min order i

/-- Loop over `0 ≤ i ≤ l` (src/gravity/icgemio_rddata.cpp:24), `j` the order `m`. -/
def icgemR (degree order i j : Int) : Prop := 0 ≤ i ∧ i ≤ degree ∧ j = order

/-- `i - j + n` -/
def E.diff (n : Int) : E := .add (.sub .i .j) (.lit n)

/-- `-(i + 1)` (src/gravity/gravity_acceleration.cpp:23). -/
def sZonalNeg : Site := ⟨.neg (.add .i (.lit 1)), zonalR⟩
/-- `i + 3` (src/gravity/gravity_acceleration.cpp:101); `i + 1` and `i + 2` are parts of others. -/
def sZonal3 : Site := ⟨.add .i (.lit 3), zonalR⟩
/-- `(i + 1) * (i + 2)` (src/gravity/gravity_acceleration.cpp:98). -/
def sZonalProd : Site := ⟨.mul (.add .i (.lit 1)) (.add .i (.lit 2)), zonalR⟩
/-- `i * (i + 1)` (src/gravity/gravity_acceleration.cpp:116). -/
def sFirstProd : Site := ⟨.mul .i (.add .i (.lit 1)), firstR⟩
/-- `i + 2` (src/gravity/gravity_acceleration.cpp:118). -/
def sFirst2 : Site := ⟨.add .i (.lit 2), firstR⟩
/-- `(i - j + 1) * (i - j + 2)` (src/gravity/gravity_acceleration.cpp:40, 150). -/
def sTessProd : Site := ⟨.mul (.diff 1) (.diff 2), tessR⟩
/-- `i - j + 4` (src/gravity/gravity_acceleration.cpp:183). -/
def sHigh4 : Site := ⟨.diff 4, highR⟩
/-- `i - j + 3` (src/gravity/gravity_acceleration.cpp:182). -/
def sHigh3 : Site := ⟨.diff 3, highR⟩
/-- `i - 2 + 4` (src/gravity/gravity_acceleration.cpp:135). -/
def sRatio4 : Site := ⟨.add (.sub .i (.lit 2)) (.lit 4), tessR⟩
/-- `j + 2`, a column index (src/gravity/gravity_acceleration.cpp:162). -/
def sCol2 : Site := ⟨.add .j (.lit 2), highR⟩
/-- `n - 1` (src/gravity/lagrange_poly.cpp:99). -/
def sLegN1 : Site := ⟨.sub .i (.lit 1), zonalL⟩
/-- `2 * m - 1` (src/gravity/lagrange_poly.cpp:105-106). -/
def sSectM : Site := ⟨.sub (.mul (.lit 2) .j) (.lit 1), sectL⟩
/-- `2 * m + 1` (src/gravity/lagrange_poly.cpp:109-110). -/
def sSectP : Site := ⟨.add (.mul (.lit 2) .j) (.lit 1), sectL⟩
/-- `2 * n - 1` (src/gravity/lagrange_poly.cpp:116, 119). -/
def sInner2 : Site := ⟨.sub (.mul (.lit 2) .i) (.lit 1), innerL⟩
/-- `n + m - 1` (src/gravity/lagrange_poly.cpp:116, 119). -/
def sInnerS : Site := ⟨.sub (.add .i .j) (.lit 1), innerL⟩
/-- `n - m` (src/gravity/lagrange_poly.cpp:117, 120). -/
def sInnerD : Site := ⟨.sub .i .j, innerL⟩
/-- `2 * n + 1` (src/gravity/harmonic_coeffs.cpp:71). -/
def sFac2 : Site := ⟨.add (.mul (.lit 2) .i) (.lit 1), facR⟩
/-- `n - m + 1` (src/gravity/harmonic_coeffs.cpp:61). -/
def sFacStart : Site := ⟨.diff 1, facR⟩
/-- `n + m` (src/gravity/harmonic_coeffs.cpp:62). -/
def sFacStop : Site := ⟨.add .i .j, facR⟩
/-- `i + 1` (src/gravity/icgemio_rddata.cpp:25; `l + 1` at 19 and `m_degree + 1`,
src/gravity/harmonic_coeffs.cpp:8-10, are its largest values). -/
def sIcgemI : Site := ⟨.add .i (.lit 1), icgemR⟩
/-- `m + 1` (src/gravity/icgemio_rddata.cpp:25). -/
def sIcgemM : Site := ⟨.add .j (.lit 1), icgemR⟩

/-- All of them. -/
def sites : List Site :=
  [sZonalNeg, sZonal3, sZonalProd, sFirstProd, sFirst2, sTessProd, sHigh4, sHigh3, sRatio4, sCol2,
   sLegN1, sSectM, sSectP, sInner2, sInnerS, sInnerD, sFac2, sFacStart, sFacStop, sIcgemI, sIcgemM]

end Verif.Mat2D
