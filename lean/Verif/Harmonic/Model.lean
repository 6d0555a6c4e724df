import Verif.Heap.Model
import Mathlib.Analysis.Real.Sqrt

/-
Model of `HarmonicCoeffs` (src/harmonic_coeffs.hpp, src/gravity/harmonic_coeffs.cpp).

Degrees and orders are natural numbers (negative degrees are outside the model).
-/
namespace Verif.Harmonic

/-! ### Addresses -/

/-- `C(i, j)` (src/harmonic_coeffs.hpp:129-134, 148-153): slot `(row, column)` of `m_data`. -/
def addrC (_N i j : Nat) : Nat × Nat := (i, j)

/-- `S(i, j)` (src/harmonic_coeffs.hpp:171-177, 198-203): `off = m_degree - i`, then
`m_data[off] + off + 1` indexed by `j - 1`.  Faithful for `i ≤ N` (for `i > N` the C++ row
index is negative, here it is truncated to zero). -/
def addrS (N i j : Nat) : Nat × Nat := (N - i, N - i + 1 + j - 1)

/-- The allocated rows (src/gravity/harmonic_coeffs.cpp:7-12): `N+1` rows of `N+1` cells. -/
def InBuffer (N : Nat) (a : Nat × Nat) : Prop := a.1 ≤ N ∧ a.2 ≤ N

/-- Contents of the rows. -/
abbrev Table := Nat × Nat → ℝ

/-- Store into one slot. -/
noncomputable def Table.store (t : Table) (a : Nat × Nat) (v : ℝ) : Table :=
  fun b => if b = a then v else t b

/-! ### De-normalisation -/

/-- The product loop of `_sum` for `m > 0` (src/gravity/harmonic_coeffs.cpp:61-66): `k`
factors starting at `start`. -/
def sumLoop (start : Nat) : Nat → ℝ
  | 0 => 1
  | k + 1 => sumLoop start k * ((start + k : Nat) : ℝ)

/-- `_sum` (src/gravity/harmonic_coeffs.cpp:58-67): the factors are `n-m+1 .. n+m`, that is
`2m` of them (for `m ≤ n`). -/
def sumFac (n m : Nat) : ℝ :=
  if m = 0 then 1 else sumLoop (n - m + 1) (2 * m)

/-- `compute_fac`, entry `i` (src/gravity/harmonic_coeffs.cpp:69-73). -/
noncomputable def fac (n i : Nat) : ℝ :=
  Real.sqrt (sumFac n i / (2 * n + 1) / (2 - (if i = 0 then 1 else 0)))

/-- One in-place division `t[a] /= f` (src/gravity/harmonic_coeffs.cpp:97, 102). -/
noncomputable def divAt (t : Table) (a : Nat × Nat) (f : ℝ) : Table := t.store a (t a / f)

/-- Body of the loop over `n` (src/gravity/harmonic_coeffs.cpp:90-103) for table degree `N`:
C coefficients `m = 0 .. mm`, then S coefficients `m = 1 .. mm`. -/
noncomputable def denormRow (N order : Nat) (t : Table) (n : Nat) : Table :=
  let mm := min order n
  let t1 := (List.range (mm + 1)).foldl (fun t m => divAt t (addrC N n m) (fac n m)) t
  (List.range' 1 mm).foldl
    (fun t m => divAt t (addrS N n m) (fac n m)) t1

/-- Object state used by `denormalize`. -/
structure Coeffs where
  degree : Nat
  normalized : Bool
  data : Table

/-- Result of a call. -/
inductive Outcome (α : Type) where
  /-- returned with a status -/
  | ret (status : Int) (v : α)
  /-- a failed `assert` (src/gravity/harmonic_coeffs.cpp:88) -/
  | abort

/-- `denormalize(order)` (src/gravity/harmonic_coeffs.cpp:75-108). -/
noncomputable def denormalize (c : Coeffs) (order : Int) : Outcome Coeffs :=
  if c.normalized = false then .ret 0 c
  else
    let order' : Int := if order < 0 then c.degree else order
    if order' > c.degree then .ret 1 c
    else if c.degree = 0 then .abort
    else
      .ret 0 { c with
        data := (List.range' 1 c.degree).foldl (denormRow c.degree order'.toNat) c.data
        normalized := false }

/-! ### Memory -/

open Verif.Heap (Heap)

/-- `m_degree` and `m_data` (src/harmonic_coeffs.hpp:58-59): the outer pointer array is one
block, each of its rows another. -/
structure Obj where
  degree : Nat
  data : Option (Nat × List Nat)
deriving DecidableEq

/-- Program state. -/
structure State where
  heap : Heap
  objs : Nat → Option Obj

/-- Start of a program. -/
def State.init : State := ⟨Heap.init, fun _ => none⟩

/-- Operations on tables. -/
inductive Op where
  | default (x : Nat)
  | construct (x n : Nat)
  | moveConstruct (x y : Nat)
  | moveAssign (x y : Nat)
  | resize (x n : Nat)
  | destroy (x : Nat)
  /-- access to a coefficient stored in row `r` -/
  | access (x r : Nat)
deriving DecidableEq

/-- Abnormal results. -/
inductive Err where
  | misuse
  | ub
deriving DecidableEq

/-- `allocate` (src/gravity/harmonic_coeffs.cpp:7-12). -/
def allocate (h : Heap) (n : Nat) : (Nat × List Nat) × Heap :=
  let (outer, h1) := h.alloc
  let (rows, h2) := h1.allocN (n + 1)
  ((outer, rows), h2)

/-- `deallocate` (src/gravity/harmonic_coeffs.cpp:14-21): frees rows `0 .. m_degree` (reading a
row pointer beyond the array is undefined behaviour), then the outer array. -/
def deallocate (h : Heap) (o : Obj) : Option Heap :=
  match o.data with
  | none => some h
  | some (outer, rows) =>
    if o.degree + 1 ≤ rows.length then
      (h.freeAll (rows.take (o.degree + 1))).bind fun h' => h'.free outer
    else none

/-- Function update. -/
def upd (f : Nat → Option Obj) (x : Nat) (o : Option Obj) : Nat → Option Obj :=
  fun y => if y = x then o else f y

/-- One operation. -/
def step (s : State) : Op → Except Err State
  | .default x =>
    -- src/harmonic_coeffs.hpp:68-69
    match s.objs x with
    | some _ => .error .misuse
    | none => .ok ⟨s.heap, upd s.objs x (some ⟨0, none⟩)⟩
  | .construct x n =>
    -- src/harmonic_coeffs.hpp:71-78
    match s.objs x with
    | some _ => .error .misuse
    | none => let (d, h) := allocate s.heap n; .ok ⟨h, upd s.objs x (some ⟨n, some d⟩)⟩
  | .moveConstruct x y =>
    -- src/gravity/harmonic_coeffs.cpp:35-44; the initial `deallocate` sees the null member
    -- initialiser and does nothing
    match s.objs x, s.objs y with
    | none, some o => .ok ⟨s.heap, upd (upd s.objs x (some o)) y (some ⟨0, none⟩)⟩
    | _, _ => .error .misuse
  | .moveAssign x y =>
    -- src/gravity/harmonic_coeffs.cpp:46-56
    match s.objs x, s.objs y with
    | some _, some o => .ok ⟨s.heap, upd (upd s.objs x (some o)) y (some ⟨0, none⟩)⟩
    | _, _ => .error .misuse
  | .resize x n =>
    -- src/gravity/harmonic_coeffs.cpp:23-33
    match s.objs x with
    | none => .error .misuse
    | some o =>
      if n ≤ o.degree then .ok ⟨s.heap, upd s.objs x (some ⟨n, o.data⟩)⟩
      else
        match deallocate s.heap o with
        | none => .error .ub
        | some h =>
          let (d, h') := allocate h n
          .ok ⟨h', upd s.objs x (some ⟨n, some d⟩)⟩
  | .destroy x =>
    -- src/harmonic_coeffs.hpp:88
    match s.objs x with
    | none => .error .misuse
    | some o =>
      match deallocate s.heap o with
      | none => .error .ub
      | some h => .ok ⟨h, upd s.objs x none⟩
  | .access x r =>
    -- src/harmonic_coeffs.hpp:129-213: reads `m_data[r]`, then a cell of that row
    match s.objs x with
    | none => .error .misuse
    | some o =>
      match o.data with
      | none => .error .ub
      | some (outer, rows) =>
        if outer ∈ s.heap.live then
          match rows[r]? with
          | none => .error .ub
          | some p => if p ∈ s.heap.live then .ok s else .error .ub
        else .error .ub

/-- A history of operations. -/
def run (s : State) : List Op → Except Err State
  | [] => .ok s
  | op :: ops =>
    match step s op with
    | .error e => .error e
    | .ok s' => run s' ops

end Verif.Harmonic
