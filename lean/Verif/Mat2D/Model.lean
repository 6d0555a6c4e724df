import Verif.Heap.Model

/-
Model of `Mat2D<S>` and its storage classes (src/cmat2d.hpp).

Row/column counts and indices are natural numbers (the C++ uses `int`; negative shapes are
outside the model; `int` overflow is the subject of `IntModel.lean`).
-/
namespace Verif.Mat2D

/-- `MatrixStorageType` (src/cmat2d.hpp:17-21). -/
inductive Storage where
  | trapezoid
  | rowWise
  | columnWise
deriving DecidableEq, Repr

/-- The data members of `StorageImplementation` (src/cmat2d.hpp:34, 93, 134). -/
structure Shape where
  rows : Nat
  cols : Nat
deriving DecidableEq, Repr

/-! ### Trapezoid -/

/-- `pts_in_row` (src/cmat2d.hpp:51-53). -/
def ptsInRow (s : Shape) (row : Nat) : Nat := min (row + 1) s.cols

/-- The loop of `num_elements` (src/cmat2d.hpp:43-46), as a recursion on the row count. -/
def trapLoop (cols : Nat) : Nat → Nat
  | 0 => 0
  | r + 1 => trapLoop cols r + min (r + 1) cols

/-- `num_elements` of the trapezoid (src/cmat2d.hpp:38-48). -/
def trapNumElements (s : Shape) : Nat :=
  if s.rows = s.cols then s.rows * (s.rows + 1) / 2 else trapLoop s.cols s.rows

/-- `slice` of the trapezoid (src/cmat2d.hpp:61-66). -/
def trapSlice (s : Shape) : Nat → Nat
  | 0 => 0
  | row + 1 => trapSlice s row + ptsInRow s row

/-- `element_offset` of the trapezoid (src/cmat2d.hpp:71-73). -/
def trapOffset (s : Shape) (row column : Nat) : Nat :=
  if column ≤ s.rows then trapSlice s row + column else trapSlice s column + row

/-! ### All storage classes -/

/-- `num_elements` (src/cmat2d.hpp:38-48, 97, 138). -/
def numElements (st : Storage) (s : Shape) : Nat :=
  match st with
  | .trapezoid => trapNumElements s
  | .rowWise => s.rows * s.cols
  | .columnWise => s.rows * s.cols

/-- `element_offset` (src/cmat2d.hpp:71-73, 102-104, 143-145). -/
def offset (st : Storage) (s : Shape) (row column : Nat) : Nat :=
  match st with
  | .trapezoid => trapOffset s row column
  | .rowWise => row * s.cols + column
  | .columnWise => column * s.rows + row

/-- `slice` (src/cmat2d.hpp:61-66, 114, 155): rows for trapezoid and row-wise storage,
columns for column-wise storage. -/
def slice (st : Storage) (s : Shape) (i : Nat) : Nat :=
  match st with
  | .trapezoid => trapSlice s i
  | .rowWise => i * s.cols
  | .columnWise => i * s.rows

/-- A live matrix: its shape and the contents of its buffer. -/
structure Mat (α : Type) where
  shape : Shape
  data : List α

/-- `operator()` used for reading (src/cmat2d.hpp:196-201); `none`: the access is outside
the allocated buffer. -/
def Mat.get? {α : Type} (st : Storage) (m : Mat α) (i j : Nat) : Option α :=
  m.data[offset st m.shape i j]?

/-- `operator()` used for writing (src/cmat2d.hpp:188-193); `none`: the access is outside
the allocated buffer. -/
def Mat.set? {α : Type} (st : Storage) (m : Mat α) (i j : Nat) (v : α) : Option (Mat α) :=
  if offset st m.shape i j < m.data.length then
    some { m with data := m.data.set (offset st m.shape i j) v }
  else none

/-- `fill_with` (src/cmat2d.hpp:217-219): the first `num_elements()` slots. -/
def Mat.fillWith {α : Type} (st : Storage) (m : Mat α) (v : α) : Option (Mat α) :=
  if numElements st m.shape ≤ m.data.length then
    some { m with data := List.replicate (numElements st m.shape) v
                            ++ m.data.drop (numElements st m.shape) }
  else none

/-- Constructor (src/cmat2d.hpp:227-228): a buffer of `num_elements()` cells with
indeterminate contents, here an arbitrary list of that length. -/
def Mat.IsFresh {α : Type} (st : Storage) (r c : Nat) (m : Mat α) : Prop :=
  m.shape = ⟨r, c⟩ ∧ m.data.length = numElements st ⟨r, c⟩

/-! ### Ownership of the buffer

Objects are named by natural numbers.  `ptr = none` is a null `m_data`. -/

open Verif.Heap (Heap)

/-- The pointer member of a constructed matrix (src/cmat2d.hpp:176). -/
structure Obj where
  ptr : Option Nat
deriving DecidableEq, Repr

/-- Program state: allocator plus constructed objects. -/
structure State where
  heap : Heap
  objs : Nat → Option Obj

/-- Start: nothing allocated, nothing constructed. -/
def State.init : State := ⟨Heap.init, fun _ => none⟩

/-- What a program may do with matrices.  Copy construction and copy assignment
(src/cmat2d.hpp:235-238, 244-255) pass a `double *` where `memset` takes an `int`; a program
that uses them does not compile, so they are not operations. -/
inductive Op where
  | construct (x : Nat)
  | moveConstruct (x y : Nat)
  | moveAssign (x y : Nat)
  | destroy (x : Nat)
  | access (x : Nat)
deriving DecidableEq, Repr

/-- Why an operation has no normal result. -/
inductive Err where
  /-- the program names an object that does not exist (or already exists) -/
  | misuse
  /-- undefined behaviour inside the class -/
  | ub
deriving DecidableEq, Repr

/-- Function update. -/
def upd (f : Nat → Option Obj) (x : Nat) (o : Option Obj) : Nat → Option Obj :=
  fun y => if y = x then o else f y

/-- One operation. -/
def step (s : State) : Op → Except Err State
  | .construct x =>
    -- src/cmat2d.hpp:227-228
    match s.objs x with
    | some _ => .error .misuse
    | none => let (p, h) := s.heap.alloc; .ok ⟨h, upd s.objs x (some ⟨some p⟩)⟩
  | .moveConstruct x y =>
    -- src/cmat2d.hpp:240-242
    match s.objs x, s.objs y with
    | none, some o => .ok ⟨s.heap, upd (upd s.objs x (some o)) y (some ⟨none⟩)⟩
    | _, _ => .error .misuse
  | .moveAssign x y =>
    -- src/cmat2d.hpp:257-262: a non-void function that ends without `return`
    match s.objs x, s.objs y with
    | some _, some _ => .error .ub
    | _, _ => .error .misuse
  | .destroy x =>
    -- src/cmat2d.hpp:230-233
    match s.objs x with
    | none => .error .misuse
    | some ⟨none⟩ => .ok ⟨s.heap, upd s.objs x none⟩
    | some ⟨some p⟩ =>
      match s.heap.free p with
      | none => .error .ub
      | some h => .ok ⟨h, upd s.objs x none⟩
  | .access x =>
    -- src/cmat2d.hpp:188-201: dereferences `m_data`
    match s.objs x with
    | none => .error .misuse
    | some ⟨none⟩ => .error .ub
    | some ⟨some p⟩ => if p ∈ s.heap.live then .ok s else .error .ub

/-- The state change of `operator=(Mat2D&&)` (src/cmat2d.hpp:257-262), supposing the missing
`return` were there. -/
def moveAssignEffect (s : State) (x y : Nat) : Except Err State :=
  match s.objs x, s.objs y with
  | some _, some o => .ok ⟨s.heap, upd (upd s.objs x (some o)) y (some ⟨none⟩)⟩
  | _, _ => .error .misuse

/-- A history of operations. -/
def run (s : State) : List Op → Except Err State
  | [] => .ok s
  | op :: ops =>
    match step s op with
    | .error e => .error e
    | .ok s' => run s' ops

end Verif.Mat2D
