import Verif.Heap.Model
import Mathlib.Algebra.Field.Defs
import Mathlib.Data.List.Range

/-
Model of the polynomial clock models: src/filters/models.hpp:10-83.

Values are elements of a field (no rounding), the abscissa is arithmetic (for dates `deltax` is the
difference in seconds, src/filters/models.hpp:33-39, computed elsewhere).  An object is its order, its
reference abscissa and a pointer; the coefficients live in heap blocks.  Fresh storage has arbitrary
contents, given with the operation.  The copy assignment (src/filters/models.hpp:51-58) does not compile
when used (`*this != p` has no operator, `p.xref()` is no function), so it is not an operation here.
-/
namespace Verif.Poly

open Verif.Heap (Heap)

variable {K : Type} [Field K]

/-- `LinearModel::value_at` (src/filters/models.hpp:16). -/
def linearValue (xref a b x : K) : K := a + b * (x - xref)

/-- `PolynomialModel::value_at` (src/filters/models.hpp:72-81). -/
def valueAt (order : ℕ) (xref : K) (cf : ℕ → K) (x : K) : K :=
  ((List.range' 1 order).foldl (fun p i => (p.1 + cf i * p.2, p.2 * (x - xref)))
    (cf 0, x - xref)).1

/-- A `PolynomialModel` object (src/filters/models.hpp:21-23). -/
structure Obj (K : Type) where
  order : ℕ
  xref : K
  cf : ℕ

/-- Program state: allocator, contents of the blocks, objects. -/
structure State (K : Type) where
  heap : Heap
  mem : ℕ → List K
  objs : ℕ → Option (Obj K)

/-- Operations; `g` are the contents of fresh storage. -/
inductive Op (K : Type) where
  | construct (x n : ℕ) (xref : K) (g : ℕ → K)
  | copyConstruct (x y : ℕ)
  | moveConstruct (x y : ℕ)
  | moveAssign (x y : ℕ)
  | resize (x n : ℕ) (g : ℕ → K)
  | setCoef (x i : ℕ) (v : K)
  | setRef (x : ℕ) (v : K)
  | destroy (x : ℕ)

/-- Abnormal results: use of an object that does not exist (or exists already), undefined behaviour. -/
inductive Err where
  | misuse
  | ub
  deriving DecidableEq

/-- Contents of fresh storage for order `n`. -/
def fresh (n : ℕ) (g : ℕ → K) : List K := (List.range (n + 1)).map g

/-- Function update. -/
def set {α : Type} (f : ℕ → α) (x : ℕ) (a : α) : ℕ → α := fun y => if y = x then a else f y

/-- One operation. -/
def step (s : State K) : Op K → Except Err (State K)
  | .construct x n r g =>
    -- src/filters/models.hpp:41-42
    match s.objs x with
    | some _ => .error .misuse
    | none => .ok ⟨s.heap.alloc.2, set s.mem s.heap.alloc.1 (fresh n g),
        set s.objs x (some ⟨n, r, s.heap.alloc.1⟩)⟩
  | .copyConstruct x y =>
    -- src/filters/models.hpp:46-49
    match s.objs x, s.objs y with
    | none, some o =>
      if o.cf ∈ s.heap.live ∧ o.order + 1 ≤ (s.mem o.cf).length then
        .ok ⟨s.heap.alloc.2, set s.mem s.heap.alloc.1 ((s.mem o.cf).take (o.order + 1)),
          set s.objs x (some ⟨o.order, o.xref, s.heap.alloc.1⟩)⟩
      else .error .ub
    | _, _ => .error .misuse
  | .moveConstruct x y =>
    -- src/filters/models.hpp:60-61
    match s.objs x, s.objs y with
    | none, some o => .ok { s with objs := set s.objs x (some o) }
    | _, _ => .error .misuse
  | .moveAssign x y =>
    -- src/filters/models.hpp:63-68
    match s.objs x, s.objs y with
    | some _, some o => .ok { s with objs := set s.objs x (some o) }
    | _, _ => .error .misuse
  | .resize x n g =>
    -- src/filters/models.hpp:25-31
    match s.objs x with
    | none => .error .misuse
    | some o =>
      if n = o.order then .ok s
      else
        match s.heap.free o.cf with
        | none => .error .ub
        | some h => .ok ⟨h.alloc.2, set s.mem h.alloc.1 (fresh n g),
            set s.objs x (some ⟨n, o.xref, h.alloc.1⟩)⟩
  | .setCoef x i v =>
    -- the member `cf` is public (src/filters/models.hpp:23)
    match s.objs x with
    | none => .error .misuse
    | some o =>
      if o.cf ∈ s.heap.live ∧ i < (s.mem o.cf).length then
        .ok { s with mem := set s.mem o.cf ((s.mem o.cf).set i v) }
      else .error .ub
  | .setRef x v =>
    -- the member `xref` is public (src/filters/models.hpp:22)
    match s.objs x with
    | none => .error .misuse
    | some o => .ok { s with objs := set s.objs x (some { o with xref := v }) }
  | .destroy x =>
    -- src/filters/models.hpp:44
    match s.objs x with
    | none => .error .misuse
    | some o =>
      if o.order ≠ 0 then
        match s.heap.free o.cf with
        | none => .error .ub
        | some h => .ok { s with heap := h, objs := set s.objs x none }
      else .ok { s with objs := set s.objs x none }

/-- A history of operations. -/
def run (s : State K) : List (Op K) → Except Err (State K)
  | [] => .ok s
  | op :: ops =>
    match step s op with
    | .error e => .error e
    | .ok s' => run s' ops

/-- Start of a program. -/
def State.init : State K := ⟨Heap.init, fun _ => [], fun _ => none⟩

end Verif.Poly
