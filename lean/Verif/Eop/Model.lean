import Verif.Text.Model

/-
Model of `EopLookUpTable` (src/eop.hpp).

Memory is modelled at byte level: a stored `double` is eight fragments of its value, and loading
eight bytes gives a value only when they are the eight fragments of one value (anything else is
an indeterminate value: `none`).  `delete[] nullptr` and `memcpy` of zero bytes do nothing.
Sizes and capacities are natural numbers (negative arguments are not modelled).
-/
namespace Verif.Eop

variable {V : Type} [DecidableEq V]

/-- An allocated array of `size` doubles. -/
structure Block (V : Type) where
  size : Nat
  byte : Nat → Option (V × Nat)

/-- `new double[n]`. -/
def Block.fresh (n : Nat) : Block V := ⟨n, fun _ => none⟩

/-- Load the double at index `i`. -/
def Block.load (b : Block V) (i : Nat) : Option V :=
  match b.byte (8 * i) with
  | none => none
  | some (v, _) => if (List.range 8).all (fun k => b.byte (8 * i + k) == some (v, k)) then some v else none

/-- Store a double at index `i`. -/
def Block.store (b : Block V) (i : Nat) (v : V) : Block V :=
  { b with byte := fun a => if a / 8 = i then some (v, a % 8) else b.byte a }

/-- `memcpy(dst + d, src + s, n)`: offsets `d`, `s` in doubles, `n` in bytes. -/
def Block.memcpy (dst : Block V) (d : Nat) (src : Block V) (s n : Nat) : Block V :=
  { dst with byte := fun a => if 8 * d ≤ a ∧ a < 8 * d + n then src.byte (a - 8 * d + 8 * s)
      else dst.byte a }

/-- The members of `EopLookUpTable` (src/eop.hpp:22-36).  The eight column pointers always point
into one array with a common distance: column `c` is `colBlk + c * stride`. -/
structure Table where
  sz : Nat
  capacity : Nat
  arena : Option Nat
  colBlk : Nat
  stride : Nat
deriving DecidableEq, Repr

/-- Program state: live arrays and live tables. -/
structure State (V : Type) where
  next : Nat
  heap : Nat → Option (Block V)
  tab : Nat → Option Table

/-- No array, no table. -/
def State.init : State V := ⟨0, fun _ => none, fun _ => none⟩

def State.setTab (s : State V) (o : Nat) (t : Option Table) : State V :=
  { s with tab := fun x => if x = o then t else s.tab x }

def State.setBlk (s : State V) (p : Nat) (b : Option (Block V)) : State V :=
  { s with heap := fun x => if x = p then b else s.heap x }

/-- `new double[n]`: state and address. -/
def State.alloc (s : State V) (n : Nat) : State V × Nat :=
  ({ (s.setBlk s.next (some (Block.fresh n))) with next := s.next + 1 }, s.next)

/-- `delete[] p`; `none`: not a live array. -/
def State.free (s : State V) : Option Nat → Option (State V)
  | none => some s
  | some p => if (s.heap p).isSome then some (s.setBlk p none) else none

/-- `EopLookUpTable(cap)` (src/eop.hpp:139-145) for a new object `o`. -/
def construct (s : State V) (o cap : Nat) : Option (State V) :=
  match s.tab o with
  | some _ => none
  | none =>
    let (s1, p) := s.alloc (cap * 8)
    some (s1.setTab o (some ⟨cap, cap, some p, p, cap⟩))

/-- `resize(n)` (src/eop.hpp:148-168). -/
def resize (s : State V) (o n : Nat) : Option (State V) :=
  match s.tab o with
  | none => none
  | some t =>
    if n < t.capacity then some (s.setTab o (some { t with sz := n }))
    else
      match s.free t.arena with
      | none => none
      | some s1 =>
        let (s2, p) := s1.alloc (n * 8)
        some (s2.setTab o (some ⟨n, n, some p, p, n⟩))

/-- Destructor (src/eop.hpp:171-175). -/
def destroy (s : State V) (o : Nat) : Option (State V) :=
  match s.tab o with
  | none => none
  | some t =>
    match s.free t.arena with
    | none => none
    | some s1 => some (s1.setTab o none)

/-- Move constructor (src/eop.hpp:178-184): new object `o` from `o'`. -/
def moveCtor (s : State V) (o o' : Nat) : Option (State V) :=
  match s.tab o, s.tab o' with
  | none, some t =>
    some ((s.setTab o (some { t with capacity := t.sz })).setTab o'
      (some { t with sz := 0, capacity := 0, arena := none }))
  | _, _ => none

/-- Move assignment (src/eop.hpp:212-232). -/
def moveAssign (s : State V) (o o' : Nat) : Option (State V) :=
  match s.tab o, s.tab o' with
  | some _, some t =>
    if o = o' then some s
    else some ((s.setTab o (some { t with capacity := t.sz })).setTab o'
      (some { t with sz := 0, capacity := 0, arena := none }))
  | _, _ => none

/-- The eight `memcpy` calls (src/eop.hpp:192-206, 238-252): `sz` bytes per column between
`dst + c * dcap` and `src + c * scap`.  `none`: a call leaves its array. -/
def copyCols (s : State V) (dst src : Option Nat) (dcap scap sz : Nat) : Option (State V) :=
  match dst, src with
  | some p, some q =>
    match s.heap p, s.heap q with
    | some b, some b' =>
      if (List.range 8).all (fun c => decide (8 * (c * dcap) + sz ≤ 8 * b.size ∧
          8 * (c * scap) + sz ≤ 8 * b'.size)) then
        some (s.setBlk p (some ((List.range 8).foldl
          (fun b c => b.memcpy (c * dcap) b' (c * scap) sz) b)))
      else none
    | _, _ => none
  | _, _ => if sz = 0 then some s else none

/-- Copy constructor (src/eop.hpp:236-252). -/
def copyCtor (s : State V) (o o' : Nat) : Option (State V) :=
  match s.tab o, s.tab o' with
  | none, some t =>
    let (s1, p) := s.alloc (t.sz * 8)
    match copyCols s1 (some p) t.arena t.sz t.capacity t.sz with
    | none => none
    | some s2 => some (s2.setTab o (some ⟨t.sz, t.sz, some p, p, t.sz⟩))
  | _, _ => none

/-- Copy assignment (src/eop.hpp:187-209).  `colBlk` of a table without array is irrelevant. -/
def copyAssign (s : State V) (o o' : Nat) : Option (State V) :=
  match s.tab o, s.tab o' with
  | some t, some t' =>
    if o = o' then some s
    else
      match (if t.sz ≠ t'.sz then resize s o t'.sz else some s) with
      | none => none
      | some s1 =>
        match s1.tab o with
        | none => none
        | some t1 =>
          match copyCols s1 t1.arena t'.arena t1.capacity t'.capacity t1.sz with
          | none => none
          | some s2 =>
            some (s2.setTab o (some { t1 with colBlk := t1.arena.getD t1.colBlk,
                                              stride := t1.capacity }))
  | _, _ => none

/-- Column `c`, index `i` of a table: `*(mjd(i))`, `*(xp(i))`, … for `c = 0, 1, …` in the order of
the member declarations (src/eop.hpp:29-36, 41-136).  `none`: index not below the size, or the
location is not inside a live array; `some none`: indeterminate. -/
def read (s : State V) (o c i : Nat) : Option (Option V) :=
  match s.tab o with
  | none => none
  | some t =>
    if i < t.sz ∧ c < 8 then
      match s.heap t.colBlk with
      | none => none
      | some b => if c * t.stride + i < b.size then some (b.load (c * t.stride + i)) else none
    else none

/-- Store through a column pointer. -/
def write (s : State V) (o c i : Nat) (v : V) : Option (State V) :=
  match s.tab o with
  | none => none
  | some t =>
    if i < t.sz ∧ c < 8 then
      match s.heap t.colBlk with
      | none => none
      | some b =>
        if c * t.stride + i < b.size then
          some (s.setBlk t.colBlk (some (b.store (c * t.stride + i) v)))
        else none
    else none

/-- One step of a client program. -/
inductive Op (V : Type) where
  | construct (o cap : Nat)
  | resize (o n : Nat)
  | destroy (o : Nat)
  | moveCtor (o o' : Nat)
  | moveAssign (o o' : Nat)
  | copyCtor (o o' : Nat)
  | copyAssign (o o' : Nat)
  | write (o c i : Nat) (v : V)

def step (s : State V) : Op V → Option (State V)
  | .construct o cap => Eop.construct s o cap
  | .resize o n => Eop.resize s o n
  | .destroy o => Eop.destroy s o
  | .moveCtor o o' => Eop.moveCtor s o o'
  | .moveAssign o o' => Eop.moveAssign s o o'
  | .copyCtor o o' => Eop.copyCtor s o o'
  | .copyAssign o o' => Eop.copyAssign s o o'
  | .write o c i v => Eop.write s o c i v

/-- The client's obligations: constructors take a fresh object, other operations live ones, and
indices are below the size. -/
def Legal (s : State V) : Op V → Prop
  | .construct o _ => s.tab o = none
  | .resize o _ => (s.tab o).isSome
  | .destroy o => (s.tab o).isSome
  | .moveCtor o o' => s.tab o = none ∧ (s.tab o').isSome
  | .moveAssign o o' => (s.tab o).isSome ∧ (s.tab o').isSome
  | .copyCtor o o' => s.tab o = none ∧ (s.tab o').isSome
  | .copyAssign o o' => (s.tab o).isSome ∧ (s.tab o').isSome
  | .write o c i _ => ∃ t, s.tab o = some t ∧ i < t.sz ∧ c < 8

/-- A history in which the client keeps its obligations, with its outcome. -/
inductive Runs : State V → List (Op V) → State V → Prop
  | nil (s) : Runs s [] s
  | cons {s op s' ops s''} : Legal s op → step s op = some s' → Runs s' ops s'' →
      Runs s (op :: ops) s''

end Verif.Eop
