/-
Model of the "load if not already loaded" helpers: src/planets/cspice_utils.cpp:4-73.

CSPICE itself is outside the program.  Assumed of it:
* `ktotal_c(kind, …)` and `kdata_c(i, kind, …)` enumerate, in loading order, the loaded kernels of a
  category; "text" are all text kernels, "spk" and "pck" the binary kernels of these architectures
  (a text PCK such as a `.tpc` constants file belongs to "text", not to "pck");
* `kdata_c` delivers the name under which the kernel was loaded, cut to what fits in the buffer of the
  caller (`FILLEN` = 128 characters including the terminator);
* `furnsh_c` loads the kernel (a kernel that cannot be read ends the program: default error action);
  which category a file belongs to depends only on the file.
Meta-kernels, which load further kernels, are not modelled.
-/
namespace Verif.Spice

/-- Kernel categories of CSPICE. -/
inductive Kind
  | text
  | spk
  | pck
  | other
  deriving DecidableEq, Repr

/-- A file name, without its terminator. -/
abbrev Name := List Char

/-- The loaded kernels in loading order, each with its category. -/
abbrev Pool := List (Name × Kind)

/-- `!strncmp(a, b, n)`: the strings, followed by their terminators, agree in the first `n` characters
or up to a common terminator. -/
def strnEq : Name → Name → Nat → Bool
  | _, _, 0 => true
  | [], [], _ + 1 => true
  | [], _ :: _, _ + 1 => false
  | _ :: _, [], _ + 1 => false
  | a :: as, b :: bs, n + 1 => a == b && strnEq as bs n

/-- `FILLEN` (src/planets/cspice_utils.cpp:4). -/
def filLen : Nat := 128

/-- The names delivered by `kdata_c` for a category (src/planets/cspice_utils.cpp:17-22, 40-45,
63-68). -/
def listed (pool : Pool) (k : Kind) : List Name :=
  (pool.filter fun e => e.2 = k).map fun e => e.1.take (filLen - 1)

/-- `furnsh_c` (src/planets/cspice_utils.cpp:27, 50, 73). -/
def furnish (typeOf : Name → Kind) (pool : Pool) (name : Name) : Pool := pool ++ [(name, typeOf name)]

/-- `load_if_unloaded_lsk`, `load_if_unloaded_spk`, `load_if_unloaded_pck`
(src/planets/cspice_utils.cpp:8-29, 31-52, 54-75): the same code with the categories "text", "spk" and
"pck".  The loop returns at the first listed name of which the requested name is the beginning. -/
def loadIfUnloaded (typeOf : Name → Kind) (k : Kind) (pool : Pool) (name : Name) : Pool :=
  if (listed pool k).any fun f => strnEq f name name.length then pool
  else furnish typeOf pool name

/-- A sequence of requests. -/
def requests (typeOf : Name → Kind) (pool : Pool) : List (Kind × Name) → Pool
  | [] => pool
  | (k, n) :: rs => requests typeOf (loadIfUnloaded typeOf k pool n) rs

end Verif.Spice
