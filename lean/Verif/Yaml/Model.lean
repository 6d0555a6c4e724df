/-
Model of the configuration look-ups: src/var_utils.hpp:15-116, src/var/yaml_utils.cpp:3-16.

The yaml-cpp library is outside the program.  Assumed of it:
* indexing a constant node with a string: a mapping gives the value of the first entry whose key is that
  scalar; a missing key, a null and a sequence give an invalid ("zombie") node; a scalar throws
  `BadSubscript`; an invalid node throws `InvalidNode`;
* `as<T>()` throws for an invalid node and if the conversion fails; which nodes convert to `T`, and to
  what, is a parameter.
Memory exhaustion is not modelled.
-/
namespace Verif.Yaml

/-- A document. -/
inductive Tree
  | null
  | scalar (s : String)
  | seq (items : List Tree)
  | map (entries : List (Tree × Tree))

/-- A `YAML::Node` handle. -/
inductive Ref
  | zombie
  | node (t : Tree)

/-- The key of an entry is the given scalar. -/
def isKey (key : String) : Tree → Bool
  | .scalar s => s == key
  | _ => false

/-- Value of the first entry with the key. -/
def find (key : String) : List (Tree × Tree) → Option Tree
  | [] => none
  | (k, v) :: es => if isKey key k then some v else find key es

/-- `get_yaml_node` (src/var_utils.hpp:15-18); `none`: an exception. -/
def getNode (root : Ref) (key : String) : Option Ref :=
  match root with
  | .zombie => none
  | .node (.scalar _) => none
  | .node .null => some .zombie
  | .node (.seq _) => some .zombie
  | .node (.map es) => some (match find key es with | some v => .node v | none => .zombie)

/-- `node.as<T>()`; `none`: an exception. -/
def asT {T : Type} (conv : Tree → Option T) : Ref → Option T
  | .zombie => none
  | .node t => conv t

/-- `get_yaml_value_depth2` (src/var_utils.hpp:40-52): status and value.  Every exception is caught, the
value is assigned last. -/
def depth2 {T : Type} (conv : Tree → Option T) (root : Ref) (key1 key2 : String) (val : T) : Nat × T :=
  match (getNode root key1).bind fun n => (getNode n key2).bind (asT conv) with
  | some x => (0, x)
  | none => (1, val)

/-- `get_yaml_value_depth3` (src/var_utils.hpp:102-107): the first look-up is outside the `try`; `none`:
an exception leaves the function. -/
def depth3 {T : Type} (conv : Tree → Option T) (root : Ref) (key1 key2 key3 : String) (val : T) :
    Option (Nat × T) :=
  match getNode root key1 with
  | none => none
  | some n => some (depth2 conv n key2 key3 val)

/-- `std::strcpy` into a buffer: the characters up to the first NUL, and a NUL.  `none`: written past
the end. -/
def strcpy (buf : List Char) (s : List Char) : Option (List Char) :=
  let w := s.takeWhile (· ≠ '\x00') ++ ['\x00']
  if w.length ≤ buf.length then some (w ++ buf.drop w.length) else none

/-- `get_yaml_value_depth2` for strings (src/var/yaml_utils.cpp:3-16): status and buffer; `none`:
undefined behaviour. -/
def depth2s (conv : Tree → Option (List Char)) (root : Ref) (key1 key2 : String) (buf : List Char) :
    Option (Nat × List Char) :=
  match (getNode root key1).bind fun n => (getNode n key2).bind (asT conv) with
  | some s => (strcpy buf s).map fun b => (0, b)
  | none => some (1, buf)

end Verif.Yaml
