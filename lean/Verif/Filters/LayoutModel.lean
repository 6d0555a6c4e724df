import Mathlib.Algebra.Order.Ring.Rat

/-
Model of the parameter layout of the filters and of the a-priori setters
(src/filters/filters.hpp).

`Np` is the number of force-model parameters, `ns` the number of stations.  The estimates are a
function from indices, together with the number of parameters; using an index outside the vector
gives `none` (Eigen aborts or the behaviour is undefined).
-/
namespace Verif.Filters

/-- `BeaconClockModel` (src/filters/filters.hpp:15). -/
inductive Clock where
  | none
  | linear
deriving DecidableEq, Repr

/-- `num_params(num_stations)` (src/filters/filters.hpp:23-31). -/
def numParams (c : Clock) (Np ns : Nat) : Nat :=
  6 + Np + ns + ns * (match c with | .none => 1 | .linear => 2)

/-- `tropo_index` (src/filters/filters.hpp:90-92, 245-247). -/
def tropoIndex (c : Clock) (Np b : Nat) : Nat :=
  match c with
  | .linear => 6 + Np + b * 3
  | .none => 6 + Np + b * 2

/-- `rfoff_index` (src/filters/filters.hpp:94-96, 249-251). -/
def rfoffIndex (c : Clock) (Np b : Nat) : Nat :=
  match c with
  | .linear => 6 + Np + b * 3 + 1
  | .none => 6 + Np + b * 2 + 1

/-- `drag_coef_index` (src/filters/filters.hpp:97-100, 252-255); needs `Np ≥ 1`. -/
def dragIndex : Nat := 6

/-- Values by index. -/
abbrev Vec := Nat → ℚ

/-- `x(i) = v` for a vector of size `n`; also `P(i,i) = v` for the diagonal of a matrix. -/
def put (n : Nat) (x : Vec) (i : Nat) (v : ℚ) : Option Vec :=
  if i < n then some fun j => if j = i then v else x j else none

/-- The loop over the stations (src/filters/filters.hpp:150-156, 167-173, 294-300, 311-317,
328-334, 345-351): one value every `step` indices. -/
def putAll (n : Nat) (step : Nat) (v : ℚ) : Nat → Nat → Vec → Option Vec
  | 0, _, x => some x
  | k + 1, idx, x =>
    match put n x idx v with
    | none => none
    | some x' => putAll n step v k (idx + step) x'

/-- The loop setting two values (src/filters/filters.hpp:186-193, 206-213). -/
def putAll2 (n : Nat) (step : Nat) (a b : ℚ) : Nat → Nat → Vec → Option Vec
  | 0, _, x => some x
  | k + 1, idx, x =>
    match put n x idx a with
    | none => none
    | some x1 =>
      match put n x1 (idx + 1) b with
      | none => none
      | some x2 => putAll2 n step a b k (idx + step) x2

/-- The step of the troposphere loops: 2 in both classes (src/filters/filters.hpp:151, 168, 295,
312). -/
def tropoStep : Clock → Nat
  | .linear => 2
  | .none => 2

/-- `set_tropo_apriori` and, on the diagonal of `P`, `set_tropo_apriori_sigma`
(src/filters/filters.hpp:143-175, 287-319); `beacon` is `none` for the argument -1.  The value
for the diagonal is stored as is, not squared. -/
def setTropo (c : Clock) (Np ns : Nat) (x : Vec) (v : ℚ) (beacon : Option Nat) : Option Vec :=
  match beacon with
  | some b => put (numParams c Np ns) x (tropoIndex c Np b) v
  | none => putAll (numParams c Np ns) (tropoStep c) v ns (tropoIndex c Np 0) x

/-- `set_rfoff_apriori(a, b, …)` and `set_rfoff_apriori_sigma` with a linear clock
(src/filters/filters.hpp:177-215). -/
def setRfoffLinear (Np ns : Nat) (x : Vec) (a b : ℚ) (beacon : Option Nat) : Option Vec :=
  let n := numParams .linear Np ns
  match beacon with
  | some i =>
    match put n x (rfoffIndex .linear Np i) a with
    | none => none
    | some x1 => put n x1 (rfoffIndex .linear Np i + 1) b
  | none => putAll2 n 3 a b ns (rfoffIndex .linear Np 0) x

/-- `set_rfoff_apriori(val, …)` and `set_rfoff_apriori_sigma` without clock drift
(src/filters/filters.hpp:321-353). -/
def setRfoffNone (Np ns : Nat) (x : Vec) (v : ℚ) (beacon : Option Nat) : Option Vec :=
  match beacon with
  | some i => put (numParams .none Np ns) x (rfoffIndex .none Np i) v
  | none => putAll (numParams .none Np ns) 2 v ns (rfoffIndex .none Np 0) x

/-- `set_drag_coef_apriori`, `set_drag_coef_apriori_sigma` (src/filters/filters.hpp:217-222,
355-360). -/
def setDrag (c : Clock) (Np ns : Nat) (x : Vec) (v : ℚ) : Option Vec :=
  put (numParams c Np ns) x dragIndex v

end Verif.Filters
