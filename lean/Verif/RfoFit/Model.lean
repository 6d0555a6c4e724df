import Mathlib.Algebra.Field.Basic
import Mathlib.Algebra.BigOperators.Group.List.Basic

/-
Model of `parse_rinex_rfos` (src/rinex/fit_rfo.cpp:11-129).

Doubles are elements of a field, dates are integers (nanoseconds).  The observation file is the
list of blocks its iterator delivers (src/rinex/rnx_datablock_iterator.cpp, modelled in
`Verif.Rinex.DataModel`) and the final status of the iterator.
-/
namespace Verif.RfoFit

/-- One data block: corrected epoch, proper time, and the value the code takes as frequency offset:
`none` when there is none (empty block, or code not in the file: the access is outside an array). -/
structure Block (K : Type) where
  tl1 : Int
  tproper : Int
  f : Option K

/-- Parameters of a call.  `every` is at least one. -/
structure Cfg (K : Type) where
  useTai : Bool
  every : Nat
  order : Nat
  tref : Int
  start : Int
  stop : Int
  /-- `fit.deltax`: fractional seconds (src/filters/models.hpp:33-39) -/
  deltax : Int → Int → K
  /-- `t.delta_date(tref).as_mjd()`: days -/
  days : Int → Int → K

/-- One row of the least-squares system: right-hand side (`none`: division by zero) and the row of
the design matrix. -/
structure Row (K : Type) where
  b : Option K
  a : List K
deriving DecidableEq, Repr

/-- Local variables. -/
structure State (K : Type) where
  fs : List K
  cval : Nat
  t0 : Int
  tend : Int
  rows : List (Row K)

variable {K : Type} [Field K]

/-- The products `A(idx, i+1) = A(idx, i) * dt` (src/rinex/fit_rfo.cpp:81-82, 121-122). -/
def more (dt : K) : Nat → K → List K
  | 0, _ => []
  | n + 1, last => (last * dt) :: more dt n (last * dt)

/-- A row of the design matrix (src/rinex/fit_rfo.cpp:78-82, 118-122). -/
def designRow (order : Nat) (dt : K) : List K := 1 :: dt :: more dt (order - 1) dt

/-- Midpoint of two dates: the difference is halved in integers (src/rinex/fit_rfo.cpp:71-75). -/
def midpoint (t0 tend : Int) : Int := t0 + (tend - t0).tdiv 2

/-- Body of the loop for a block inside the date range (src/rinex/fit_rfo.cpp:52-89); `none`: access
outside an array. -/
def step (c : Cfg K) (st : State K) (b : Block K) : Option (State K) :=
  match b.f with
  | none => none
  | some f =>
    let fs := st.fs.set (st.cval % c.every) f
    let tend := if c.useTai then b.tl1 else b.tproper
    if (st.cval + 1) % c.every = 0 then
      some ⟨fs, st.cval + 1, st.t0, tend, st.rows ++
        [⟨some (fs.sum / (c.every : K)), designRow c.order (c.deltax (midpoint st.t0 tend) c.tref)⟩]⟩
    else if st.cval % c.every = 0 then some ⟨fs, st.cval + 1, tend, tend, st.rows⟩
    else some ⟨fs, st.cval + 1, st.t0, tend, st.rows⟩

/-- The loop over the blocks (src/rinex/fit_rfo.cpp:45-94); returns the state and `error`. -/
def loop (c : Cfg K) (final : Int) : List (Block K) → State K → Option (State K × Int)
  | [], st => some (st, final)
  | b :: bs, st =>
    if b.tl1 ≥ c.start ∧ b.tl1 < c.stop then
      match step c st b with
      | none => none
      | some st' => loop c final bs st'
    else if b.tl1 ≥ c.stop then some (st, 0)
    else loop c final bs st

/-- The values left in the buffer (src/rinex/fit_rfo.cpp:105-126).  `std::reduce` runs from the
beginning of the buffer to its end plus `j`; `none`: it leaves the buffer. -/
def leftover (c : Cfg K) (st : State K) : Option (List (Row K)) :=
  let cval : Int := (st.cval : Int) - 1
  let j := cval.tmod c.every
  if j = (c.every : Int) - 1 then some st.rows
  else if j > 0 then none
  else
    let a := designRow c.order (c.days (midpoint st.t0 st.tend) c.tref)
    if j = 0 then some (st.rows ++ [⟨none, a⟩])
    else some (st.rows ++ [⟨some ((st.fs.take ((c.every : Int) + j).toNat).sum / (j : K)), a⟩])

/-- `parse_rinex_rfos` (src/rinex/fit_rfo.cpp:11-129): status and rows added.  `t0`, `tend` are the
values of the default-initialised dates. -/
def parse (c : Cfg K) (t0 tend : Int) (blocks : List (Block K)) (final : Int) :
    Option (Nat × List (Row K)) :=
  match loop c final blocks ⟨List.replicate c.every 0, 0, t0, tend, []⟩ with
  | none => none
  | some (st, error) =>
    if error > 0 then some (1, st.rows)
    else
      match leftover c st with
      | none => none
      | some rows => some (0, rows)

end Verif.RfoFit
