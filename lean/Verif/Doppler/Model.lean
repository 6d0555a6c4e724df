import Mathlib.Algebra.Order.Field.Rat

/-
Model of the Doppler count extraction: src/doris/extract_doppler_count.cpp.

Doubles are rationals, dates integers (nanoseconds).  The reading of blocks is modelled in
`Verif.Rinex.DataModel`; here the file is the list of its outcomes.

`m_beacon_id` is an array of three characters without terminator (src/doris_rinex.hpp:71) that is
compared with `strcmp`.  What follows it in memory is therefore part of the model: `pad` for a block
read from the file, and a function `g` of the slot for stored records (padding is not copied with
the object).  The bytes end where the list ends, as if a NUL followed.
-/
namespace Verif.Doppler

/-- `BeaconObservations` (src/doris_rinex.hpp:69-88): identifier, bytes after it, values. -/
structure Obs where
  id : List Char
  pad : List Char
  values : List Rat
deriving DecidableEq, Repr

/-- `BeaconObservationData` (src/doris/extract_doppler_count.cpp:10-13). -/
structure Rec where
  obs : Obs
  t : Int
deriving DecidableEq, Repr

/-- One printed line (src/doris/extract_doppler_count.cpp:33); `dt` in nanoseconds. -/
structure Count where
  id : List Char
  t : Int
  dl1 : Rat
  dl2 : Rat
  dt : Int
deriving DecidableEq, Repr

/-- A block: epoch and observations. -/
structure Block where
  t : Int
  obs : List Obs
deriving DecidableEq, Repr

/-- `!strcmp(a, b)`. -/
def strcmpEq (a b : List Char) : Bool :=
  a.takeWhile (· != '\x00') == b.takeWhile (· != '\x00')

/-- The `find_if` of both functions (src/doris/extract_doppler_count.cpp:22-25, 48-51), from slot `k`
on. -/
def findSlot (g : Nat → List Char) (o : Obs) : Nat → List Rec → Option Nat
  | _, [] => none
  | k, r :: rs =>
    if strcmpEq (r.obs.id ++ g k) (o.id ++ o.pad) then some k else findSlot g o (k + 1) rs

/-- Body of `compute_ndop` for one observation (src/doris/extract_doppler_count.cpp:19-35).
Outer `none`: access outside an array. -/
def countOne (g : Nat → List Char) (t : Int) (data : List Rec) (o : Obs) : Option (List Count) :=
  match findSlot g o 0 data with
  | none => some []
  | some k => do
    let r ← data[k]?
    let n0 ← o.values[0]?
    let p0 ← r.obs.values[0]?
    let n1 ← o.values[1]?
    let p1 ← r.obs.values[1]?
    some [⟨o.id, t, n0 - p0, n1 - p1, t - r.t⟩]

/-- `compute_ndop` (src/doris/extract_doppler_count.cpp:15-38). -/
def computeNdop (g : Nat → List Char) (t : Int) (data : List Rec) : List Obs → Option (List Count)
  | [] => some []
  | o :: os => do
    let a ← countOne g t data o
    let b ← computeNdop g t data os
    some (a ++ b)

/-- Body of `update` for one observation (src/doris/extract_doppler_count.cpp:45-60). -/
def updateOne (g : Nat → List Char) (t : Int) (data : List Rec) (o : Obs) : List Rec :=
  match findSlot g o 0 data with
  | none => data ++ [⟨o, t⟩]
  | some k => data.set k ⟨o, t⟩

/-- `update` (src/doris/extract_doppler_count.cpp:41-63). -/
def update (g : Nat → List Char) (t : Int) (data : List Rec) (os : List Obs) : List Rec :=
  os.foldl (updateOne g t) data

/-- Reading one block: the block, or the status of a failing header (2) or data block (3). -/
abbrev Read := Except Nat Block

/-- The loop (src/doris/extract_doppler_count.cpp:120-147).  `eof` tells how the stream ended
(lines 149-159).  Result: status, printed counts, stored records. -/
def loop (g : Nat → List Char) (eof : Bool) :
    List Read → List Rec → Option (Nat × List Count × List Rec)
  | [], data => some (if eof then 0 else 1, [], data)
  | .error e :: _, data => some (e, [], data)
  | .ok b :: rs, data => do
    let cs ← computeNdop g b.t data b.obs
    let (st, cs', d) ← loop g eof rs (update g b.t data b.obs)
    some (st, cs ++ cs', d)

/-- `get_doppler_counts` (src/doris/extract_doppler_count.cpp:65-160). -/
def getDopplerCounts (g : Nat → List Char) (eof : Bool) (reads : List Read) :
    Option (Nat × List Count × List Rec) :=
  match reads with
  | [] => some (1, [], [])
  | .error e :: _ => some (e, [], [])
  | .ok b :: rs => loop g eof rs (update g b.t [] b.obs)

end Verif.Doppler
