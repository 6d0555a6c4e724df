/-
Model of the bookkeeping of the orbit determination program (test/rinex_pod.cpp): which
observations are paired into Doppler counts, how beacons are numbered, when a new arc begins.

What is computed from an observation (phases, corrections, satellite position) is the arbitrary
payload `data : α`; whether the satellite is high enough and whether the troposphere could be
computed are arbitrary Booleans of the observation, so the results hold for every orbit, filter and
troposphere.  The blocks of the file are concatenated, every observation carrying the time of its
block.  Times are nanoseconds.
-/
namespace Verif.Pod

/-- Three-character beacon identifier within a file. -/
abbrev Id := Char × Char × Char

/-- One beacon observation as the loop sees it (test/rinex_pod.cpp:699-723): identifier, the six
flags, proper time of the block, elevation test `¬ (rad2deg(el) < EleCutOff)`
(test/rinex_pod.cpp:769-773), result of `get_tropo_vmf` (test/rinex_pod.cpp:821-822). -/
structure Meas (α : Type) where
  id : Id
  l1f1 : Char
  l1f2 : Char
  l2f1 : Char
  l2f2 : Char
  w1f1 : Char
  w2f1 : Char
  tau : Int
  high : Bool
  tropo : Bool
  data : α

/-- The flag test (test/rinex_pod.cpp:712-723). -/
def Meas.bad {α : Type} (o : Meas α) : Bool :=
  o.l1f1 == '1' || o.l1f2 == '1' || o.l2f1 == '1' || o.l2f2 == '1' || o.w1f1 == '1' || o.w2f1 == '1'

/-- `SatBeacon` (test/rinex_pod.cpp:75-95). -/
structure Slot (α : Type) where
  id : Id
  count : Nat
  tau : Int
  data : α
  arcnr : Nat
  reinit : Bool
deriving DecidableEq

/-- `std::find_if` over `prevec` with the first match changed by `f` (test/rinex_pod.cpp:727-736,
781-786). -/
def modifyFirst {α : Type} (id : Id) (f : Slot α → Slot α) : List (Slot α) → List (Slot α)
  | [] => []
  | s :: l => if s.id == id then f s :: l else s :: modifyFirst id f l

/-- `std::find_if` over `prevec`. -/
def lookup {α : Type} (id : Id) (l : List (Slot α)) : Option (Slot α) := l.find? (·.id == id)

/-- `SatBeacon::update` (test/rinex_pod.cpp:111-122). -/
def Slot.update {α : Type} (s : Slot α) (o : Meas α) : Slot α := { s with tau := o.tau, data := o.data }

/-- `prevec` and `receiver_count` (test/rinex_pod.cpp:474, 604). -/
structure Track (α : Type) where
  prev : List (Slot α)
  next : Nat
deriving DecidableEq

/-- What the program does with an observation: `first n`, `again n arc new` store it without a
count (and set the a-priori wet delay of parameter `n` if `first` or `new`), `pair` forms a count
from the stored observation and the present one. -/
inductive Event (α : Type) where
  | flagged
  | low
  | noTropo
  | first (n : Nat)
  | again (n arc : Nat) (new : Bool)
  | pair (n arc : Nat) (tau0 : Int) (data0 : α)
deriving DecidableEq

/-- `max_sec_for_new_arc` in nanoseconds (test/rinex_pod.cpp:29). -/
def maxGap : Int := 300 * 1000000000

/-- One pass of the loop over the beacons of a block (test/rinex_pod.cpp:702-1034).  `none`: the
identifier is not in the header and the assertion of line 710 fails (undefined without
assertions).  The exit for a beacon without shift factor (lines 800-804) is left out. -/
def step {α : Type} (stations : List Id) (s : Track α) (o : Meas α) : Option (Track α × Event α) :=
  if !stations.contains o.id then none
  else if o.bad then
    some ({ s with prev := modifyFirst o.id (fun p => { p with reinit := true }) s.prev }, .flagged)
  else if !o.high then some (s, .low)
  else
    match lookup o.id s.prev with
    | none =>
      if !o.tropo then some (s, .noTropo)
      else some (⟨s.prev ++ [⟨o.id, s.next, o.tau, o.data, 0, false⟩], s.next + 1⟩, .first s.next)
    | some p =>
      let newArc := decide (o.tau - p.tau > maxGap)
      if !o.tropo then some (s, .noTropo)
      else if p.reinit || newArc then
        let f : Slot α → Slot α := fun p =>
          let p := p.update o
          let p := if newArc then { p with arcnr := p.arcnr + 1 } else p
          if p.reinit then { p with reinit := false } else p
        some ({ s with prev := modifyFirst o.id f s.prev },
          .again p.count (if newArc then p.arcnr + 1 else p.arcnr) newArc)
      else
        some ({ s with prev := modifyFirst o.id (·.update o) s.prev }, .pair p.count p.arcnr p.tau p.data)

/-- The loop over a file: the final state with the events in order. -/
def track {α : Type} (stations : List Id) : Track α → List (Meas α) → Option (Track α × List (Event α))
  | s, [] => some (s, [])
  | s, o :: l =>
    match step stations s o with
    | none => none
    | some (s', e) =>
      match track stations s' l with
      | none => none
      | some (s'', es) => some (s'', e :: es)

/-- The start (test/rinex_pod.cpp:474, 604). -/
def Track.new {α : Type} : Track α := ⟨[], 0⟩

end Verif.Pod
