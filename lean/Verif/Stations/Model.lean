import Verif.Rinex.Stream
import Mathlib.Algebra.Order.Field.Rat

/-
Model of the extrapolation of station coordinates (src/ids/get_pdop_crd.cpp).

The SINEX reader (another library) is a parameter: what its two block parsers return.  Epochs are
modified Julian dates in ℚ.
-/
namespace Verif.Stations

open Verif.Rinex

/-- `dso::sinex::SolutionEstimate`, the members used. -/
structure Estimate where
  site : List Char
  param : List Char
  units : List Char
  epoch : ℚ
  value : ℚ
deriving DecidableEq, Repr

/-- `dso::BeaconCoordinates`. -/
structure Coords where
  id : List Char
  x : ℚ
  y : ℚ
  z : ℚ
deriving DecidableEq, Repr

/-- `std::find_if` for a site and a parameter type (lines 15-26). -/
def find (ests : List Estimate) (site param : List Char) : Option Estimate :=
  ests.find? fun e => strncmpEq 4 e.site site && strncmpEq 4 e.param param

/-- The loop body of `extrapolate_coordinates` (lines 11-54) for the axis letter `a`; `none`: the
function returns 1. -/
def axis (ests : List Estimate) (site : List Char) (t : ℚ) (a : Char) : Option ℚ :=
  match find ests site ['S', 'T', 'A', a], find ests site ['V', 'E', 'L', a] with
  | some p, some v =>
    if strncmpEq 2 p.units ['m', ' '] && strncmpEq 3 v.units ['m', '/', 'y'] then
      some (p.value + v.value * ((t - p.epoch) / (36525 / 100)))
    else none
  | _, _ => none

/-- `extrapolate_coordinates` (lines 6-56); `none`: returns 1. -/
def extrapolate (ests : List Estimate) (site : List Char) (t : ℚ) : Option (ℚ × ℚ × ℚ) :=
  match axis ests site t 'X' with
  | none => none
  | some x =>
    match axis ests site t 'Y' with
    | none => none
    | some y =>
      match axis ests site t 'Z' with
      | none => none
      | some z => some (x, y, z)

/-- What the SINEX reader returns: the site codes of block SITE/ID for the given stations, the
estimates for these sites; `none`: an error. -/
structure Sinex where
  siteId : List (List Char) → Option (List (List Char))
  solution : List (List Char) → Option (List Estimate)

/-- Indexes of the stations that are not in the file (lines 128-136). -/
def missing (ids sites : List (List Char)) : List Nat :=
  (List.range ids.length).filter fun i =>
    !(sites.any fun s => strncmpEq 4 (ids.getD i []) s)

/-- The loop over the stations (lines 158-180) from index `i` on, appending to the results. -/
def loop (ests : List Estimate) (t : ℚ) (miss : List Nat) : Nat → List (List Char) → List Coords → List Coords
  | _, [], res => res
  | i, sid :: rest, res =>
    if miss.contains i then loop ests t miss (i + 1) rest res
    else
      match extrapolate ests sid t with
      | none => loop ests t miss (i + 1) rest res
      | some (x, y, z) => loop ests t miss (i + 1) rest (res ++ [⟨sid.take 4, x, y, z⟩])

/-- `extrapolate_sinex_coordinates`, core (lines 98-183): status and results. -/
def core (snx : Sinex) (ids : List (List Char)) (t : ℚ) (missingIsError : Bool) : Nat × List Coords :=
  match snx.siteId ids with
  | none => (1, [])
  | some sites =>
    let miss := if sites.length = ids.length then [] else missing ids sites
    if sites.length ≠ ids.length ∧ missingIsError then (2, [])
    else
      match snx.solution sites with
      | none => (1, [])
      | some ests =>
        if ests.length < ids.length * 6 then (1, [])
        else (0, loop ests t miss 0 ids [])

/-- `strncpy(sites[i], id, 4)` into five zeroed bytes (lines 67-69), up to the terminator. -/
def copy4 (id : List Char) : List Char := (id.takeWhile (· != '\x00')).take 4

/-- The overload for beacons (lines 58-96): the result has one default element per beacon during
the call and is cut to the number of results afterwards. -/
def ofBeacons (snx : Sinex) (beacons : List (List Char)) (t : ℚ) (missingIsError : Bool) : Nat × List Coords :=
  core snx (beacons.map copy4) t missingIsError

end Verif.Stations
