import Verif.Filters.RfoModel
import Verif.SystemInfo.Model

/-!
Model of the fit of the relative frequency offset over a list of files (src/doris/fit_rfo.cpp 87-280).

The reading of blocks is modelled in `Verif.Rinex.DataModel`; here a file is the list of its outcomes.  Dates are
integers (nanoseconds).  Printing is left out.
-/
namespace Verif.Filters.Rfo

/-- Outcomes: `std::terminate` (an exception leaves a function declared `noexcept`), access outside an array,
nonzero status, result. -/
inductive Res (α : Type) where
  | terminate
  | undefined
  | fail
  | ok (a : α)

/-- Sequencing. -/
def Res.bind {α β : Type} : Res α → (α → Res β) → Res β
  | .terminate, _ => .terminate
  | .undefined, _ => .undefined
  | .fail, _ => .fail
  | .ok a, g => g a

/-- Outcome of one round of reading: header or data block refused (fit_rfo.cpp 111-127, 169-185), or a block
with its epoch and, for each beacon, the values of the observables. -/
inductive Read where
  | bad
  | block (t : Int) (obs : List (List ℝ))

/-- A RINEX file: whether the constructor succeeds, its observation types, its blocks, and whether the
stream ends at the end of the file. -/
structure File where
  opens : Bool
  codes : List SystemInfo.ObsType
  reads : List Read
  eof : Bool

/-- Index of the first code of that type (fit_rfo.cpp 97-109, 150-162). -/
def findex (f : File) : Option Nat := f.codes.findIdx? (· == .frequencyOffset)

/-- The value `obsvec[0].m_values[findex]` (fit_rfo.cpp 130, 188). -/
def firstValue (k : Nat) (obs : List (List ℝ)) : Res ℝ :=
  match obs with
  | [] => .undefined
  | o :: _ => match o[k]? with
    | none => .undefined
    | some v => .ok v

/-- `get_starting_rfo` (fit_rfo.cpp 87-137): value and epoch. -/
def starting (f : File) : Res (ℝ × Int) :=
  if f.opens then
    match findex f with
    | none => .fail
    | some k => match f.reads with
      | [] => .fail
      | .bad :: _ => .fail
      | .block t obs :: _ => (firstValue k obs).bind fun v => .ok (v, t)
  else .terminate

/-- The check of a block (fit_rfo.cpp 189-197). -/
noncomputable def checkBlock (k : Nat) (v : ℝ) : List (List ℝ) → Res Unit
  | [] => .ok ()
  | o :: os => match o[k]? with
    | none => .undefined
    | some w => open Classical in if w ≠ v then .fail else checkBlock k v os

/-- `t2d` (fit_rfo.cpp 24-27): days since the reference epoch. -/
noncomputable def t2d (tref t : Int) : ℝ := ((t - tref : Int) : ℝ) / (86400 * 10 ^ 9)

/-- The loop of `get_rinex_rfo` (fit_rfo.cpp 164-215). -/
noncomputable def collect (tref : Int) (k : Nat) (eof : Bool) : List Read → Filter → Res Filter
  | [], flt => if eof then .ok flt else .fail
  | .bad :: _, _ => .fail
  | .block t obs :: rs, flt =>
    (firstValue k obs).bind fun v =>
    (checkBlock k v obs).bind fun _ =>
    collect tref k eof rs (flt.update (t2d tref t) v)

/-- `get_rinex_rfo` (fit_rfo.cpp 139-215); an exception of the constructor is caught by the caller (255-265). -/
noncomputable def rinexRfo (tref : Int) (f : File) (flt : Filter) : Res Filter :=
  if f.opens then
    match findex f with
    | none => .fail
    | some k => collect tref k f.eof f.reads flt
  else .fail

/-- The loop over the files (fit_rfo.cpp 249-267). -/
noncomputable def overFiles (tref : Int) : List File → Filter → Res Filter
  | [], flt => .ok flt
  | f :: fs, flt => (rinexRfo tref f flt).bind fun flt => overFiles tref fs flt

/-- `fit_relative_frequency_offset` (fit_rfo.cpp 217-280), with the filter at its end. -/
noncomputable def fit (files : List File) (sx sv sz : ℝ) : Res Filter :=
  match files with
  | [] => .undefined
  | f0 :: _ => (starting f0).bind fun p => overFiles p.2 files (Filter.new p.1 3 sx sv sz)

end Verif.Filters.Rfo
