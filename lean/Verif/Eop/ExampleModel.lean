import Verif.Eop.InterpModel
import Verif.Eop.C04Model

/-!
Model of the program test/complete_eop_example.cpp: Earth orientation parameters of a file, regularized and interpolated
every 30 seconds over eight days.

Simplifications: real numbers stand for `double`; what the numbers are formatted as is left out: a printed record is a record.
-/
namespace Verif.Eop.Example

open Verif.Eop.Interp

/-- A `datetime<nanoseconds>`: day and nanoseconds of the day. -/
structure Stamp where
  day : Int
  ns : Nat
deriving DecidableEq

/-- `operator<`. -/
def Stamp.lt (a b : Stamp) : Bool := decide (a.day < b.day ∨ a.day = b.day ∧ a.ns < b.ns)

/-- `add_seconds`: the nanoseconds of the day are normalised. -/
def Stamp.add (a : Stamp) (s : Nat) : Stamp :=
  let n := a.ns + s * 1000000000
  ⟨a.day + ((n / 86400000000000 : Nat) : Int), n % 86400000000000⟩

/-- `as_mjd`. -/
noncomputable def Stamp.mjd (a : Stamp) : ℝ := a.day + (a.ns : ℝ) / 86400000000000

/-- The table after `parse_iers_C04` (src/iers/parse_c04.cpp:103-113): row `i` of the file is row `i` of every column; `old`:
what the memory of the table held, which is kept by the rotation rate. -/
def tableOf (rows : List (C04.Rec ℝ)) (old : Table) : Table where
  sz := rows.length
  mjd i := match rows[i]? with | some r => r.mjd | none => old.mjd i
  xp i := match rows[i]? with | some r => r.xp | none => old.xp i
  yp i := match rows[i]? with | some r => r.yp | none => old.yp i
  dut i := match rows[i]? with | some r => r.dut | none => old.dut i
  dx i := match rows[i]? with | some r => r.dx | none => old.dx i
  dy i := match rows[i]? with | some r => r.dy | none => old.dy i
  lod i := match rows[i]? with | some r => r.lod | none => old.lod i
  omega := old.omega

/-- How the program ends. -/
inductive End where
  | exit (status : Nat)
  | undefined
deriving DecidableEq

/-- The loop (test/complete_eop_example.cpp:59-68), at most `fuel` rounds: how it ends and what is printed. -/
noncomputable def loop (L : Lib) (T : Table) (stop : Stamp) : Nat → Stamp → Rec → List Rec → Option (End × List Rec)
  | 0, _, _, _ => none
  | fuel + 1, t, r, out =>
    if t.lt stop then
      let e := interpolate L T t.mjd r 5
      if e.1 ≠ 0 then some (.exit 9, out) else loop L T stop fuel (t.add 30) e.2 (out ++ [e.2])
    else some (.exit 0, out)

/-- `main` (test/complete_eop_example.cpp:5-71).  The dates 2021-12-01, 2022-02-01, 2021-12-28 and 2022-01-05 are the
modified Julian days 59549, 59611, 59576 and 59584.  `old`: memory of the table; `unset`: memory of the record. -/
noncomputable def main (e : C04.Ext ℝ) (L : Lib) (old : Table) (unset : Rec) (fuel argc : Nat) (file : Option (List Rinex.Line)) :
    Option (End × List Rec) :=
  if argc ≠ 2 then some (.exit 1, [])
  else
    match C04.parseC04 e file 59549 59611 with
    | .ret 0 rows => loop L (regularize L (tableOf rows old)) ⟨59584, 0⟩ fuel ⟨59576, 0⟩ unset []
    | .ret _ _ => some (.exit 1, [])
    | .outside => some (.undefined, [])
    | .stale => some (.undefined, [])

end Verif.Eop.Example
