import Verif.RfoFit.Model
import Mathlib.Data.Real.Basic
import Mathlib.Data.Matrix.Mul
import Mathlib.Algebra.Order.Floor.Defs
import Mathlib.Algebra.Order.Archimedean.Basic
import Mathlib.Data.Rat.Floor

/-
Model of `fit_relative_frequency_offset` (src/rinex/fit_rfo.cpp:131-200), the polynomial fit over a list of observation
files.  The files are read by `parse` (`Verif.RfoFit.Model`).

Simplifications: doubles are real numbers; the number of days, a `float` in the code, is an exact rational;
`ldlt().solve()` of the Eigen library is a parameter.  Eigen does not check indexes in release builds, so a row beyond the
allocated ones is the outcome `outside`.
-/
namespace Verif.RfoFit

/-- One observation file: blocks, final status of its iterator, reference date of its header, and the indeterminate
contents of two local dates. -/
structure File where
  blocks : List (Block ℝ)
  final : Int
  ref : Int
  t0 : Int
  tend : Int

/-- `NDay` (src/rinex/fit_rfo.cpp:144-148): the quotient is one of integers, so rounding up has no effect. -/
def nDay (every : Nat) : Nat := 17280 / every

/-- Nanoseconds of a day. -/
def dayNs : ℚ := 86400000000000

/-- `num_days` (src/rinex/fit_rfo.cpp:152-156); `tmin` and `tmax` are the smallest and largest date. -/
def numDays (tmin tmax start stop : Int) (files : Nat) : ℚ :=
  if start ≠ tmin ∧ stop ≠ tmax then ((stop - start : Int) : ℚ) / dayNs else files

/-- Conversion of a number to an integer. -/
def truncInt (x : ℚ) : Int := if 0 ≤ x then ⌊x⌋ else ⌈x⌉

/-- `num_pts` (src/rinex/fit_rfo.cpp:160). -/
def numPts (every : Nat) (days : ℚ) : Int := truncInt (nDay every * days + 10)

/-- How reading the files ends. -/
inductive Read where
  | outside
  | failed
  | rows (tref : Int) (rows : List (Row ℝ))

/-- The loop over the files (src/rinex/fit_rfo.cpp:173-182) with the reference date set by the first one
(src/rinex/fit_rfo.cpp:29-30). -/
noncomputable def readAll (c : Cfg ℝ) (tmin cap : Int) : List File → Int → List (Row ℝ) → Read
  | [], tref, rows => .rows tref rows
  | f :: fs, tref, rows =>
    let tref := if tref = tmin then f.ref else tref
    match parse { c with tref := tref } f.t0 f.tend f.blocks f.final with
    | none => .outside
    | some (status, new) =>
      if ((rows.length + new.length : Nat) : Int) > cap then .outside
      else if status ≠ 0 then .failed
      else readAll c tmin cap fs tref (rows ++ new)

/-- Entry of a row of the design matrix. -/
def entry {m : Nat} (r : Row ℝ) (i : Fin m) : ℝ := r.a.getD i 0

/-- `A.transpose() * A` (src/rinex/fit_rfo.cpp:192). -/
def gram (m : Nat) (rows : List (Row ℝ)) : Matrix (Fin m) (Fin m) ℝ :=
  fun i j => (rows.map fun r => entry r i * entry r j).sum

/-- `A.transpose() * b` (src/rinex/fit_rfo.cpp:192). -/
def gramRhs (m : Nat) (rows : List (Row ℝ)) : Fin m → ℝ :=
  fun i => (rows.map fun r => entry r i * r.b.getD 0).sum

/-- How the function ends. `notNumber`: the coefficients are not numbers, because a mean is not. -/
inductive Fit (m : Nat) where
  | outside
  | failed
  | notNumber
  | ok (xref : Int) (cf : Fin m → ℝ)

/-- `fit_relative_frequency_offset` (src/rinex/fit_rfo.cpp:131-200); `c.tref` is not used. -/
noncomputable def fitAll (ldlt : (m : Nat) → Matrix (Fin m) (Fin m) ℝ → (Fin m → ℝ) → Fin m → ℝ) (c : Cfg ℝ) (tmin tmax : Int)
    (files : List File) : Fit (c.order + 1) :=
  let cap := numPts c.every (numDays tmin tmax c.start c.stop files.length)
  if cap < 0 then .outside
  else
    match readAll c tmin cap files tmin [] with
    | .outside => .outside
    | .failed => .failed
    | .rows tref rows =>
      if rows.any fun r => r.b.isNone then .notNumber
      else .ok tref (ldlt (c.order + 1) (gram _ rows) (gramRhs _ rows))

end Verif.RfoFit
