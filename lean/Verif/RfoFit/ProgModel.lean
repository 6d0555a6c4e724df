import Verif.RfoFit.TextModel
import Verif.Rinex.WriteSpec

/-
The two programs that fit frequency offsets: test/fit_rfo_values.cpp and the beginning of test/test_rnx_fit_rfo.cpp.

Simplifications: coefficients are real numbers and `%.9f` is a parameter; the line on the sizes of the matrices that the fit prints
and the messages on the error stream are left out; a file that cannot be opened is one without lines, which the header reader
refuses like it.
-/
namespace Verif.RfoFit
open Verif.Rinex Verif.SystemInfo Verif.Rinex.Write

/-- How a program ends. -/
inductive Ran where
  /-- undefined, or ended by an exception -/
  | undefined
  /-- coefficients that are not numbers are printed -/
  | notNumbers
  | ran (status : Nat) (out : List (List Char))

/-- The call of the program: TAI, windows of four values, a line, no date range (test/fit_rfo_values.cpp:14-16, src/doris_rinex.hpp:323-330);
`secs`, `days` are the differences of dates. -/
def valuesCfg (tmin tmax : Int) (secs days : Int → Int → ℝ) : Cfg ℝ := ⟨true, 4, 1, 0, tmin, tmax, secs, days⟩

/-- The lines printed (test/fit_rfo_values.cpp:21-25). -/
def modelLines (fixed : ℝ → List Char) (mjd : Int → ℝ) (xref : Int) (cf : Fin 2 → ℝ) : List (List Char) :=
  ["RFO model:".toList, "Reference MJD = ".toList ++ fixed (mjd xref), "Polynomial Coeffs:".toList] ++
    ((List.finRange 2).map fun (i : Fin 2) => "\tCoef[".toList ++ (padL 2 (natText (i : ℕ)) ++ ("] = ".toList ++ fixed (cf i)))) ++ [[]]

/-- `main` (test/fit_rfo_values.cpp:4-28); `args` without the name of the program. -/
noncomputable def valuesMain (ldlt : (m : Nat) → Matrix (Fin m) (Fin m) ℝ → (Fin m → ℝ) → Fin m → ℝ) (e : Ext) (b0 stack buf : Buf)
    (t0 tend tmin tmax : Int) (secs days : Int → Int → ℝ) (fixed : ℝ → List Char) (mjd : Int → ℝ) (read : List Char → List Line)
    (args : List (List Char)) : Ran :=
  if args.length < 1 then .ran 1 []
  else
    match fitTexts ldlt e b0 stack buf t0 tend (valuesCfg tmin tmax secs days) tmin tmax (args.map read) with
    | none => .undefined
    | some .outside => .undefined
    | some .failed => .ran 2 []
    | some .notNumber => .notNumbers
    | some (.ok xref cf) => .ran 0 (modelLines fixed mjd xref cf)

/-- One name of a file (test/test_rnx_fit_rfo.cpp:19-20): the memory has as many bytes as `prev`, the argument before it, has characters
after its first; `none`: the copy with its terminator is longer, or the length is taken of what follows an empty argument. -/
def copyArg (prev arg : List Char) : Option (List Char) :=
  match prev with
  | [] => none
  | _ :: rest => if arg.length + 1 ≤ rest.length then some arg else none

/-- The loop over the arguments (test/test_rnx_fit_rfo.cpp:16-21), `prev` being the argument before them. -/
def copyArgs : List Char → List (List Char) → Option (List (List Char))
  | _, [] => some []
  | prev, a :: as =>
    match copyArg prev a with
    | none => none
    | some c => (copyArgs a as).map (c :: ·)

/-- The first line printed (test/test_rnx_fit_rfo.cpp:13); `argv` with the name of the program. -/
def usingLine (argv : List (List Char)) : List Char :=
  "Using ".toList ++ (natText argv.length ++ " RINEX files to model receiver frequency offset".toList)

end Verif.RfoFit
