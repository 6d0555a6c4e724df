import Verif.Icgem.Model

/-
Model of `parse_gravity_model` (src/gravity/parse_coefficients.cpp:5-44): header, data section, de-normalisation.

Degree and order are natural numbers (negative ones are outside the model).  `double` values read from the file are
rationals, the table of coefficients holds real numbers afterwards.
-/
namespace Verif.Icgem

open Verif.Rinex

/-- How the function ends. -/
inductive Loaded where
  /-- status 1 -/
  | failed
  /-- a coefficient outside the table is addressed -/
  | outside
  /-- a failed `assert` -/
  | abort
  /-- bytes after the end of a line are used -/
  | stale
  /-- status 0: constants, degree, normalisation and table -/
  | ok (gm re : ℚ) (c : Harmonic.Coeffs)

/-- The lines read after `seekg(data_section_pos)` (src/gravity/icgemio_rdhead.cpp:236,
src/gravity/icgemio_rddata.cpp:64): the position behind the header, or none at all when the stream was no longer good, as
`tellg` is -1 then. -/
def dataLines (s : Stream) : List Line := if s.good then s.lines else []

/-- `parse_gravity_model` (src/gravity/parse_coefficients.cpp:5-44).  `b` are the bytes of the uninitialised line buffer,
`t` what the table of the object holds after `resize(degree)` (src/gravity/harmonic_coeffs.cpp:23-33): old values, or
uninitialised memory. The constants are those copied by `parse_data` (src/gravity/icgemio_rddata.cpp:59-62); the status of
`denormalize` is not used. -/
noncomputable def loadModel (strtod : Strtod) (file : Option (List Line)) (b : Buf) (degree order : Nat) (denorm : Bool)
    (t : Table) : Loaded :=
  match parseHeader strtod file b with
  | .stale => .stale
  | .abort => .abort
  | .ret status h s =>
    if status ≠ 0 then .failed
    else if ¬ ((degree : Int) ≤ h.maxDegree ∧ order ≤ degree) then .failed
    else
      match parseData strtod h.maxDegree degree degree order (file.map fun _ => dataLines s) t with
      | .outside => .outside
      | .abort => .abort
      | .ret status t' =>
        if status ≠ 0 then .failed
        else
          let c : Harmonic.Coeffs := ⟨degree, h.isNormalized, fun a => (t' a : ℝ)⟩
          if denorm then
            match Harmonic.denormalize c (-1) with
            | .abort => .abort
            | .ret _ c' => .ok h.gm h.radius c'
          else .ok h.gm h.radius c

end Verif.Icgem
