import Verif.Gravity.Model
import Verif.Harmonic.Model

/-
Model of the experiment in var/icgem: the older copies of the gravity code in var/icgem/src and the
program var/icgem/test/test_gravacc.cpp.  The trapezoidal `lagrange_polynomials` of
var/icgem/src/lagrange_poly.cpp:67-125 is, over a field, the one of `Verif.Gravity.lagrange` (the two
files differ in line 99 only, by writing the factor in `int`), and `_sum`, `compute_fac` and the storage
of `HarmonicCoeffs` are those of `Verif.Harmonic`.  Arithmetic is exact, as in those models.  Reading
the file is not part of this model.
-/
namespace Verif.Var.Icgem

open Verif.Mat2D Verif.Gravity

variable {K : Type} [Field K]

/-- One turn of the inner loop (var/icgem/src/gravity_acceleration.cpp:30-46); the sums are `xacc2`,
`yacc2` and `zacc`. -/
def tessStep (V W : Mat K) (C S : Nat → Nat → K) (i : Nat) (s : K × K × K) (j : Nat) : Option (K × K × K) := do
  let c := C i j
  let sn := S i j
  let vm ← rd V (i + 1) (j - 1)
  let v0 ← rd V (i + 1) j
  let vp ← rd V (i + 1) (j + 1)
  let wm ← rd W (i + 1) (j - 1)
  let w0 ← rd W (i + 1) j
  let wp ← rd W (i + 1) (j + 1)
  let fac : K := ((i - j + 1) * (i - j + 2) : Nat) / 2
  some (s.1 + (1 / 2 * (-c * vp - sn * wp) + fac * (c * vm + sn * wm)),
    s.2.1 + (1 / 2 * (-c * wp + sn * vp) + fac * (-c * vm + sn * wm)),
    s.2.2 + ((i - j + 1 : Nat) : K) * (-c * v0 - sn * w0))

/-- `grav_potential_accel` (var/icgem/src/gravity_acceleration.cpp:11-62).  `xacc2` and `yacc2` start
from zero, `zacc` goes on from the zonal loop. -/
def accelOld (degree order : Nat) (Re GM : K) (V W : Mat K) (C S : Nat → Nat → K) : Option (K × K × K) := do
  let a ← (List.range (degree + 1)).foldlM (acc0Step V W C) (0, 0, 0)
  let b ← (List.range' 1 degree).foldlM
    (fun s i => (List.range' 1 (min i order)).foldlM (tessStep V W C S i) s) (0, 0, a.2.2)
  let f := GM / (Re * Re)
  some ((a.1 + b.1) * f, (a.2.1 + b.2.1) * f, b.2.2 * f)

/-- `HarmonicCoeffs::denormalize` (var/icgem/src/harmonic_coeffs.cpp:57-87): the object has no record of
whether it is normalised. -/
noncomputable def denormalizeOld (degree : Nat) (t : Harmonic.Table) (order : Int) :
    Harmonic.Outcome Harmonic.Table :=
  let order' : Int := if order < 0 then degree else order
  if order' > degree then .ret 1 t
  else if degree = 0 then .abort
  else .ret 0 ((List.range' 1 degree).foldl (Harmonic.denormRow degree order'.toNat) t)

/-- What the program does with its arguments. -/
inductive Start where
  /-- the usage text and exit with 1 -/
  | usage
  /-- `Icgem(argv[1])` with `argv[1]` null or past the end of the array -/
  | noPath
  /-- the assertion fails -/
  | abort
  /-- on to the computation with this degree and order -/
  | run (degree order : Int)
deriving DecidableEq

/-- Lines 9-34 of var/icgem/test/test_gravacc.cpp.  `fileDegree` is the degree of the model in the file,
`a2`, `a3` what `atoi` makes of `argv[2]`, `argv[3]` (not looked at when there are fewer arguments); the
header of the file is taken to be read without an error. -/
def start (argc : Nat) (fileDegree a2 a3 : Int) : Start :=
  if argc < 2 ∧ argc > 4 then .usage
  else if argc < 2 then .noPath
  else
    let degree := if argc = 3 then a2 else fileDegree
    let order := if argc = 4 then a3 else degree
    if degree ≤ fileDegree ∧ order ≤ degree then .run degree order else .abort

/-- The computation, lines 36-64 of var/icgem/test/test_gravacc.cpp, for a degree and order that are not
negative: `C`, `S` are the coefficients as they stand in the file, `V`, `W` the freshly allocated work
arrays. -/
def compute (g : Geo K) (degree order : Nat) (Re GM : K) (V W : Mat K) (C S : Nat → Nat → K) :
    Option (Option (K × K × K)) := do
  let r ← lagrange g (degree + 1) (order + 1) V W
  if r.1 ≠ 0 then some none
  else do
    let a ← accelOld degree order Re GM r.2.1 r.2.2 C S
    some (some a)

end Verif.Var.Icgem
