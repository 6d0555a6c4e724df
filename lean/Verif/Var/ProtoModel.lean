import Verif.Sgode.Model
import Verif.Harmonic.Model
import Verif.Pcv.Model

/-
Models of three prototypes in var/ that became parts of the library: the choice of the step size of the Adams
integrator (var/ode_solvers/sgode_step.cpp; the rest of that file has the statements of the library), the
de-normalisation of gravity coefficients (var/icgem/src/harmonic_coeffs.cpp) and the phase laws of the ground
antennas (var/antenna/phselaw.cc).
-/
namespace Verif.Var.Proto

/-! ### Step size -/

section
open Verif.Sgode
variable {K : Type} [Field K] [LinearOrder K] {n : Nat}

/-- The table `two` (var/ode_solvers/sgode_step.cpp:10-12). -/
def two : List K := [2, 4, 8, 16, 32, 64, 128, 256, 512, 1024, 2048, 4096, 8192]

/-- The new step size (var/ode_solvers/sgode_step.cpp:405-414); `none`: a read behind the table.  `||` does not
evaluate its right side in the first phase. -/
def nextH (e : Ext K n) (p5eps erk absh : K) (phase1 : Bool) (s : St K n) : Option K :=
  if phase1 then some (s.h + s.h)
  else
    match two[s.k]? with
    | none => none
    | some w =>
      if p5eps ≥ erk * w then some (s.h + s.h)
      else if p5eps < erk then
        let r := e.pow (p5eps / erk) (1 / ((s.k : K) + 1))
        let hnew := absh * max (1 / 2) (min (9 / 10) r)
        some (copysign (max hnew (4 * e.umach * |s.x|)) s.h)
      else some s.h

/-- Block 4 (var/ode_solvers/sgode_step.cpp:328-417). -/
def accept (e : Ext K n) (p5eps : K) (q : Est K) (s : St K n) : Option (St K n) :=
  let s := corrected e s
  let (k, erk, phase1) := nextOrder e q s
  let s := { s with k := k, phase1 := phase1 }
  (nextH e p5eps erk q.absh phase1 s).map fun h => { s with h := h }

end

/-! ### De-normalisation -/

section
open Verif.Harmonic

/-- The factors up to `m` (var/icgem/src/harmonic_coeffs.cpp:40-55), as a list. -/
noncomputable def facs (n m : Nat) : List ℝ :=
  (List.range (m + 1)).map fun i =>
    let s : ℝ := if i = 0 then 1 else ((List.range' (n - i + 1) (2 * i)).map fun (j : Nat) => (j : ℝ)).prod
    Real.sqrt (s / (2 * n + 1) / (2 - if i = 0 then 1 else 0))

/-- The rows of degree `n` (var/icgem/src/harmonic_coeffs.cpp:70-83); factors are read from the list. -/
noncomputable def denormRow (N order : Nat) (t : Table) (n : Nat) : Table :=
  let mm := min order n
  let f := facs n mm
  let t1 := (List.range (mm + 1)).foldl (fun t m => t.store (addrC N n m) (t (addrC N n m) / f.getD m 0)) t
  (List.range' 1 mm).foldl (fun t m => t.store (addrS N n m) (t (addrS N n m) / f.getD m 0)) t1

/-- `denormalize(order)` (var/icgem/src/harmonic_coeffs.cpp:57-87): there is no mark for tables already
de-normalised. -/
noncomputable def denormalize (N : Nat) (t : Table) (order : Int) : Outcome Table :=
  let order' : Int := if order < 0 then N else order
  if order' > N then .ret 1 t
  else if N = 0 then .abort
  else .ret 0 ((List.range' 1 N).foldl (denormRow N order'.toNat) t)

end

/-! ### Phase laws -/

section
open Verif.SystemInfo (AntType)
open Verif.Pcv (Result rad2deg)

/-- The tables (var/antenna/phselaw.cc:12-15, 43-46, 74-77), in units of 0.01 mm. -/
def plarray : AntType → List Int
  | .alcatel => [0, 205, 724, 921, 671, 814, 1187, 1248, 1228, 1367, 1391, 1301, 1301, 1187, 970, 794, 499, 41, -393]
  | .starecB => [0, 6, -32, -112, -287, -402, -344, -215, -173, -173, -8, 137, 220, 537, 702, 1070, 1386, 1727, 2237]
  | .starecC => [0, 6, -32, -112, -287, -402, -344, -215, -173, -173, -8, 137, 220, 537, 702, 1070, 1386, 1727, 2237]

/-- `pcv` for frequency 1 (var/antenna/phselaw.cc:16-28, 47-59, 78-90); the assignment after `return` in line 21 is
not reached. -/
noncomputable def pcv1 (a : AntType) (zenith : ℝ) : Result :=
  let angle := rad2deg zenith
  if zenith < 0 ∨ zenith > Real.pi / 2 then ⟨some 0, if a = .alcatel then 0 else 1⟩
  else
    let index := ⌊angle / 5⌋
    ⟨if index < 0 then none
      else
        match (plarray a)[index.toNat]?, (plarray a)[index.toNat + 1]? with
        | some u, some v => some (u / 100 + (angle - 5 * index) * ((v / 100 - u / 100) / 5))
        | _, _ => none, 0⟩

/-- `pcv` for frequency 2 (var/antenna/phselaw.cc:34-37, 65-68, 96-99). -/
def pcv2 (_ : AntType) (_ : ℝ) : Result := ⟨some 0, 0⟩

end

end Verif.Var.Proto
