import Mathlib.Algebra.Order.Field.Basic
import Mathlib.Algebra.Order.AbsoluteValue.Basic
import Mathlib.Algebra.Module.Pi

/-!
Model of the Runge-Kutta-Fehlberg integrator in var/ode_solvers (rkf45.hpp, rkf45_fehl.cpp, rkf45_rkfs.cpp).

Simplifications: the arithmetic is that of an ordered field `K`, without rounding; the function to integrate is
an arbitrary function `f`.  The matrix `F` is given back by `fehl` and not kept between calls: every column is
written before it is read.  `mflag` is not kept: where it is tested it is the absolute value of `iflag`.
Members that the constructor does not set are arbitrary in a new solver.
-/
namespace Verif.Rkf

variable {K : Type} [Field K] [LinearOrder K] [IsStrictOrderedRing K]
variable {E : Type} [AddCommGroup E] [Module K E]

/-- The columns of `F` after `fehl`: 1 to 4 are derivatives, in the order of their abscissas 3/8, 12/13, 1, 1/2. -/
structure Cols (E : Type) where
  c1 : E
  c2 : E
  c3 : E
  c4 : E

/-- `fehl` (var/ode_solvers/rkf45_fehl.cpp:14-55): the new solution and the columns of `F`. -/
def fehl (f : K → E → E) (t h : K) (y0 yp0 yp : E) : E × Cols E :=
  let f0 := f (t + h / 4) (y0 + (h / 4) • yp0)
  let f1 := f (t + 3 * h / 8) (y0 + (3 * h / 32) • (yp + (3 : K) • f0))
  let f2 := f (t + 12 * h / 13) (y0 + (h / 2197) • ((1932 : K) • yp + ((7296 : K) • f1 - (7200 : K) • f0)))
  let f3 := f (t + h)
    (y0 + (h / 4104) • (((8341 : K) • yp - (845 : K) • f2) + ((29440 : K) • f1 - (32832 : K) • f0)))
  let f4 := f (t + h / 2)
    (y0 + (h / 20520) • (((-6080 : K) • yp + ((9295 : K) • f2 - (5643 : K) • f3)) +
      ((41040 : K) • f0 - (28352 : K) • f1)))
  (y0 + (h / 7618050) • (((902880 : K) • yp + ((3855735 : K) • f2 - (1371249 : K) • f3)) +
    ((3953664 : K) • f1 + (277020 : K) • f4)), ⟨f1, f2, f3, f4⟩)

/-- What is summed for the estimate of the error (var/ode_solvers/rkf45_rkfs.cpp:252-254), for all components. -/
def errSum (yp : E) (F : Cols E) : E :=
  ((-2090 : K) • yp + ((21970 : K) • F.c2 - (15048 : K) • F.c3)) + ((22528 : K) • F.c1 - (27360 : K) • F.c4)

/-- The members of `RKF45` (var/ode_solvers/rkf45.hpp:26-42). -/
structure Solver (K : Type) (n : Nat) where
  iflag : Int
  jflag : Int
  kflag : Int
  nfe : Nat
  kop : Nat
  init : Bool
  relerr : K
  abserr : K
  h : K
  savae : K
  savre : K
  yp : Fin n → K

/-- What the constructor sets (var/ode_solvers/rkf45.hpp:18-23). -/
def Solver.IsNew {n : Nat} (s : Solver K n) (relerr abserr : K) : Prop :=
  s.iflag = 1 ∧ s.relerr = relerr ∧ s.abserr = abserr

/-- `remin`, `maxnfe`, `twoeps`, `u26` (var/ode_solvers/rkf45_rkfs.cpp:8-11). -/
def remin : K := 1 / 1000000000000
/-- See `remin`. -/
def maxnfe : Nat := 3000
/-- See `remin`. -/
def twoeps : K := 2 / 4503599627370496
/-- See `remin`. -/
def u26 : K := 13 * twoeps

/-- The end of a call: returned value, members, time and solution. -/
structure Out (K : Type) (n : Nat) where
  ret : Int
  s : Solver K n
  t : K
  y : Fin n → K

/-- The checks at the beginning (var/ode_solvers/rkf45_rkfs.cpp:13-78): members after them, and whether the call
goes on. -/
def enter {n : Nat} (s : Solver K n) (t tout : K) : Solver K n × Bool :=
  if n < 1 ∨ (s.iflag < -2 ∨ s.iflag > 8) ∨ (s.relerr < 0 ∨ s.abserr < 0) ∨ (t = tout ∧ s.kflag ≠ 3) then
    ({ s with iflag := 8 }, false)
  else if s.iflag = 1 ∨ s.iflag = -1 then (s, true)
  else if s.iflag = 2 ∨ s.iflag = -2 then
    if (s.kflag = 5 ∧ s.abserr = 0) ∨ (s.kflag = 6 ∧ s.relerr ≤ s.savre ∧ s.abserr ≤ s.savae) then (s, false)
    else if s.kflag = 3 ∨ s.init = false then ({ s with iflag := s.jflag }, true)
    else if s.kflag = 4 then ({ s with nfe := 0 }, true)
    else (s, true)
  else if s.iflag = 3 then ({ s with iflag := s.jflag }, true)
  else if s.iflag = 4 then ({ s with nfe := 0, iflag := s.jflag }, true)
  else if s.iflag = 5 ∧ s.abserr > 0 then ({ s with iflag := s.jflag }, true)
  else (s, false)

/-- One component in the loop for the first step size (var/ode_solvers/rkf45_rkfs.cpp:128-137): `h` and `toln`. -/
def startOne (relerr abserr y yp : K) (x : K × K) : K × K :=
  let tol := relerr * |y| + abserr
  if 0 < tol then (if |yp| * x.1 ^ 5 > tol then (tol / |yp|) * (tol / |yp|) else x.1, tol) else x

/-- The first step size, without sign (var/ode_solvers/rkf45_rkfs.cpp:126-141). -/
def startStep {n : Nat} (relerr abserr t dt : K) (y yp : Fin n → K) : K :=
  let x := (List.finRange n).foldl (fun x i => startOne relerr abserr (y i) (yp i) x) (|dt|, 0)
  max (if x.2 ≤ 0 then 0 else x.1) (u26 * max |t| |dt|)

/-- `copysign`; a zero counts as positive. -/
def copysign (h d : K) : K := if d < 0 then -|h| else |h|

/-- `F(0, i)` (var/ode_solvers/rkf45_rkfs.cpp:246): row 0 of column `i`, column 0 being the new solution.  Beyond
the five columns the memory behind the matrix is read, `junk`. -/
def rowZero {n : Nat} (hn : 0 < n) (junk : Nat → K) (s : Fin n → K) (F : Cols (Fin n → K)) (i : Nat) : K :=
  match i with
  | 0 => s ⟨0, hn⟩
  | 1 => F.c1 ⟨0, hn⟩
  | 2 => F.c2 ⟨0, hn⟩
  | 3 => F.c3 ⟨0, hn⟩
  | 4 => F.c4 ⟨0, hn⟩
  | i => junk i

/-- `et` of a component (var/ode_solvers/rkf45_rkfs.cpp:246). -/
def etOf {n : Nat} (junk : Nat → K) (ae : K) (y s : Fin n → K) (F : Cols (Fin n → K)) (i : Fin n) : K :=
  |y i| + |rowZero (Nat.lt_of_le_of_lt (Nat.zero_le _) i.2) junk s F i.1| + ae

/-- The loop over the components (var/ode_solvers/rkf45_rkfs.cpp:244-256).  `none`: some `et` is not positive. -/
def eeoet {n : Nat} (junk : Nat → K) (ae : K) (y yp s : Fin n → K) (F : Cols (Fin n → K)) : Option K :=
  (List.finRange n).foldl
    (fun x i => x.bind fun m =>
      if etOf junk ae y s F i ≤ 0 then none
      else some (max m (|errSum (K := K) yp F i| / etOf junk ae y s F i)))
    (some 0)

/-- The end of the inner loop. -/
inductive Tried (K : Type) (n : Nat) where
  | stop (iflag : Int) (kflag : Option Int) (h : K) (nfe : Nat)
  | ok (h esttol : K) (failed output : Bool) (s : Fin n → K) (nfe : Nat)

/-- The factor after a step that failed (var/ode_solvers/rkf45_rkfs.cpp:269-271). -/
def shrink (esttol : K) : K := if esttol < 59049 then 9 / 10 / (esttol * esttol) else 1 / 10

/-- The factor after a successful step (var/ode_solvers/rkf45_rkfs.cpp:300-304). -/
def grow (esttol : K) (failed : Bool) : K :=
  let s := if esttol > 1889568 / 10000000000 then 9 / 10 / (esttol * esttol) else 5
  if failed then min s 1 else s

/-- `esttol` (var/ode_solvers/rkf45_rkfs.cpp:258). -/
def esttolOf (h e scale : K) : K := |h| * e * scale / 752400

/-- The inner loop, attempts at one step (var/ode_solvers/rkf45_rkfs.cpp:227-284).  The first number bounds the
attempts; `none` if it is used up. -/
def attempts {n : Nat} (junk : Nat → K) (f : K → (Fin n → K) → Fin n → K) (hmin scale ae t : K) (y yp : Fin n → K) :
    Nat → K → Bool → Bool → Nat → Option (Tried K n)
  | 0, _, _, _, _ => none
  | fuel + 1, h, failed, output, nfe =>
    if nfe > maxnfe then some (.stop 4 (some 4) h nfe)
    else
      let r := fehl f t h y yp yp
      match eeoet junk ae y yp r.1 r.2 with
      | none => some (.stop 5 none h (nfe + 5))
      | some e =>
        if esttolOf h e scale ≤ 1 then some (.ok h (esttolOf h e scale) failed output r.1 (nfe + 5))
        else
          let h' := h * shrink (esttolOf h e scale)
          if |h'| ≤ hmin then some (.stop 6 (some 6) h' (nfe + 5))
          else attempts junk f hmin scale ae t y yp fuel h' true false (nfe + 5)

/-- The step size adjusted to the output point, and whether the step reaches it
(var/ode_solvers/rkf45_rkfs.cpp:189-200). -/
def aim (dt h : K) : K × Bool :=
  if |dt| ≥ 2 * |h| then (h, false) else if |dt| > |h| then (dt / 2, false) else (dt, true)

/-- The loop over the steps (var/ode_solvers/rkf45_rkfs.cpp:180-324). -/
def steps {n : Nat} (junk : Nat → K) (f : K → (Fin n → K) → Fin n → K) (scale ae tout : K) :
    Nat → Solver K n → K → (Fin n → K) → Option (Out K n)
  | 0, _, _, _ => none
  | fuel + 1, s, t, y =>
    let hmin := u26 * |t|
    let x := aim (tout - t) s.h
    match attempts junk f hmin scale ae t y s.yp (fuel + 1) x.1 false x.2 s.nfe with
    | none => none
    | some (.stop i k h nfe) =>
      some ⟨0, { s with iflag := i, kflag := k.getD s.kflag, h := h, nfe := nfe }, t, y⟩
    | some (.ok h e failed output ynew nfe) =>
      let t' := t + h
      let s' := { s with yp := f t' ynew, nfe := nfe + 1, h := copysign (max (grow e failed * |h|) hmin) h }
      if output then some ⟨0, { s' with iflag := 2 }, tout, ynew⟩
      else if s.iflag > 0 then steps junk f scale ae tout fuel s' t' ynew
      else some ⟨0, { s' with iflag := -2 }, t', ynew⟩

/-- The members at the beginning of the loop over the steps (var/ode_solvers/rkf45_rkfs.cpp:114-150). -/
def prepare {n : Nat} (f : K → (Fin n → K) → Fin n → K) (s : Solver K n) (t tout : K) (y : Fin n → K) : Solver K n :=
  let yp := f t y
  let h := copysign (startStep s.relerr s.abserr t (tout - t) y yp) (tout - t)
  { s with init := true, yp := yp, nfe := 1, h := h, jflag := if s.iflag < 0 then -2 else 2,
           kop := if |h| ≥ 2 * |tout - t| then 1 else 0 }

/-- The call after the checks (var/ode_solvers/rkf45_rkfs.cpp:80-324). -/
def go {n : Nat} (junk : Nat → K) (f : K → (Fin n → K) → Fin n → K) (fuel : Nat) (s : Solver K n) (t tout : K)
    (y : Fin n → K) : Option (Out K n) :=
  let s := { s with jflag := s.iflag, kflag := 0, savre := s.relerr, savae := s.abserr }
  if ¬ s.relerr ≥ twoeps + remin then
    some ⟨0, { s with relerr := twoeps + remin, iflag := 3, kflag := 3 }, t, y⟩
  else if t = tout then
    some ⟨0, { s with init := false, kop := 0, yp := f t y, nfe := 1, iflag := 2 }, t, y⟩
  else
    let s := prepare f s t tout y
    if s.kop ≥ 100 then some ⟨0, { s with kop := 0, iflag := 7 }, t, y⟩
    else if |tout - t| ≤ u26 * |t| then
      let y' := y + (tout - t) • s.yp
      some ⟨0, { s with yp := f tout y', nfe := s.nfe + 1, iflag := 2 }, tout, y'⟩
    else steps junk f (2 / s.relerr) (2 / s.relerr * s.abserr) tout fuel s t y

/-- `rkfs` (var/ode_solvers/rkf45_rkfs.cpp:6-330).  `none`: more than `fuel` steps. -/
def rkfs {n : Nat} (junk : Nat → K) (f : K → (Fin n → K) → Fin n → K) (fuel : Nat) (s : Solver K n) (t tout : K)
    (y : Fin n → K) : Option (Out K n) :=
  let x := enter s t tout
  if x.2 then go junk f fuel x.1 t tout y else some ⟨1, x.1, t, y⟩

end Verif.Rkf
