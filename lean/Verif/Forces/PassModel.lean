import Mathlib.Data.Rat.Defs
import Mathlib.Algebra.Order.Ring.Rat

/-!
Model of the lists of shadow passes in test/test_satellite_shadow.cpp.

Simplifications: epochs are whole nanoseconds, and `tmax`, which stands for "not set", is `none`: no epoch of
the loop is `tmax`.  The four shadow coefficients of an epoch are parameters, as is the success of the
interpolation.  A vector of passes is a list with the newest pass first; it is never empty.
-/
namespace Verif.Forces.Passes

/-- `ShadowPass` (test/test_satellite_shadow.cpp:24-45). -/
structure Pass where
  pstart : Option Int
  pstop : Option Int
  ustart : Option Int
  ustop : Option Int
deriving DecidableEq, Repr

/-- The constructor (test/test_satellite_shadow.cpp:25-26). -/
def Pass.new (t : Option Int) : Pass := ⟨t, none, none, none⟩

/-- `in_umbra` (test/test_satellite_shadow.cpp:31). -/
def Pass.inUmbra (p : Pass) : Bool := p.ustart.isSome && p.ustop.isNone

/-- `in_penumbra` (test/test_satellite_shadow.cpp:32-34). -/
def Pass.inPenumbra (p : Pass) : Bool := p.pstart.isSome && p.pstop.isNone

/-- `arc_closed` (test/test_satellite_shadow.cpp:35). -/
def Pass.closed (p : Pass) : Bool := p.pstop.isSome

/-- `arc_is_empty` (test/test_satellite_shadow.cpp:36-38). -/
def Pass.empty (p : Pass) : Bool := p.pstart.isNone && p.pstop.isNone && p.ustart.isNone && p.ustop.isNone

/-- The update for the models that know shadow and light only (test/test_satellite_shadow.cpp:75-84 and
86-95). -/
def step2 (t : Int) (c : ℚ) : List Pass → List Pass
  | [] => []
  | p :: ps =>
    if c = 0 then
      if p.closed then Pass.new (some t) :: p :: ps else p :: ps
    else if !p.closed then { p with pstop := some t } :: ps
    else p :: ps

/-- The update for the models that know umbra and penumbra (test/test_satellite_shadow.cpp:97-135). -/
def step3 (t : Int) (c : ℚ) : List Pass → List Pass
  | [] => []
  | p :: ps =>
    if c < 1 then
      if c = 0 then
        if p.empty then { p with pstart := some t, ustart := some t } :: ps
        else if p.pstop.isSome && p.pstop.isSome then { Pass.new (some t) with ustart := some t } :: p :: ps
        else if p.pstart.isSome && p.ustart.isNone then { p with ustart := some t } :: ps
        else p :: ps
      else
        if p.empty then { p with pstart := some t } :: ps
        else if p.pstop.isNone then Pass.new (some t) :: p :: ps
        else p :: ps
    else if p.pstart.isSome && p.pstop.isNone then
      { p with pstop := some t, ustop := if p.ustop.isNone then some t else p.ustop } :: ps
    else p :: ps

/-- The coefficients of an epoch (test/test_satellite_shadow.cpp:69-72). -/
structure Coefs where
  c1 : ℚ
  c2 : ℚ
  c3 : ℚ
  c4 : ℚ

/-- The four vectors (test/test_satellite_shadow.cpp:233-236). -/
structure Logs where
  mon : List Pass
  val : List Pass
  con : List Pass
  bn1 : List Pass
deriving DecidableEq

/-- The vectors before the loop: one pass each (test/test_satellite_shadow.cpp:233-236). -/
def Logs.init : Logs := ⟨[Pass.new none], [Pass.new none], [Pass.new none], [Pass.new none]⟩

/-- `shadow_coeff` (test/test_satellite_shadow.cpp:57-179). -/
def shadowCoeff (t : Int) (c : Coefs) (L : Logs) : Logs :=
  { mon := step2 t c.c1 L.mon
    bn1 := step2 t c.c4 L.bn1
    val := step3 t c.c3 L.val
    con := step3 t c.c3 L.con }

/-- One epoch: nothing is done when the interpolation fails (test/test_satellite_shadow.cpp:241-254). -/
def turn (t : Int) (s : Option Coefs) (L : Logs) : Logs :=
  match s with
  | none => L
  | some c => shadowCoeff t c L

/-- The loop (test/test_satellite_shadow.cpp:239-257), for at most `k` turns. -/
def loop (sample : Int → Option Coefs) (stop every : Int) : Nat → Int → Logs → Option Logs
  | 0, _, _ => none
  | k + 1, start, L =>
    if start < stop then loop sample stop every k (start + every) (turn start (sample start) L) else some L

end Verif.Forces.Passes
