import Verif.Sgode.Model

/-
Model of the memory accesses of the integrator `SGOde`: which elements of its work arrays
`step` and `intrp` read and write, in the order of the source (src/integrators/sgode.hpp,
sgode_step.cpp, sgode_intrp.cpp).

The indices are integers, so that an index below zero would be visible.  What is modelled is the
sequence of accesses only; the values are those of `Verif/Sgode/Model.lean`, from whose states the
counters `k`, `kold`, `ns` and the flags are taken.  The columns of `ArraysNeqn` are not included:
their numbers are constants.
-/
namespace Verif.Sgode

/-- The work arrays. `diff` are the columns of `Phi` used for the differences, `rnd` its last two
columns, used for propagated round-off (sgode_step.cpp:67, 218-220, 347-349); `gstr` is the constant table of
sgode_step.cpp:13-15; `ig`, `iw`, `irho` are the local arrays of `intrp` (sgode_intrp.cpp:10-13). -/
inductive Arr
  | psi | alpha | beta | v | w | sig | g | diff | rnd | gstr | ig | iw | irho
  deriving DecidableEq

/-- An access. -/
inductive Ev
  | rd (a : Arr) (i : Int)
  | wr (a : Arr) (i : Int)
  deriving DecidableEq

open Arr Ev

/-- The values of `i` in `for (int i = a; i < b; i++)`. -/
def upTo (a b : Int) : List Int := (List.range (b - a).toNat).map fun j : Nat => a + (j : Int)

/-- Lines 101-118 of sgode_step.cpp. -/
def coefT (k ns : Int) : List Ev :=
  [wr beta (ns - 1), wr alpha (ns - 1), wr sig (ns + 1 - 1)]
  ++ (if k ≥ ns + 1 then (upTo (ns + 1 - 1) k).flatMap fun i =>
        [rd psi (i - 1), wr psi (i - 1), rd beta (i - 1), rd psi (i - 1), wr beta i, wr alpha i,
          rd alpha i, rd sig i, wr sig (i + 1)]
      else [])
  ++ [wr psi (k - 1)]

/-- `memcpy(w(), v(), sizeof(double) * m)` (sgode_step.cpp:130, 165). -/
def copyT (m : Int) : List Ev := (upTo 0 m).flatMap fun i => [rd v i, wr w i]

/-- Lines 123-131 of sgode_step.cpp: first step of a size. -/
def firstVT (k : Int) : List Ev := (upTo 0 k).map (wr v) ++ copyT k

/-- Lines 136-153 of sgode_step.cpp: the order was raised. -/
def diagT (k kold ns : Int) : List Ev :=
  if k > kold then
    wr v (k - 1) ::
      (if ns - 2 > 0 then (upTo 0 (ns - 2)).flatMap fun t =>
        [rd v (k - 1 - t - 1), rd alpha (1 + t), rd v (k - 1 - t), wr v (k - 1 - t - 1)]
      else [])
  else []

/-- Lines 157-166 of sgode_step.cpp. -/
def moreVT (k ns : Int) : List Ev :=
  rd alpha (ns - 1)
    :: ((upTo 0 (k + 1 - ns)).flatMap fun iq => [rd v iq, rd v (iq + 1), wr v iq])
  ++ copyT (k + 1 - ns) ++ [rd w 0, wr g (ns + 1 - 1)]

/-- Lines 171-181 of sgode_step.cpp. -/
def gT (k ns : Int) : List Ev :=
  if k + 1 ≥ ns + 2 then (upTo (ns + 2) (k + 1 + 1)).flatMap fun i =>
    rd alpha (i - 2)
      :: ((upTo 0 (k + 2 - i)).flatMap fun iq => [rd w iq, rd w (iq + 1), wr w iq])
    ++ [rd w 0, wr g (i - 1)]
  else []

/-- Block 1 (sgode_step.cpp:98-182), `ns` being the value after sgode_step.cpp:96. -/
def block1T (k kold ns : Int) : List Ev :=
  if k ≥ ns then
    coefT k ns ++ (if ns ≤ 1 then firstVT k else diagT k kold ns ++ moreVT k ns) ++ gT k ns
  else []

/-- Lines 193-220 of sgode_step.cpp. -/
def predictT (k ns : Int) (nornd : Bool) : List Ev :=
  (if k ≥ ns + 1 then (upTo (ns + 1 - 1) k).flatMap fun i => [rd beta i, rd diff i, wr diff i] else [])
  ++ [rd diff (k + 1 - 1), wr diff (k + 2 - 1), wr diff (k + 1 - 1)]
  ++ ((upTo 0 k).flatMap fun t =>
      [rd g (k - 1 - t), rd diff (k - 1 - t), rd diff (k - 1 - t + 1), wr diff (k - 1 - t)])
  ++ (if nornd then [] else [rd rnd 14, rd rnd 14, wr rnd 15])

/-- Lines 240-257 of sgode_step.cpp. -/
def estimateT (k : Int) : List Ev :=
  [rd diff 0]
  ++ (if k - 2 = 0 ∨ k - 2 > 0 then [rd diff (k - 1), rd sig (k - 1), rd gstr (k - 1 - 1)] else [])
  ++ (if k - 2 > 0 then [rd diff (k - 1 - 1), rd sig (k - 1 - 1), rd gstr (k - 2 - 1)] else [])
  ++ [rd g (k - 1), rd g (k + 1 - 1), rd sig (k + 1 - 1), rd gstr (k - 1)]

/-- Block 3 (sgode_step.cpp:289-296). -/
def rejectT (k : Int) : List Ev :=
  ((upTo 0 k).flatMap fun i => [rd beta i, rd diff i, rd diff (i + 1), wr diff i])
  ++ (if k ≥ 2 then (upTo 1 k).flatMap fun i => [rd psi i, wr psi (i - 1)] else [])

/-- Block 4 (sgode_step.cpp:340-383); `est`: the error of order `k+1` is estimated. -/
def acceptT (k : Int) (nornd est : Bool) : List Ev :=
  [rd g (k + 1 - 1)]
  ++ (if nornd then [rd diff 0] else [rd diff 0, rd rnd 15, rd diff 0, rd rnd 15, wr rnd 14])
  ++ [rd diff 0, wr diff (k + 1 - 1), rd diff (k + 1 - 1), rd diff (k + 2 - 1), wr diff (k + 2 - 1)]
  ++ ((upTo 0 k).flatMap fun i => [rd diff i, rd diff (k + 1 - 1), wr diff i])
  ++ (if est then [rd diff (k + 2 - 1), rd gstr (k + 1 - 1)] else [])

/-- `intrp` (sgode_intrp.cpp:16-54). -/
def intrpT (kold : Int) : List Ev :=
  let ki := kold + 1
  let kip1 := ki + 1
  [wr ig 0, wr irho 0]
  ++ (upTo 0 ki).map (wr iw)
  ++ ((upTo 1 ki).flatMap fun j =>
      rd psi (j - 1)
        :: ((upTo 0 (kip1 - j - 1)).flatMap fun i => [rd iw i, rd iw (i + 1), wr iw i])
      ++ [rd iw 0, wr ig j, rd irho (j - 1), wr irho j])
  ++ ((upTo 0 ki).flatMap fun j =>
      [rd ig (kip1 - j - 2), rd irho (kip1 - j - 2), rd diff (kip1 - j - 2), rd diff (kip1 - j - 2)])

variable {K : Type} [Field K] [LinearOrder K] {n : Nat}

/-- The accesses of one pass through blocks 1 and 2, from the state `s` in which it begins. -/
def attemptT (s : St K n) : List Ev :=
  block1T s.k s.kold (nextNs s) ++ predictT s.k (nextNs s) s.nornd ++ estimateT s.k

/-- Lines 43-45 of sgode_step.cpp. -/
def initCoefsT : List Ev := [wr g 0, wr g 1, wr sig 0]

/-- The accesses of the first step (sgode_step.cpp:52-68). -/
def initialiseT (nornd : Bool) : List Ev := [wr diff 0, wr diff 1] ++ (if nornd then [] else [wr rnd 14])

/-- Is the error of order `k+1` estimated (sgode_step.cpp:368-380)? -/
def estimated (q : Est K) (s : St K n) : Bool :=
  let phase1 := if q.knew = s.k - 1 ∨ s.k = 12 then false else s.phase1
  !phase1 && decide (q.knew ≠ s.k - 1) && decide (¬ (s.k + 1 > s.ns))

/-- `Arrays13[m*13 + i]` (sgode.hpp:49-108) as an index into `Arrays13`, or the column of `Phi`. -/
def address : Arr → Int → Int
  | .psi, i => 0 * 13 + i
  | .alpha, i => 1 * 13 + i
  | .beta, i => 2 * 13 + i
  | .v, i => 3 * 13 + i
  | .w, i => 4 * 13 + i
  | .sig, i => 5 * 13 + i
  | .g, i => 6 * 13 + i
  | .ig, i => i
  | .iw, i => 13 + i
  | .irho, i => 26 + i
  | _, i => i

end Verif.Sgode
