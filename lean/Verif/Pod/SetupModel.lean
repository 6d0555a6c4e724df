import Verif.Yaml.Model
import Verif.Filters.LayoutModel
import Verif.Forces.Model
import Verif.Pod.ObsModel
import Verif.Rinex.DataModel

/-
Model of the parts of the orbit determination program (test/rinex_pod.cpp) before and around the loop over the
data blocks: the files named in the configuration, the initial covariances, the end of the loop, the indices of
the observables and the relativistic correction.

Names of files are what the buffer `buf` holds up to its first NUL.  What a consumer of a file does with it is a
parameter: whether the program goes on.  Asserts are taken as compiled out where they contain a call
(test/rinex_pod.cpp:488, with `mass_cog`); they are not part of the model.
-/
namespace Verif.Pod.Setup

open Verif.Yaml Verif.Filters Verif.Astro Verif.Forces

/-! ### Names of files -/

/-- What is read with the buffer `buf`, in the order of the program. -/
inductive Res
  | spk | lsk | rinex | sp3 | eop | gravity | sinex | beacons | vmf3 | quat | mass | pck | atmo
  deriving DecidableEq, Repr

/-- The keys (test/rinex_pod.cpp:343, 348, 356, 380, 388, 417, 433, 451, 464, 469, 479, 504, 520). -/
def Res.path : Res → List String
  | .spk => ["naif-kernels", "spk"]
  | .lsk => ["naif-kernels", "lsk"]
  | .rinex => ["data", "doris-rinex"]
  | .sp3 => ["data", "sp3"]
  | .eop => ["eop-info", "eop-file"]
  | .gravity => ["gravity", "model"]
  | .sinex => ["reference-frame", "station-coordinates"]
  | .beacons => ["data", "beacon-information"]
  | .vmf3 => ["troposphere", "vmf3", "grid"]
  | .quat => ["attitude", "body-quaternion"]
  | .mass => ["attitude", "mass-cog"]
  | .pck => ["naif-kernels", "pck"]
  | .atmo => ["force-model", "atmospheric-drag", "atmo-data-csv"]

/-- The status of the look-up is tested (same lines). -/
def Res.checked : Res → Bool
  | .sp3 | .beacons | .vmf3 | .quat | .atmo => false
  | _ => true

/-- The order of the program (test/rinex_pod.cpp:343-526). -/
def order : List Res :=
  [.spk, .lsk, .rinex, .sp3, .eop, .gravity, .sinex, .beacons, .vmf3, .quat, .mass, .pck, .atmo]

/-- `get_yaml_value_depth3` for strings (src/var_utils.hpp:111-116): status and buffer; `none`: undefined behaviour,
or an exception leaves the function. -/
def depth3s (conv : Tree → Option (List Char)) (root : Ref) (key1 key2 key3 : String) (buf : List Char) :
    Option (Nat × List Char) :=
  match getNode root key1 with
  | none => none
  | some n => depth2s conv n key2 key3 buf

/-- The look-up of a name. -/
def ask (conv : Tree → Option (List Char)) (root : Tree) (path : List String) (buf : List Char) :
    Option (Nat × List Char) :=
  match path with
  | [a, b] => depth2s conv (.node root) a b buf
  | [a, b, c] => depth3s conv (.node root) a b c buf
  | _ => some (1, buf)

/-- The C string in a buffer. -/
def cstr (buf : List Char) : List Char := buf.takeWhile (· ≠ '\x00')

/-- How the reading of the configuration ends: with the files used. -/
inductive Ended
  /-- undefined behaviour or an exception that ends the program -/
  | crashed
  /-- `return` with an error: the look-up failed, or the consumer did -/
  | stopped (used : List (Res × List Char))
  /-- the program goes on -/
  | ready (used : List (Res × List Char))
  deriving DecidableEq, Repr

/-- The look-ups one after the other, with one buffer (test/rinex_pod.cpp:329-526); `ok`: the consumer of a file
goes on. -/
def setup (conv : Tree → Option (List Char)) (ok : Res → List Char → Bool) (root : Tree) :
    List Res → List Char → List (Res × List Char) → Ended
  | [], _, used => .ready used
  | r :: rs, buf, used =>
    match ask conv root r.path buf with
    | none => .crashed
    | some (status, buf') =>
      if r.checked && status != 0 then .stopped used
      else
        let used' := used ++ [(r, cstr buf')]
        if ok r (cstr buf') then setup conv ok root rs buf' used' else .stopped used'

/-- Degree and order (test/rinex_pod.cpp:411-415): the degree `HarmonicCoeffs` is created with, and the status;
`junk`: the content of the two variables, which are not initialised. -/
def harmonics (conv : Tree → Option Int) (root : Tree) (junk : Int × Int) : Int × Nat :=
  let d := depth2 conv (.node root) "gravity" "degree" junk.1
  let o := depth2 conv (.node root) "gravity" "order" junk.2
  (d.2, d.1 + o.1)

/-! ### Initial covariances -/

/-- The diagonal of the covariance matrix when the loop starts (test/rinex_pod.cpp:558-574 with
src/filters/ekf.hpp:19-26): the identity, then the frequency offsets and their drifts, the troposphere, the drag
coefficient.  The matrix has no other entries. -/
def covariance (ns : Nat) : Option Vec :=
  (setRfoffLinear 1 ns (fun _ => 1) (1 * 1) (1 * 1) none).bind fun x =>
    (setTropo .linear 1 ns x ((1 / 2) * (1 / 2)) none).bind fun x =>
      setDrag .linear 1 ns x ((3 / 4) * (3 / 4))

/-- The estimates when the loop starts (test/rinex_pod.cpp:558-574 with src/filters/ekf.hpp:21). -/
def estimates (ns : Nat) : Option Vec :=
  (setRfoffLinear 1 ns (fun _ => 0) 0 0 none).bind fun x => setDrag .linear 1 ns x 2

/-! ### The loop over the blocks -/

/-- The loop (test/rinex_pod.cpp:620-656, 697, 1055-1062).  `reads`: status and epoch (nanoseconds) after every call
of `it.next()`; `first`: the time of the first observation in the header; `goto`: the SP3 reader finds the epoch;
`go`: the integration to a block succeeds.  Result: the blocks done and the value returned; `none`: the list of calls
is too short. -/
def blocks (goto : Int → Bool) (go : Int → Bool) (first : Int) :
    List (Int × Int) → List Int → Option (List Int × Int)
  | [], _ => none
  | (status, t) :: rest, done =>
    if status ≠ 0 then some (done, 0)
    else if done = [] ∧ goto t = false then some (done, 1)
    else if go t = false then some (done, 1)
    else if t - first > 12 * 60 * 60 * 1000000000 then some (done ++ [t], 0)
    else blocks goto go first rest (done ++ [t])

/-! ### Observables -/

/-- `get_rinex_indexes` (test/rinex_pod.cpp:1065-1096): the five indices and the status. -/
def indexes (codes : List SystemInfo.ObsCode) : (Int × Int × Int × Int × Int) × Nat :=
  let l1 := Rinex.codeIndex codes ⟨.phase, 1⟩
  let l2 := Rinex.codeIndex codes ⟨.phase, 2⟩
  let f := Rinex.codeIndex codes ⟨.frequencyOffset, 0⟩
  let w1 := Rinex.codeIndex codes ⟨.powerLevel, 1⟩
  let w2 := Rinex.codeIndex codes ⟨.powerLevel, 2⟩
  ((l1, l2, f, w1, w2), if f < 0 ∨ l1 < 0 ∨ l2 < 0 ∨ w1 < 0 ∨ w2 < 0 then 1 else 0)

/-! ### Relativity -/

/-- `relativity_corrections` (test/rinex_pod.cpp:1110-1131) and the sum of its results (line 829): position and
velocity of the satellite, position of the beacon, all Earth-fixed. -/
noncomputable def relativity (c : ℝ) (lat : V3 → ℝ) (r v b : V3) (Re GM J2 : ℝ) : ℝ :=
  let B := clock c b ⟨0, 0, 0⟩ GM
  let S := clockJ2 c lat r v GM J2 Re
  (S - B) + 0

end Verif.Pod.Setup
