import Verif.RfoFit.AllModel
import Verif.Rinex.HeaderModel
import Verif.Rinex.DataModel

/-
The frequency-offset fit from the text of the observation files: `parse_rinex_rfos` (src/rinex/fit_rfo.cpp:11-129) with the
header reader and the block iterator of `Verif.Rinex` instead of given blocks.

Simplification: a header that is refused makes the constructor throw inside a `noexcept` function and ends the program; here the
result is `none`, also when an earlier file would have ended the function first.
-/
namespace Verif.RfoFit
open Verif.Rinex Verif.SystemInfo

/-- What the loop takes from a block (src/rinex/fit_rfo.cpp:45-63): the corrected epoch, the proper time, and of the first beacon
the value with the index `f_idx`; an index of -1, a block without beacons: outside an array. -/
noncomputable def blockOf (applied : Bool) (idx : Int) (p : RecHdr × List BeaconObs) : Block ℝ :=
  ⟨l1Epoch applied p.1, p.1.epoch,
    match p.2 with
    | [] => none
    | o :: _ => if idx < 0 then none else (o.values[idx.toNat]?).map fun v => (v.value : ℝ)⟩

/-- A file as `parse_rinex_rfos` meets it (src/rinex/fit_rfo.cpp:25-45).  `b0`, `stack`, `buf` are the buffers of the readers before
the first line; every call of the iterator takes a line or ends, so `lines.length + 1` calls are enough. -/
noncomputable def textFile (e : Ext) (b0 stack buf : Buf) (t0 tend : Int) (lines : List Line) : Option File :=
  match readHeader e b0 (Stream.open lines) with
  | .error _ => none
  | .ok (h, s) =>
    let r := iterate e h.scale stack (lines.length + 1) s buf
    some ⟨r.1.map (blockOf h.rcvApplied (codeIndex h.codes ⟨.frequencyOffset, 0⟩)), r.2.getD 0, h.refDate, t0, tend⟩

/-- `fit_relative_frequency_offset` (src/rinex/fit_rfo.cpp:131-200) on texts. -/
noncomputable def fitTexts (ldlt : (m : Nat) → Matrix (Fin m) (Fin m) ℝ → (Fin m → ℝ) → Fin m → ℝ) (e : Ext) (b0 stack buf : Buf)
    (t0 tend : Int) (c : Cfg ℝ) (tmin tmax : Int) (texts : List (List Line)) : Option (Fit (c.order + 1)) :=
  (texts.mapM (textFile e b0 stack buf t0 tend)).map (fitAll ldlt c tmin tmax)

end Verif.RfoFit
