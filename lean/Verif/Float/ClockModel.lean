import Verif.Float.Format
import Verif.Rinex.DataModel
import Mathlib.Data.Rat.Floor

/-
Epoch corrections in nanoseconds, in double arithmetic.

The numbers in the file have a fixed number of decimals: `k` units of the last digit, that is the
rational `k / S`.  `strtod` gives the nearest double.  Epochs are exact integers (nanoseconds).
-/
namespace Verif.Float

open Verif.Rinex (truncInt)

/-- A field with `k` units of the last digit, `S` units making one, read by `strtod`
(src/rinex/doris_rinex.cpp:288, src/rinex/read_rnx_header.cpp:255). -/
def readField (rnd : ℚ → ℚ) (S : ℕ) (k : ℤ) : ℚ := rnd ((k : ℚ) / S)

/-- Scaling to whole units: product in doubles, then truncation
(src/doris_rinex.hpp:49-50, 309-311, 399-400, src/rinex/rnx_datablock_iterator.cpp:40-41). -/
def toUnits (rnd : ℚ → ℚ) (S : ℕ) (x : ℚ) : ℤ := truncInt (rnd (x * S))

/-- `corrected_l1_epoch()` (src/doris_rinex.hpp:391-404), in nanoseconds; `off` is the clock offset
field of the record, in units of 1 ns, `none` if it is blank.  The multiplication with 0 or 1 is
exact. -/
def l1EpochD (rnd : ℚ → ℚ) (applied : Bool) (epoch : ℤ) (off : Option ℤ) : ℤ :=
  if applied then epoch
  else
    match off with
    | some k => epoch + toUnits rnd (10 ^ 9) (readField rnd (10 ^ 9) k)
    | none => epoch + toUnits rnd (10 ^ 9) 0

/-- `l21_date_offset` (src/doris_rinex.hpp:306-312) of a header field of `k` nanoseconds, written in
microseconds with three decimals. -/
def l21OffsetD (rnd : ℚ → ℚ) (k : ℤ) : ℤ := toUnits rnd (10 ^ 3) (readField rnd (10 ^ 3) k)

/-- `corrected_l1_epoch(tl2)` (src/rinex/rnx_datablock_iterator.cpp:35-54) for a record with clock
offset: L1 and L2 epochs. -/
def l1l2EpochsD (rnd : ℚ → ℚ) (applied : Bool) (l21 : ℤ) (epoch : ℤ) (off : ℤ) : ℤ × ℤ :=
  let t := if applied then epoch
    else epoch + toUnits rnd (10 ^ 9) (readField rnd (10 ^ 9) off)
  (t, t + l21OffsetD rnd l21)

end Verif.Float
