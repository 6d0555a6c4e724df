import Verif.Astro.Vec
import Mathlib.Algebra.Order.Floor.Ring
import Mathlib.Data.Real.Archimedean

/-!
Model of the interpolation and regularization of Earth orientation parameters
(src/iers/eop_interpolate.cpp) and of `gcrs2itrs` (src/itrs2gcrs.cpp 157-220).

Simplifications: real numbers stand for `double`.  The functions of the IERS and date libraries are
parameters; `lagint` may return any status and value.  An unset variable is an argument of the model.
-/
namespace Verif.Eop.Interp

open Verif.Astro

/-- `EopRecord` (src/eop.hpp 10-12). -/
@[ext] structure Rec where
  mjd : ℝ
  xp : ℝ
  yp : ℝ
  dut : ℝ
  lod : ℝ
  dx : ℝ
  dy : ℝ
  omega : ℝ

/-- `EopLookUpTable`: the columns, of which the first `sz` rows are in use (src/eop.hpp 20-36). -/
@[ext] structure Table where
  sz : Nat
  mjd : Nat → ℝ
  xp : Nat → ℝ
  yp : Nat → ℝ
  dut : Nat → ℝ
  dx : Nat → ℝ
  dy : Nat → ℝ
  lod : Nat → ℝ
  omega : Nat → ℝ

/-- `iers2010::interp::lagint(x, y, n, xint, yout, index, order)`: from what `yout` and `index` hold to the
status and what they hold afterwards. -/
abbrev LagInt := (Nat → ℝ) → (Nat → ℝ) → Nat → ℝ → Int → ℝ → Int → Int × ℝ × Int

/-- The functions of the IERS library: `rg_zont2` (effect on UT1, length of day and rotation rate),
`pmut1_oceans` (on pole, UT1 and length of day) and `pm_gravi` (on the pole). -/
structure Lib where
  lag : LagInt
  zont : ℝ → ℝ × ℝ × ℝ
  oceans : ℝ → ℝ × ℝ × ℝ × ℝ
  gravi : ℝ → ℝ × ℝ

/-- `interpolate_lagrange` (eop_interpolate.cpp:6-40): the eight calls in their order, `index` handed on. -/
def interpolateLagrange (L : Lib) (T : Table) (t : ℝ) (r : Rec) (order : Int) : Int × Rec :=
  let c1 := L.lag T.mjd T.xp T.sz t order r.xp (-1)
  let c2 := L.lag T.mjd T.yp T.sz t order r.yp c1.2.2
  let c3 := L.lag T.mjd T.dut T.sz t order r.dut c2.2.2
  let c4 := L.lag T.mjd T.dx T.sz t order r.dx c3.2.2
  let c5 := L.lag T.mjd T.dy T.sz t order r.dy c4.2.2
  let c6 := L.lag T.mjd T.lod T.sz t order r.lod c5.2.2
  let c7 := L.lag T.mjd T.dx T.sz t order c4.2.1 c6.2.2
  let c8 := L.lag T.mjd T.dy T.sz t order c5.2.1 c7.2.2
  let status := 0 + c1.1 + c2.1 + c3.1 + c4.1 + c5.1 + c6.1 + c7.1 + c8.1
  let r' : Rec := ⟨r.mjd, c1.2.1, c2.2.1, c3.2.1, c6.2.1, c7.2.1, c8.2.1, r.omega⟩
  if status ≠ 0 then (1, r') else (0, { r' with mjd := t })

/-- `modf`: whole part towards zero, and the rest. -/
noncomputable def modf (x : ℝ) : ℝ × ℝ :=
  open Classical in
  let i : ℝ := if 0 ≤ x then (⌊x⌋ : ℝ) else (⌈x⌉ : ℝ)
  (x - i, i)

/-- `jc2000` (eop_interpolate.cpp:49-52 and 89-91). -/
noncomputable def jc2000 (t : ℝ) : ℝ :=
  let m := modf t
  (m.2 + 2400000.5 - 2451545) / 36525 + m.1 / 36525

/-- `interpolate` (eop_interpolate.cpp:42-82). -/
noncomputable def interpolate (L : Lib) (T : Table) (t : ℝ) (r : Rec) (order : Int) : Int × Rec :=
  let r1 := (interpolateLagrange L T t r order).2
  let jc := jc2000 t
  let z := L.zont jc
  let r2 : Rec := { r1 with dut := r1.dut + z.1, lod := r1.lod + z.2.1, omega := r1.omega + z.2.2 }
  let o := L.oceans jc
  let r3 : Rec := { r2 with
    xp := r2.xp + o.1, yp := r2.yp + o.2.1, dut := r2.dut + o.2.2.1, lod := r2.lod + o.2.2.2 }
  let g := L.gravi jc
  let r4 : Rec := { r3 with xp := r3.xp + g.1, yp := r3.yp + g.2 }
  (0, { r4 with mjd := t })

/-- `a[i] -= d`. -/
def subAt (a : Nat → ℝ) (i : Nat) (d : ℝ) : Nat → ℝ := fun j => if j = i then a j - d else a j

/-- The loop of `regularize` (eop_interpolate.cpp:84-105), up to row `n`. -/
noncomputable def regularizeLoop (L : Lib) (T : Table) : Nat → Table
  | 0 => T
  | i + 1 =>
    let S := regularizeLoop L T i
    let z := L.zont (jc2000 (S.mjd i))
    { S with dut := subAt S.dut i z.1, lod := subAt S.lod i z.2.1, omega := subAt S.omega i z.2.2 }

/-- `regularize`. -/
noncomputable def regularize (L : Lib) (T : Table) : Table := regularizeLoop L T T.sz

/-! ### `gcrs2itrs` -/

/-- The functions of the SOFA and date libraries: `tai2utc` gets day and nanoseconds and returns the
fraction and the day in UTC. -/
structure Sofa where
  xy06 : ℝ → ℝ → ℝ × ℝ
  s06 : ℝ → ℝ → ℝ → ℝ → ℝ
  c2ixys : ℝ → ℝ → ℝ → M3
  era00 : ℝ → ℝ → ℝ
  sp00 : ℝ → ℝ → ℝ
  pom00 : ℝ → ℝ → ℝ → M3
  tai2utc : Int → Int → ℝ × Int
  arcsec2rad : ℝ → ℝ

/-- Conversion of a `double` to an integer. -/
noncomputable def trunc (x : ℝ) : Int :=
  open Classical in
  if 0 ≤ x then ⌊x⌋ else ⌈x⌉

/-- `taidate` (itrs2gcrs.cpp:163-169): the day and the whole nanoseconds. -/
noncomputable def taiDate (mjdTai : ℝ) : Int × Int :=
  let imjd := trunc mjdTai
  let sec := (mjdTai - imjd) * 86400
  (imjd, trunc (sec * 1000000000))

/-- `ttdate.as_mjd()` (itrs2gcrs.cpp:172-173). -/
noncomputable def ttMjd (d : Int × Int) : ℝ :=
  d.1 + ((d.2 + 32184 * 1000000 : Int) : ℝ) / (86400 * 1000000000)

/-- What `gcrs2itrs` hands back: status, `rc2i`, `era`, `rpom`, `xlod`. -/
structure Out where
  status : Int
  rc2i : M3
  era : ℝ
  rpom : M3
  xlod : ℝ

/-- `gcrs2itrs` (itrs2gcrs.cpp:157-220); `unset` is the record before interpolation, `old` what the
arguments hold. -/
noncomputable def gcrs2itrs (L : Lib) (S : Sofa) (T : Table) (mjdTai : ℝ) (unset : Rec) (old : Out) : Out :=
  let tai := taiDate mjdTai
  let tt := ttMjd tai
  let e := interpolate L T tt unset 5
  if e.1 ≠ 0 then { old with status := e.1 } else
    let eops := e.2
    let xy := S.xy06 2400000.5 tt
    let s := S.s06 2400000.5 tt xy.1 xy.2
    let X := xy.1 + S.arcsec2rad eops.dx
    let Y := xy.2 + S.arcsec2rad eops.dy
    let rc2i := S.c2ixys X Y s
    let u := S.tai2utc tai.1 tai.2
    let ut1 := u.1 + eops.dut / 86400 + (u.2 : ℝ)
    let era := S.era00 2400000.5 ut1
    let sp := S.sp00 2400000.5 tt
    let rpom := S.pom00 (S.arcsec2rad eops.xp) (S.arcsec2rad eops.yp) sp
    ⟨0, rc2i, era, rpom, eops.lod⟩

end Verif.Eop.Interp
