import Verif.Orbit.ClassicModel

/-
Model of the four conversions of var/cartesian2keplerian (and of the older copies of them in
cartesian2keplerian.cc there), and of the program test.cc.  Numbers are reals, `ngpt::GM` is a parameter; divisions by
zero are excluded by the statements.  The functions return nothing: the result here is what the lines in
comments print.
-/
namespace Verif.Var.Kepler

open Verif.Astro Verif.Orbit Real

/-- The six values to print; `last` is the mean anomaly or the time of the perigee. -/
structure Elems where
  a : ℝ
  e : ℝ
  omega : ℝ
  Omega : ℝ
  i : ℝ
  last : ℝ

/-- `cartesian2keplerian_tapley` (var/cartesian2keplerian/tapley.cc:4-46; cartesian2keplerian.cc:2-40). -/
noncomputable def tapley (GM : ℝ) (x xdot : V3) : Elems :=
  let r := √(x.dot x)
  let hv := x.cross xdot
  let hsq := hv.dot hv
  let h := √hsq
  let i := arccos (hv.z / h)
  let Omega := atan2 hv.x (-hv.y)
  let ksi := xdot.dot xdot / 2 - GM / r
  let a := -GM / ksi / 2
  let e := √(1 + (2 * ksi * hsq) / GM / GM)
  let p := hsq / GM
  let cosf := (p - r) / r / e
  let sinf := (p / h / e) * x.dot xdot / r
  let cosof := (x.x / r) * cos Omega + (x.y / r) * sin Omega
  let sinof := x.z / r / sin i
  let fangle := arctan (sinf / cosf)
  let ofangle := arctan (sinof / cosof)
  let omega := ofangle - fangle
  let cosE := r * cosf / a + e
  let b := a * √(1 - e * e)
  let sinE := r * sinf / b
  let E := arctan (sinE / cosE)
  let M := E - e * sinE
  ⟨a, e, omega, Omega, i, M⟩

/-- `cartesian2keplerian_bernese` (var/cartesian2keplerian/bernese.cc:4-61; cartesian2keplerian.cc:114-168). -/
noncomputable def bernese (GM : ℝ) (x v : V3) (t : ℝ) : Elems :=
  let h0 := x.y * v.z - x.z * v.y
  let h1 := -x.z * v.x + x.x * v.z
  let h2 := x.x * v.y - x.y * v.x
  let kn := atan2 h0 h1
  let i := atan2 (√(h0 * h0 + h1 * h1)) h2
  let p := (h0 * h0 + h1 * h1 + h2 * h2) / GM
  let r := √(x.x * x.x + x.y * x.y + x.z * x.z)
  let ecv := p / r - 1
  let esv := √(p / GM) / r * (x.x * v.x + x.y * v.y + x.z * v.z)
  let v1 := atan2 esv ecv
  let e := √(ecv * ecv + esv * esv)
  let xx0 := cos kn * x.x + sin kn * x.y
  let xx1 := -cos i * sin kn * x.x + cos i * cos kn * x.y + sin i * x.z
  let u := atan2 xx1 xx0
  let per := u - v1
  let ex := 2 * arctan (√((1 - e) / (1 + e)) * (sin (v1 / 2) / cos (v1 / 2)))
  let a := p / (1 - e * e)
  let a3 := a * a * a
  let t0 := t - (ex - e * sin ex) / √(GM / a3)
  ⟨a, e, per, kn, i, t0⟩

/-- `cartesian2keplerian_beutler` (var/cartesian2keplerian/beutler.cc:4-77; cartesian2keplerian.cc:42-112). -/
noncomputable def beutler (GM : ℝ) (x xdot : V3) (t : ℝ) : Elems :=
  let hx := (x.cross xdot).x
  let hy := -(x.cross xdot).y
  let hz := (x.cross xdot).z
  let hsq := hx * hx + hy * hy + hz * hz
  let h := √hsq
  let Omega := atan2 hx hy
  let i := arccos (hz / h)
  let r := √(x.dot x)
  let Edot := xdot.dot xdot / 2 - GM / r
  let p := hsq / GM
  let e := √(1 + 2 * hsq * Edot / GM / GM)
  let xx0 := cos Omega * x.x + sin Omega * x.y
  let xx1 := -cos i * sin Omega * x.x + cos i * cos Omega * x.y + sin i * x.z
  let u := atan2 xx1 xx0
  let ecv := p / r - 1
  let esv := √(p / GM) / r * x.dot xdot
  let v1 := atan2 esv ecv
  let omega := u - v1
  let a := p / (1 - e * e)
  let E := arctan (√(1 + e * e) * sin v1 / (e + cos v1))
  let T0 := t - (E - e * sin E) / √(GM / a / a / a)
  ⟨a, e, omega, Omega, i, T0⟩

/-- `cartesian2keplerian_schwarz` (var/cartesian2keplerian/schwarz.cc:5-81; cartesian2keplerian.cc:171-242). -/
noncomputable def schwarz (GM : ℝ) (x v : V3) : Elems :=
  let hv := x.cross v
  let hsq := hv.dot hv
  let h := √hsq
  let r := √(x.dot x)
  let c := v.cross hv
  let ev : V3 := ⟨c.x / GM - x.x / r, c.y / GM - x.y / r, c.z / GM - x.z / r⟩
  let e := √(ev.dot ev)
  let nv : V3 := ⟨-hv.y, hv.x, 0⟩
  let n := √(nv.dot nv)
  let ta := arccos (ev.dot x / e / r)
  let ta := open Classical in if x.dot v < 0 then 2 * π - ta else ta
  let i := arccos (hv.z / h)
  let E := 2 * atan2 (tan (ta / 2)) (√((1 + e) / (1 - e)))
  let Omega := arccos (nv.x / n)
  let omega := arccos (nv.dot ev / n / e)
  let M := E - e * sin E
  let a := 1 / ((2 / r) - (v.dot v / GM))
  ⟨a, e, omega, Omega, i, M⟩

/-- The loop of the program (var/cartesian2keplerian/test.cc:16-30): records of six numbers are read until the stream
fails, and after the read that fails the conversion is done once more with the numbers that are there.  Result: the
states converted and the number of lines. -/
def testLoop {S : Type} : List S → S → Nat → List S × Nat
  | [], cur, count => ([cur], count + 1)
  | s :: rest, _, count =>
    let (done, n) := testLoop rest s (count + 1)
    (s :: done, n)

end Verif.Var.Kepler
