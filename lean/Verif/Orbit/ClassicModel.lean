import Verif.Orbit.Model
import Mathlib.Analysis.SpecialFunctions.Trigonometric.Inverse

/-!
Model of the functions that return classical elements (angular momentum, inclination, node, eccentricity,
argument of perigee, true anomaly): `state2kepler`, its two alternatives
(src/astrodynamics/state2kepler.cpp 175-354) and of `pos2ad` (src/astrodynamics/pos2ra.cpp).

Simplifications: real numbers stand for `double`; `acos` and `asin` outside [-1, 1] and divisions by zero,
which give no number in the code, have the values of Mathlib here and are excluded by the statements.
-/
namespace Verif.Orbit

open Verif.Astro Real

/-- The six values of the array `keplerian`. -/
structure Classic where
  h : ℝ
  i : ℝ
  Omega : ℝ
  e : ℝ
  omega : ℝ
  theta : ℝ

/-- `state2kepler` (state2kepler.cpp 264-354). -/
noncomputable def state2kepler (pos vel : V3) (m : ℝ) : Classic :=
  let r := pos.norm
  let v := vel.norm
  let vr := pos.dot vel / r
  let hv := pos.cross vel
  let h := hv.norm
  let i := arccos (hv.z / h)
  let Nv : V3 := ⟨-hv.y, hv.x, 0⟩
  let N := Nv.norm
  let Nf := arccos (Nv.x / N)
  let Omega := open Classical in if Nv.y < 0 then 2 * π - Nf else Nf
  let ev := ((pos.smul (v * v - m / r)).sub (vel.smul (r * vr))).smul (1 / m)
  let e := ev.norm
  let Of := arccos (Nv.dot ev / N / e)
  let omega := open Classical in if ev.z < 0 then 2 * π - Of else Of
  let Tf := arccos (ev.dot pos / e / r)
  let theta := open Classical in if vr < 0 then 2 * π - Tf else Tf
  ⟨h, i, Omega, e, omega, theta⟩

/-- `alternatives::state2kepler_vallado` (state2kepler.cpp 209-262). -/
noncomputable def vallado (r v : V3) (m : ℝ) : Classic :=
  let rnorm := r.norm
  let h := r.cross v
  let hnorm := h.norm
  let n : V3 := ⟨-h.y, h.x, 0⟩
  let nnorm := n.norm
  let e := ((r.smul (v.dot v - m / rnorm)).sub (v.smul (r.dot v))).smul (1 / m)
  let enorm := e.norm
  let i := arccos (h.z / hnorm)
  let Omega := arccos (n.x / nnorm)
  let Omega := open Classical in if n.y < 0 then 2 * π - Omega else Omega
  let omega := arccos (n.dot e / (nnorm * enorm))
  let omega := open Classical in if e.z < 0 then 2 * π - omega else omega
  let ni := arccos (e.dot r / (enorm * rnorm))
  let ni := open Classical in if r.dot v < 0 then 2 * π - ni else ni
  ⟨hnorm, i, Omega, enorm, omega, ni⟩

/-- `alternatives::state2kepler_montenbruck` (state2kepler.cpp 175-207).  The quotient of line 197 is
`((r·v) / a * a) / n`. -/
noncomputable def montenbruck (r v : V3) (m : ℝ) : Classic :=
  let rmag := r.norm
  let h := r.cross v
  let hmag := h.norm
  let W : V3 := ⟨h.x / hmag, h.y / hmag, h.z / hmag⟩
  let i := atan2 √(W.x * W.x + W.y * W.y) W.z
  let Omega := atan2 W.x (-W.y)
  let p := h.dot h / m
  let a := 1 / (2 / rmag - v.dot v / m)
  let n := √(m / (a * a * a))
  let e := √(1 - p / a)
  let E := atan2 (r.dot v / a * a / n) (1 - rmag / a)
  let sE := sin E
  let u := atan2 r.z (-r.x * W.y + r.y * W.x)
  let t := atan2 (√(1 - e * e) * sE) (cos E - e)
  ⟨hmag, i, Omega, e, u - t, t⟩

/-- `pos2ad` (pos2ra.cpp 7-32): right ascension and declination. -/
noncomputable def pos2ad (pos : V3) : ℝ × ℝ :=
  let r := pos.norm
  let l := pos.x / r
  let m := pos.y / r
  let n := pos.z / r
  let d := arcsin n
  let af := arccos (l / cos d)
  open Classical in
  (if m ≤ 0 then 2 * π - af else af, d)

end Verif.Orbit
