import Mathlib.Analysis.Real.Sqrt

/-
Model of `LinearKalman` (src/doris/fit_rfo.cpp:7-85), the two-parameter filter for the relative
frequency offset.  Real numbers instead of `double`; an observation is a pair of time (days since
the reference epoch, `t2d`, src/doris/fit_rfo.cpp:24-27) and value.
-/
namespace Verif.Filters.Rfo

/-- Members `x[0], x[1], P[0], P[1], P[2], R` (src/doris/fit_rfo.cpp:79-84). -/
structure Filter where
  x0 : ℝ
  x1 : ℝ
  p0 : ℝ
  p1 : ℝ
  p2 : ℝ
  r : ℝ

/-- The constructor (src/doris/fit_rfo.cpp:8-17). -/
def Filter.new (x0 x1 s0 s1 obsStd : ℝ) : Filter :=
  ⟨x0, x1, s0 * s0, 0, s1 * s1, obsStd * obsStd⟩

/-- `value_at` (src/doris/fit_rfo.cpp:19-22). -/
def Filter.valueAt (f : Filter) (dt : ℝ) : ℝ := f.x0 + dt * f.x1

/-- `update` (src/doris/fit_rfo.cpp:29-46). -/
noncomputable def Filter.update (f : Filter) (dt z : ℝ) : Filter :=
  let y := z - f.valueAt dt
  let p0p1dt := f.p0 + f.p1 * dt
  let p1p2dt := f.p1 + f.p2 * dt
  let s := p0p1dt + dt * p1p2dt + f.r
  let k0 := p0p1dt / s
  let k1 := p1p2dt / s
  { f with
    x0 := f.x0 + k0 * y
    x1 := f.x1 + k1 * y
    p0 := (1 - k0) * f.p0 - f.p1 * k0 * dt
    p1 := (((1 - k0) * f.p1 - f.p2 * k0 * dt) + (-k1 * f.p0 + (1 - k1 * dt) * f.p1)) / 2
    p2 := -k1 * f.p1 + (1 - k1 * dt) * f.p2 }

/-- The updates of `get_rinex_rfo` (src/doris/fit_rfo.cpp:166-205), for observations `(dt, z)`. -/
noncomputable def Filter.run (f : Filter) (obs : List (ℝ × ℝ)) : Filter :=
  obs.foldl (fun f o => f.update o.1 o.2) f

end Verif.Filters.Rfo
