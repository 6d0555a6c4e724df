import Verif.Atmosphere.MsisModel

/-
Model of the pressure search of NRLMSISE-00: src/atmosphere/nrlmsise00_ghp7.cpp.
`log10` is a parameter, as the other library functions are; `tz` gives for each call of `gtd7` the
indeterminate value of its local (see `gtd7`).
-/
namespace Verif.Atmosphere.Msis

variable {K : Type} [Field K] [LinearOrder K]

/-- `bm` (src/atmosphere/nrlmsise00_ghp7.cpp:10). -/
def bm : K := 1.3806e-19

/-- `test` (src/atmosphere/nrlmsise00_ghp7.cpp:51). -/
def ghpTest : K := 0.00043

/-- First altitude estimate (src/atmosphere/nrlmsise00_ghp7.cpp:14-48). -/
def ghpStart (F : Fns K) (x : In K) (pl : K) : K :=
  if pl ≥ -5 then
    let zi :=
      if pl > 2.5 then 18.06 * (3 - pl)
      else if pl > 0.75 then 14.98 * (3.08 - pl)
      else if pl > -1 then 17.8 * (2.72 - pl)
      else if pl > -2 then 14.28 * (3.64 - pl)
      else if pl > -4 then 12.72 * (4.32 - pl)
      else 25.3 * (0.11 - pl)
    let cl := x.glat / 90
    let cd := if x.doy ≥ 182 then (x.doy : K) / 91.25 - 3 else (1 - (x.doy : K)) / 91.25
    let ca :=
      if pl > -0.23 then (2.79 - pl) / (2.79 + 0.23)
      else if pl > -1.11 then 1
      else if pl > -3 then (-2.93 - pl) / (-2.93 + 1.11)
      else 0
    zi - 4.87 * cl * cd * ca - 1.64 * (cl * cl) * ca + 0.31 * ca * cl
  else 22 * F.pow (pl + 4) 2 + 110

/-- Number of particles (src/atmosphere/nrlmsise00_ghp7.cpp:57-58). -/
def ghpXn (o : Out K) : K := o.d 0 + o.d 1 + o.d 2 + o.d 3 + o.d 4 + o.d 6 + o.d 7

/-- Pressure (src/atmosphere/nrlmsise00_ghp7.cpp:59-61). -/
def ghpP (x : In K) (o : Out K) : K := if x.meters then bm * ghpXn o * o.t1 * 1e-6 else bm * ghpXn o * o.t1

/-- Next altitude estimate (src/atmosphere/nrlmsise00_ghp7.cpp:74-83). -/
def ghpNext (F : Fns K) (x : In K) (o : Out K) (gsurf re : K) (l : ℕ) (z diff : K) : K :=
  let xm := if x.meters then o.d 5 / ghpXn o / 1.66e-24 * 1e3 else o.d 5 / ghpXn o / 1.66e-24
  let g := gsurf / F.pow (1 + z / re) 2
  let sh := r100gas * o.t1 / (xm * g)
  if l < 6 then z - sh * diff * 2.302 else z - sh * diff

/-- The loop (src/atmosphere/nrlmsise00_ghp7.cpp:53-84), `n + 1` passes before `l` is `ltest`, after `l` passes.
Gives the returned value, the output structure and the last altitude estimate. -/
def ghpLoop (F : Fns K) (lg : K → K) (T : Tab K) (tz : ℕ → K) (x : In K) (pl : K) :
    ℕ → ℕ → K → Out K → M K (ℤ × Out K × K)
  | n, l, z, old => do
    let o ← gtd7 F T (tz l) x 48 old
    let diff := pl - lg (ghpP x o)
    if |diff| < ghpTest then pure (0, o, z)
    else
      match n with
      | 0 => pure (1, o, z)
      | n + 1 => do
        let gsurf ← rd (·.gsurf)
        let re ← rd (·.re)
        ghpLoop F lg T tz x pl n (l + 1) (ghpNext F x o gsurf re (l + 1) z diff) o

/-- `ghp7` (src/atmosphere/nrlmsise00_ghp7.cpp:6-87): the returned value and the output structure. -/
def ghp7 (F : Fns K) (lg : K → K) (T : Tab K) (tz : ℕ → K) (x : In K) (old : Out K) (press : K) :
    M K (ℤ × Out K) := do
  let r ← ghpLoop F lg T tz x (lg press) 11 0 (ghpStart F x (lg press)) old
  pure (r.1, r.2.1)

end Verif.Atmosphere.Msis
