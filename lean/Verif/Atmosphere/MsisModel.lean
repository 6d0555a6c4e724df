import Verif.Atmosphere.SplineModel
import Mathlib.Algebra.Order.Group.Abs
import Mathlib.Data.Rat.Cast.Defs

/-
Model of the NRLMSISE-00 evaluation: src/atmosphere/nrlmsise00_{globe7,glob7s,glatf,densu,densm,ccor,
ccor2,dnet,gts7,gtd7,gtd7d}.cpp and the helpers of src/atmosphere/nrlmsise00.hpp:35-55, 376-409.

Doubles are elements of an ordered field.  The library functions `sin`, `cos`, `exp`, `log`, `pow` and
`deg2rad` are parameters.  The member variables and the function-local `static` variables form the
state; every read and every write of the code is a read or write of the model.  Two entries of the
parameter arrays are written by the code, `p[24]` and `p[99]`; they are part of the state, the other
entries are constant.
The tables of coefficients (src/atmosphere/nrlmsise00_data.cpp) are parameters here; they are
transcribed in `MsisData.lean`.
-/
namespace Verif.Atmosphere.Msis

/-- The library functions used. -/
structure Fns (K : Type) where
  sin : K → K
  cos : K → K
  exp : K → K
  log : K → K
  pow : K → K → K
  deg2rad : K → K

/-- The parameter arrays that are passed to `globe7` and `glob7s`
(src/atmosphere/nrlmsise00.hpp:360-368). -/
inductive Arr
  | pt
  | ps
  | pd (k : ℕ)
  | pma (k : ℕ)
  | ptl (k : ℕ)
deriving DecidableEq

/-- The constant tables (src/atmosphere/nrlmsise00.hpp:355-368). -/
structure Tab (K : Type) where
  p : Arr → ℕ → K
  ptm : ℕ → K
  pdm : ℕ → ℕ → K
  pavgm : ℕ → K
  pdl : ℕ → ℕ → K

/-- `InParamsCore` (src/atmosphere/nrlmsise00.hpp:182-195). -/
structure In (K : Type) where
  sw : ℕ → K
  swc : ℕ → K
  doy : ℤ
  sec : K
  alt : K
  glat : K
  glon : K
  lst : K
  f107A : K
  f107 : K
  ap : K
  aparr : ℕ → K
  meters : Bool

/-- The entries of `plg` that the code writes and reads (src/atmosphere/nrlmsise00.hpp:363). -/
structure Plg (K : Type) where
  p01 : K
  p02 : K
  p03 : K
  p04 : K
  p05 : K
  p06 : K
  p11 : K
  p12 : K
  p13 : K
  p14 : K
  p15 : K
  p16 : K
  p22 : K
  p23 : K
  p24 : K
  p25 : K
  p26 : K
  p27 : K
  p33 : K
  p34 : K
  p35 : K
  p36 : K

/-- The trigonometric functions of local time (src/atmosphere/nrlmsise00.hpp:385-387). -/
structure Trig (K : Type) where
  st : K
  ct : K
  s2 : K
  c2 : K
  s3 : K
  c3 : K

/-- The cached seasonal terms. -/
structure Cds (K : Type) where
  cd14 : K
  cd18 : K
  cd32 : K
  cd39 : K

/-- The state: `static` variables of `globe7` (src/atmosphere/nrlmsise00_globe7.cpp:22-32) and of
`glob7s` (src/atmosphere/nrlmsise00_glob7s.cpp:17-25), and the members of the instance
(src/atmosphere/nrlmsise00.hpp:360-388). -/
structure St (K : Type) where
  -- static in globe7
  xl : K
  tll : K
  gdoy : ℤ
  g14 : K
  g18 : K
  g32 : K
  g39 : K
  gcd : Cds K
  -- static in glob7s
  sdoy : ℤ
  s14 : K
  s18 : K
  s32 : K
  s39 : K
  scd : Cds K
  -- members
  p24 : Arr → K
  p99 : Arr → K
  plg : Plg K
  trig : Trig K
  dfa : K
  apdf : K
  apt0 : K
  tn1 : ℕ → K
  tn2 : ℕ → K
  tn3 : ℕ → K
  tgn1 : ℕ → K
  tgn2 : ℕ → K
  tgn3 : ℕ → K
  gsurf : K
  re : K
  dd : K
  dm28 : K
  tlb : K
  xg0 : K
  dm28m : K

/-- Output (src/atmosphere/nrlmsise00.hpp:346-349). -/
structure Out (K : Type) where
  d : ℕ → K
  t0 : K
  t1 : K

variable {K : Type} [Field K] [LinearOrder K]

/-- A computation on the state. -/
abbrev M (K : Type) := StateM (St K)

/-- Read something of the state. -/
def rd {α : Type} (f : St K → α) : M K α := fun s => (f s, s)

/-- Write the state. -/
def upd (f : St K → St K) : M K Unit := fun s => ((), f s)

/-- `nearzero` (src/atmosphere/nrlmsise00_const.hpp:73). -/
def nearzero : K := 0.000001

/-- `dr` (src/atmosphere/nrlmsise00_const.hpp:74). -/
def dr : K := 1.72142e-2

/-- `hr` (src/atmosphere/nrlmsise00_globe7.cpp:18). -/
def hr : K := 0.2618

/-- `sr` (src/atmosphere/nrlmsise00_globe7.cpp:19). -/
def sr : K := 7.2722e-5

/-- `egrav` (src/atmosphere/nrlmsise00_const.hpp:36). -/
def egrav : K := 9.80665

/-- `r100gas` (src/atmosphere/nrlmsise00_const.hpp:9-15, 72). -/
def r100gas : K := 1.380648813 * 6.0221407818 * 100

/-! ### Helpers of nrlmsise00.hpp -/

/-- `g0` (src/atmosphere/nrlmsise00.hpp:35-40); `p25 = p[25]`, `q = p[24]`. -/
def g0 (F : Fns K) (a p25 q : K) : K :=
  a - 4 + (p25 - 1) * (a - 4 + (F.exp (-|q| * (a - 4)) - 1) / |q|)

/-- `sumex` (src/atmosphere/nrlmsise00.hpp:43-45). -/
def sumex (F : Fns K) (ex : K) : K := 1 + (1 - F.pow ex 19) / (1 - ex) * F.pow ex 0.5

/-- `sg0` (src/atmosphere/nrlmsise00.hpp:48-55). -/
def sg0 (F : Fns K) (ex p25 q : K) (ap : ℕ → K) : K :=
  (g0 F (ap 1) p25 q + (g0 F (ap 2) p25 q * ex + g0 F (ap 3) p25 q * ex * ex +
    g0 F (ap 4) p25 q * F.pow ex 3 +
    (g0 F (ap 5) p25 q * F.pow ex 4 + g0 F (ap 6) p25 q * F.pow ex 12) *
      (1 - F.pow ex 8) / (1 - ex))) / sumex F ex

/-- `zeta` (src/atmosphere/nrlmsise00.hpp:402-404). -/
def zeta (re zz zl : K) : K := (zz - zl) * (re + zl) / (re + zz)

/-- `scalh` (src/atmosphere/nrlmsise00.hpp:405-408). -/
def scalh (F : Fns K) (gsurf re alt xm temp : K) : K :=
  r100gas * temp / (gsurf / F.pow (1 + alt / re) 2 * xm)

/-! ### globe7 -/

/-- The Legendre functions at latitude `glat` (src/atmosphere/nrlmsise00_globe7.cpp:39-68). -/
def legendre (F : Fns K) (glat : K) : Plg K :=
  let c := F.sin (F.deg2rad glat)
  let s := F.cos (F.deg2rad glat)
  let c2 := c * c
  let c4 := c2 * c2
  let s2 := s * s
  let q04 := (35 * c4 - 30 * c2 + 3) / 8
  let q05 := (63 * c2 * c2 * c - 70 * c2 * c + 15 * c) / 8
  let q14 := 2.5 * (7 * c2 * c - 3 * c) * s
  let q15 := 1.875 * (21 * c4 - 14 * c2 + 1) * s
  let q23 := 15 * s2 * c
  let q24 := 7.5 * (7 * c2 - 1) * s2
  let q25 := 3 * c * q24 - 2 * q23
  let q26 := (11 * c * q25 - 7 * q24) / 4
  let q33 := 15 * s2 * s
  let q34 := 105 * s2 * s * c
  let q35 := (9 * c * q34 - 7 * q33) / 2
  { p01 := c
    p02 := 0.5 * (3 * c2 - 1)
    p03 := 0.5 * (5 * c * c2 - 3 * c)
    p04 := q04
    p05 := q05
    p06 := (11 * c * q05 - 5 * q04) / 6
    p11 := s
    p12 := 3 * c * s
    p13 := 1.5 * (5 * c2 - 1) * s
    p14 := q14
    p15 := q15
    p16 := (11 * c * q15 - 6 * q14) / 5
    p22 := 3 * s2
    p23 := q23
    p24 := q24
    p25 := q25
    p26 := q26
    p27 := (13 * c * q26 - 8 * q25) / 5
    p33 := q33
    p34 := q34
    p35 := q35
    p36 := (11 * c * q35 - 8 * q34) / 3 }

/-- The functions of local time (src/atmosphere/nrlmsise00_globe7.cpp:77-82). -/
def trigOf (F : Fns K) (tloc : K) : Trig K :=
  { st := F.sin (hr * tloc)
    ct := F.cos (hr * tloc)
    s2 := F.sin (2 * hr * tloc)
    c2 := F.cos (2 * hr * tloc)
    s3 := F.sin (3 * hr * tloc)
    c3 := F.cos (3 * hr * tloc) }

/-- Latitude step (src/atmosphere/nrlmsise00_globe7.cpp:37-72). -/
def latStep (F : Fns K) (x : In K) : M K Unit :=
  upd fun s => if |s.xl - x.glat| > nearzero then
    { s with plg := legendre F x.glat, xl := x.glat } else s

/-- Some daily term is switched on (src/atmosphere/nrlmsise00_globe7.cpp:76). -/
def dailyOn (x : In K) : Prop := |x.sw 6| > 0 ∨ |x.sw 7| > 0 ∨ |x.sw 13| ≠ 0

instance (x : In K) : Decidable (dailyOn x) := by unfold dailyOn; infer_instance

/-- Local time step (src/atmosphere/nrlmsise00_globe7.cpp:74-87). -/
def timeStep (F : Fns K) (x : In K) : M K Unit :=
  upd fun s => if |s.tll - x.lst| > nearzero ∧ dailyOn x then
    { s with trig := trigOf F x.lst, tll := x.lst } else s

/-- Season step (src/atmosphere/nrlmsise00_globe7.cpp:89-105). -/
def seasonStep (F : Fns K) (T : Tab K) (x : In K) (a : Arr) : M K Unit :=
  upd fun s =>
    let p := T.p a
    let ch := s.gdoy - x.doy ≠ 0
    { s with
      gcd :=
        { cd14 := if ch ∨ |p 13 - s.g14| > nearzero then F.cos (dr * (x.doy - p 13)) else s.gcd.cd14
          cd18 := if ch ∨ |p 17 - s.g18| > nearzero then F.cos (2 * dr * (x.doy - p 17)) else s.gcd.cd18
          cd32 := if ch ∨ |p 31 - s.g32| > nearzero then F.cos (dr * (x.doy - p 31)) else s.gcd.cd32
          cd39 := if ch ∨ |p 38 - s.g39| > nearzero then F.cos (2 * dr * (x.doy - p 38)) else s.gcd.cd39 }
      gdoy := x.doy
      g14 := p 13
      g18 := p 17
      g32 := p 31
      g39 := p 38 }

/-- `sw9` (src/atmosphere/nrlmsise00_globe7.cpp:35). -/
def sw9 (x : In K) : K := 1 * (if x.sw 8 < 0 then 1 else 0) * -1

/-- `apdf` (src/atmosphere/nrlmsise00_globe7.cpp:166-171). -/
def apdfOf (F : Fns K) (p : ℕ → K) (x : In K) : K :=
  let apd := x.ap - 4
  let p44 := if p 43 < 0 then 1e-5 else p 43
  apd + (p 44 - 1) * (apd + (F.exp (-p44 * apd) - 1) / p44)

/-- The exponent used for the array of indexes (src/atmosphere/nrlmsise00_globe7.cpp:181-184). -/
def exp1Of (F : Fns K) (p : ℕ → K) (x : In K) : K :=
  let e := F.exp (-10800 * |p 51| / (1 + p 138 * (45 - |x.glat|)))
  if e > 0.99999 then 0.99999 else e

/-- `p[24]` after the adjustment of src/atmosphere/nrlmsise00_globe7.cpp:185-186. -/
def clamp24 (q : K) : K := if q < 1e-4 then 1e-4 else q

/-- Magnetic activity step: the members written in src/atmosphere/nrlmsise00_globe7.cpp:165-187. -/
def apStep (F : Fns K) (T : Tab K) (x : In K) (a : Arr) : M K Unit :=
  upd fun s =>
    let p := T.p a
    if |sw9 x + 1| > nearzero then { s with apdf := apdfOf F p x }
    else if |p 51| > nearzero then
      let q := clamp24 (s.p24 a)
      { s with
        p24 := fun b => if b = a then q else s.p24 b
        apt0 := sg0 F (exp1Of F p x) (p 25) q x.aparr }
    else s

/-- `t[0]` (src/atmosphere/nrlmsise00_globe7.cpp:108-111). -/
def gT0 (p : ℕ → K) (x : In K) (dfa : K) : K :=
  let df := x.f107 - x.f107A
  p 19 * df * (1 + p 59 * dfa) + p 20 * df * df + p 21 * dfa + p 29 * dfa * dfa

/-- `f1` (src/atmosphere/nrlmsise00_globe7.cpp:112-113). -/
def gF1 (p : ℕ → K) (x : In K) (dfa : K) : K :=
  let df := x.f107 - x.f107A
  1 + (p 47 * dfa + p 19 * df + p 20 * df * df) * x.swc 0

/-- `f2` (src/atmosphere/nrlmsise00_globe7.cpp:114-115). -/
def gF2 (p : ℕ → K) (x : In K) (dfa : K) : K :=
  let df := x.f107 - x.f107A
  1 + (p 49 * dfa + p 19 * df + p 20 * df * df) * x.swc 0

/-- `t[6]` (src/atmosphere/nrlmsise00_globe7.cpp:134-142). -/
def gT6 (p : ℕ → K) (x : In K) (g : Plg K) (dfa : K) (c : Cds K) (τ : Trig K) : K :=
  if |x.sw 6| > 0 then
    let t71 := (p 11 * g.p12) * c.cd14 * x.swc 4
    let t72 := (p 12 * g.p12) * c.cd14 * x.swc 4
    gF2 p x dfa * ((p 3 * g.p11 + p 4 * g.p13 + p 27 * g.p15 + t71) * τ.ct +
      (p 6 * g.p11 + p 7 * g.p13 + p 28 * g.p15 + t72) * τ.st)
  else 0

/-- `t[7]` (src/atmosphere/nrlmsise00_globe7.cpp:145-152). -/
def gT7 (p : ℕ → K) (x : In K) (g : Plg K) (dfa : K) (c : Cds K) (τ : Trig K) : K :=
  if |x.sw 7| > 0 then
    let t81 := (p 23 * g.p23 + p 35 * g.p25) * c.cd14 * x.swc 4
    let t82 := (p 33 * g.p23 + p 36 * g.p25) * c.cd14 * x.swc 4
    gF2 p x dfa * ((p 5 * g.p22 + p 41 * g.p24 + t81) * τ.c2 +
      (p 8 * g.p22 + p 42 * g.p24 + t82) * τ.s2)
  else 0

/-- `t[13]` (src/atmosphere/nrlmsise00_globe7.cpp:155-162). -/
def gT13 (p : ℕ → K) (x : In K) (g : Plg K) (dfa : K) (c : Cds K) (τ : Trig K) : K :=
  if |x.sw 13| > 0 then
    gF2 p x dfa * ((p 39 * g.p33 + (p 93 * g.p34 + p 46 * g.p36) * c.cd14 * x.swc 4) * τ.s3 +
      (p 40 * g.p33 + (p 94 * g.p34 + p 48 * g.p36) * c.cd14 * x.swc 4) * τ.c3)
  else 0

/-- `t[8]` (src/atmosphere/nrlmsise00_globe7.cpp:165-199). -/
def gT8 (F : Fns K) (p : ℕ → K) (x : In K) (g : Plg K) (c : Cds K) (apdf apt0 : K) : K :=
  if |sw9 x + 1| > nearzero then
    if |x.sw 8| > nearzero then
      apdf * (p 32 + p 45 * g.p02 + p 34 * g.p04 +
        (p 100 * g.p01 + p 101 * g.p03 + p 102 * g.p05) * c.cd14 * x.swc 4 +
        (p 121 * g.p11 + p 122 * g.p13 + p 123 * g.p15) * x.swc 6 * F.cos (hr * (x.lst - p 124)))
    else 0
  else if |p 51| > nearzero then
    if |x.sw 8| > 0 then
      apt0 * (p 50 + p 96 * g.p02 + p 54 * g.p04 +
        (p 125 * g.p01 + p 126 * g.p03 + p 127 * g.p05) * c.cd14 * x.swc 4 +
        (p 128 * g.p11 + p 129 * g.p13 + p 130 * g.p15) * x.swc 6 * F.cos (hr * (x.lst - p 131)))
    else 0
  else 0

/-- `t[10]` (src/atmosphere/nrlmsise00_globe7.cpp:203-218). -/
def gT10 (F : Fns K) (p : ℕ → K) (x : In K) (g : Plg K) (dfa : K) (c : Cds K) : K :=
  if |x.sw 10| > 0 then
    (1 + p 80 * dfa * x.swc 0) *
      ((p 64 * g.p12 + p 65 * g.p14 + p 66 * g.p16 + p 103 * g.p11 + p 104 * g.p13 + p 105 * g.p15 +
        x.swc 4 * (p 109 * g.p11 + p 110 * g.p13 + p 111 * g.p15) * c.cd14) *
          F.cos (F.deg2rad x.glon) +
       (p 90 * g.p12 + p 91 * g.p14 + p 92 * g.p16 + p 106 * g.p11 + p 107 * g.p13 + p 108 * g.p15 +
        x.swc 4 * (p 112 * g.p11 + p 113 * g.p13 + p 114 * g.p15) * c.cd14) *
          F.sin (F.deg2rad x.glon))
  else 0

/-- `t[11]` (src/atmosphere/nrlmsise00_globe7.cpp:220-229). -/
def gT11 (F : Fns K) (p : ℕ → K) (x : In K) (g : Plg K) (dfa : K) (c : Cds K) : K :=
  if |x.sw 11| > nearzero then
    (1 + p 95 * g.p01) * (1 + p 81 * dfa * x.swc 0) * (1 + p 119 * g.p01 * x.swc 4 * c.cd14) *
      ((p 68 * g.p01 + p 69 * g.p03 + p 70 * g.p05) * F.cos (sr * (x.sec - p 71))) +
    x.swc 10 * (p 76 * g.p23 + p 77 * g.p25 + p 78 * g.p27) *
      F.cos (sr * (x.sec - p 79) + 2 * F.deg2rad x.glon) * (1 + p 137 * dfa * x.swc 0)
  else 0

/-- `t[12]` (src/atmosphere/nrlmsise00_globe7.cpp:231-255). -/
def gT12 (F : Fns K) (p : ℕ → K) (x : In K) (g : Plg K) (c : Cds K) (apdf apt0 : K) : K :=
  if |x.sw 12| > nearzero then
    if |sw9 x + 1| > nearzero then
      apdf * x.swc 10 * (1 + p 120 * g.p01) *
          ((p 60 * g.p12 + p 61 * g.p14 + p 62 * g.p16) * F.cos (F.deg2rad (x.glon - p 63))) +
        apdf * x.swc 10 * x.swc 4 * (p 115 * g.p11 + p 116 * g.p13 + p 117 * g.p15) * c.cd14 *
          F.cos (F.deg2rad (x.glon - p 118)) +
        apdf * x.swc 11 * (p 83 * g.p01 + p 84 * g.p03 + p 85 * g.p05) *
          F.cos (sr * (x.sec - p 75))
    else if p 51 ≠ 0 then
      apt0 * x.swc 10 * (1 + p 132 * g.p01) *
          ((p 52 * g.p12 + p 98 * g.p14 + p 67 * g.p16) * F.cos (F.deg2rad (x.glon - p 97))) +
        apt0 * x.swc 10 * x.swc 4 * (p 133 * g.p11 + p 134 * g.p13 + p 135 * g.p15) * c.cd14 *
          F.cos (F.deg2rad (x.glon - p 136)) +
        apt0 * x.swc 11 * (p 55 * g.p01 + p 56 * g.p03 + p 57 * g.p05) *
          F.cos (sr * (x.sec - p 58))
    else 0
  else 0

/-- The sum (src/atmosphere/nrlmsise00_globe7.cpp:107-262) as a function of what is read. -/
def globeSum (F : Fns K) (p : ℕ → K) (x : In K) (g : Plg K) (dfa : K) (c : Cds K) (τ : Trig K)
    (apdf apt0 : K) : K :=
  let t1 := (p 1 * g.p02 + p 2 * g.p04 + p 22 * g.p06) + (p 14 * g.p02) * dfa * x.swc 0 + p 26 * g.p01
  let t2 := p 18 * c.cd32
  let t3 := (p 15 + p 16 * g.p02) * c.cd18
  let t4 := gF1 p x dfa * (p 9 * g.p01 + p 10 * g.p03) * c.cd14
  let t5 := p 37 * g.p01 * c.cd39
  let lon := |x.sw 9| > 0 ∧ x.glon > -1000
  p 30 + |x.sw 0| * gT0 p x dfa + |x.sw 1| * t1 + |x.sw 2| * t2 + |x.sw 3| * t3 + |x.sw 4| * t4 +
    |x.sw 5| * t5 + |x.sw 6| * gT6 p x g dfa c τ + |x.sw 7| * gT7 p x g dfa c τ +
    |x.sw 8| * gT8 F p x g c apdf apt0 + |x.sw 9| * 0 +
    |x.sw 10| * (if lon then gT10 F p x g dfa c else 0) +
    |x.sw 11| * (if lon then gT11 F p x g dfa c else 0) +
    |x.sw 12| * (if lon then gT12 F p x g c apdf apt0 else 0) +
    |x.sw 13| * gT13 p x g dfa c τ

/-- `globe7` (src/atmosphere/nrlmsise00_globe7.cpp:6-265). -/
def globe7 (F : Fns K) (T : Tab K) (x : In K) (a : Arr) : M K K := do
  latStep F x
  timeStep F x
  seasonStep F T x a
  upd fun s => { s with dfa := x.f107A - 150 }
  apStep F T x a
  rd fun s => globeSum F (T.p a) x s.plg s.dfa s.gcd s.trig s.apdf s.apt0

/-! ### glob7s -/

/-- Season step of `glob7s` (src/atmosphere/nrlmsise00_glob7s.cpp:27-47); line 47 keeps `p[39]`, not
`p[38]`, for the test of line 38. -/
def seasonStepS (F : Fns K) (T : Tab K) (x : In K) (a : Arr) : M K Unit :=
  upd fun s =>
    let p := T.p a
    let ch := x.doy - s.sdoy ≠ 0
    { s with
      p99 := fun b => if b = a then (if |s.p99 a| < nearzero then 2 else s.p99 a) else s.p99 b
      scd :=
        { cd14 := if ch ∨ |s.s14 - p 13| > nearzero then F.cos (dr * (x.doy - p 13)) else s.scd.cd14
          cd18 := if ch ∨ |s.s18 - p 17| > nearzero then F.cos (2 * dr * (x.doy - p 17)) else s.scd.cd18
          cd32 := if ch ∨ |s.s32 - p 31| > nearzero then F.cos (dr * (x.doy - p 31)) else s.scd.cd32
          cd39 := if ch ∨ |s.s39 - p 38| > nearzero then F.cos (2 * dr * (x.doy - p 38)) else s.scd.cd39 }
      sdoy := x.doy
      s14 := p 13
      s18 := p 17
      s32 := p 31
      s39 := p 39 }

/-- `t[8]` of `glob7s` (src/atmosphere/nrlmsise00_glob7s.cpp:94-99). -/
def sT8 (p : ℕ → K) (x : In K) (g : Plg K) (apdf apt0 : K) : K :=
  if |x.sw 8| > 0 then
    if x.sw 8 < 0 then p 50 * apt0 + p 96 * g.p02 * apt0 * x.swc 1
    else if x.sw 8 > 0 then apdf * (p 32 + p 45 * g.p02 * x.swc 1)
    else 0
  else 0

/-- `t[6]` of `glob7s` (src/atmosphere/nrlmsise00_glob7s.cpp:71-76). -/
def sT6 (p : ℕ → K) (x : In K) (g : Plg K) (c : Cds K) (τ : Trig K) : K :=
  if |x.sw 6| > 0 then
    let t71 := p 11 * g.p12 * c.cd14 * x.swc 4
    let t72 := p 12 * g.p12 * c.cd14 * x.swc 4
    (p 3 * g.p11 + p 4 * g.p13 + t71) * τ.ct + (p 6 * g.p11 + p 7 * g.p13 + t72) * τ.st
  else 0

/-- `t[7]` of `glob7s` (src/atmosphere/nrlmsise00_glob7s.cpp:79-86). -/
def sT7 (p : ℕ → K) (x : In K) (g : Plg K) (c : Cds K) (τ : Trig K) : K :=
  if |x.sw 7| > 0 then
    let t81 := (p 23 * g.p23 + p 35 * g.p25) * c.cd14 * x.swc 4
    let t82 := (p 33 * g.p23 + p 36 * g.p25) * c.cd14 * x.swc 4
    (p 5 * g.p22 + p 41 * g.p24 + t81) * τ.c2 + (p 8 * g.p22 + p 42 * g.p24 + t82) * τ.s2
  else 0

/-- `t[13]` of `glob7s` (src/atmosphere/nrlmsise00_glob7s.cpp:89-91). -/
def sT13 (p : ℕ → K) (x : In K) (g : Plg K) (τ : Trig K) : K :=
  if |x.sw 13| > 0 then p 39 * g.p33 * τ.s3 + p 40 * g.p33 * τ.c3 else 0

/-- `t[10]` of `glob7s` (src/atmosphere/nrlmsise00_glob7s.cpp:102-116). -/
def sT10 (F : Fns K) (p : ℕ → K) (x : In K) (g : Plg K) : K :=
  if |x.sw 9| > 0 ∧ |x.sw 10| > 0 ∧ x.glon > -1000 then
    (1 + g.p01 * (p 80 * x.swc 4 * F.cos (dr * (x.doy - p 81)) +
        p 85 * x.swc 5 * F.cos (2 * dr * (x.doy - p 86))) +
      p 83 * x.swc 2 * F.cos (dr * (x.doy - p 84)) +
      p 87 * x.swc 3 * F.cos (2 * dr * (x.doy - p 88))) *
    ((p 64 * g.p12 + p 65 * g.p14 + p 66 * g.p16 + p 74 * g.p11 + p 75 * g.p13 + p 76 * g.p15) *
        F.cos (F.deg2rad x.glon) +
      (p 90 * g.p12 + p 91 * g.p14 + p 92 * g.p16 + p 77 * g.p11 + p 78 * g.p13 + p 79 * g.p15) *
        F.sin (F.deg2rad x.glon))
  else 0

/-- The sum of `glob7s` (src/atmosphere/nrlmsise00_glob7s.cpp:49-121). -/
def globsSum (F : Fns K) (p : ℕ → K) (x : In K) (g : Plg K) (dfa : K) (c : Cds K) (τ : Trig K)
    (apdf apt0 : K) : K :=
  let t0 := p 21 * dfa
  let t1 := p 1 * g.p02 + p 2 * g.p04 + p 22 * g.p06 + p 26 * g.p01 + p 14 * g.p03 + p 59 * g.p05
  let t2 := (p 18 + p 47 * g.p02 + p 29 * g.p04) * c.cd32
  let t3 := (p 15 + p 16 * g.p02 + p 30 * g.p04) * c.cd18
  let t4 := (p 9 * g.p01 + p 10 * g.p03 + p 20 * g.p05) * c.cd14
  let t5 := (p 37 * g.p01) * c.cd39
  |x.sw 0| * t0 + |x.sw 1| * t1 + |x.sw 2| * t2 + |x.sw 3| * t3 + |x.sw 4| * t4 + |x.sw 5| * t5 +
    |x.sw 6| * sT6 p x g c τ + |x.sw 7| * sT7 p x g c τ + |x.sw 8| * sT8 p x g apdf apt0 +
    |x.sw 10| * sT10 F p x g + |x.sw 13| * sT13 p x g τ

/-- `glob7s` (src/atmosphere/nrlmsise00_glob7s.cpp:6-124). -/
def glob7s (F : Fns K) (T : Tab K) (x : In K) (a : Arr) : M K K := do
  seasonStepS F T x a
  rd fun s => globsSum F (T.p a) x s.plg s.dfa s.scd s.trig s.apdf s.apt0

/-! ### Small functions -/

/-- `glatf` (src/atmosphere/nrlmsise00_glatf.cpp:7-11), called with `gv` bound to the member `gsurf`
(src/atmosphere/nrlmsise00_gtd7.cpp:25). -/
def glatf (F : Fns K) (lat : K) : M K Unit :=
  upd fun s =>
    let c2 := F.cos (2 * F.deg2rad lat)
    let gv := egrav * 1e2 * (1 - 0.0026373 * c2)
    { s with gsurf := gv, re := 2 * gv / (3.085462e-6 + 2.27e-9 * c2) * 1e-5 }

/-- `ccor` (src/atmosphere/nrlmsise00_ccor.cpp:8-24). -/
def ccor (F : Fns K) (alt r h1 zh : K) : K :=
  let e := (alt - zh) / h1
  F.exp (if e > 70 then 0 else if e < -70 then r else r / (1 + F.exp e))

/-- `ccor2` (src/atmosphere/nrlmsise00_ccor2.cpp:8-27). -/
def ccor2 (F : Fns K) (alt r h1 zh h2 : K) : K :=
  let e1 := (alt - zh) / h1
  let e2 := (alt - zh) / h2
  F.exp (if e1 > 70 ∨ e2 > 70 then 0 else if e1 < -70 ∧ e2 < -70 then r
    else r / (1 + 0.5 * (F.exp e1 + F.exp e2)))

/-- `dnet` (src/atmosphere/nrlmsise00_dnet.cpp:6-31).  The reference parameter `dd` is overwritten by
every caller with the returned value. -/
def dnet (F : Fns K) (dd dm zhm xmm xm : K) : K :=
  let a := zhm / (xmm - xm)
  if dm ≤ 0 ∨ dd ≤ 0 then
    let dd' := if |dd| < nearzero ∧ |dm| < nearzero then 1 else dd
    if |dm| < nearzero then dd' else if |dd'| < nearzero then dm else 0
  else
    let ylog := a * F.log (dm / dd)
    if ylog < -10 then dd else if ylog > 10 then dm else dd * F.pow (1 + F.exp ylog) (1 / a)

/-- Contents of the work arrays before `spline` writes them. -/
def junk : Work K := ⟨fun _ => 0, fun _ => 0⟩

/-- `zn1` (src/atmosphere/nrlmsise00_gts7.cpp:11, 22-23). -/
def zn1 (T : Tab K) : ℕ → K
  | 0 => T.pdl 1 15
  | 1 => 110
  | 2 => 100
  | 3 => 90
  | _ => 72.5

/-- `zn2` (src/atmosphere/nrlmsise00.hpp:376). -/
def zn2 : ℕ → K
  | 0 => 72.5
  | 1 => 55
  | 2 => 45
  | _ => 32.5

/-- `zn3` (src/atmosphere/nrlmsise00.hpp:377). -/
def zn3 : ℕ → K
  | 0 => 32.5
  | 1 => 20
  | 2 => 15
  | 3 => 10
  | _ => 0

/-! ### densu -/

/-- The lower spline (src/atmosphere/nrlmsise00_densu.cpp:40-74) from the node temperatures and end
gradients: the temperature at `alt`, the geopotential span and the integral of the inverse
temperature (line 95). -/
def densuLow (F : Fns K) (T : Tab K) (alt re : K) (tn tg : ℕ → K) : K × K × K :=
  let z1 := zn1 T 0
  let z2 := zn1 T 4
  let z := max alt (zn1 T 4)
  let zg := zeta re z z1
  let zgdif := zeta re z2 z1
  let xs := fun k => zeta re (zn1 T k) z1 / zgdif
  let ys := fun k => 1 / tn k
  let yd1 := -tg 0 / (tn 0 * tn 0) * zgdif
  let yd2 := -tg 1 / (tn 4 * tn 4) * zgdif * F.pow ((re + z2) / (re + z1)) 2
  let y2 := spline 0.99e30 xs ys 5 yd1 yd2 junk
  let x := zg / zgdif
  (1 / splint 1e-30 xs ys y2 5 x, zgdif, splini xs ys y2 5 x)

/-- `densu` (src/atmosphere/nrlmsise00_densu.cpp:11-106); returns the density and `tz`. -/
def densu (F : Fns K) (T : Tab K) (alt dlb t1 t2 xm xalph zlb s2 : K) : M K (K × K) := do
  let re ← rd (·.re)
  let gsurf ← rd (·.gsurf)
  let za := zn1 T 0
  let z := max alt za
  let zg2 := zeta re z zlb
  let tt := t1 - (t1 - t2) * F.exp (-s2 * zg2)
  let glb := gsurf / F.pow (1 + zlb / re) 2
  let gammo := xm * glb / (s2 * r100gas * t1)
  let e := F.exp (-s2 * gammo * zg2)
  let expl := if e > 50 ∨ tt ≤ 0 then 50 else e
  let densa := dlb * F.pow (t2 / tt) (1 + xalph + gammo) * expl
  if alt < za then
    let dta := (t1 - tt) * s2 * F.pow ((re + zlb) / (re + za)) 2
    upd fun s => { s with tgn1 := put s.tgn1 0 dta, tn1 := put s.tn1 0 tt }
    let tn ← rd fun s => [s.tn1 0, s.tn1 1, s.tn1 2, s.tn1 3, s.tn1 4]
    let tg ← rd fun s => [s.tgn1 0, s.tgn1 1]
    let low := densuLow F T alt re (fun k => tn.getD k 0) (fun k => tg.getD k 0)
    let tz := low.1
    if |xm| > nearzero then
      let glb1 := gsurf / F.pow (1 + za / re) 2
      let gamm := xm * glb1 * low.2.1 / r100gas
      let expl1 := if gamm * low.2.2 > 50 ∨ tz ≤ 0 then 50 else gamm * low.2.2
      pure (densa * F.pow (tn.getD 0 0 / tz) (1 + xalph) * F.exp (-expl1), tz)
    else pure (tz, tz)
  else if |xm| > nearzero then pure (densa, tt) else pure (tt, tt)

/-! ### densm -/

/-- One of the two splines of `densm`: lines 20-59 (nodes `zn2`, four of them) and lines 66-98 (nodes
`zn3`, five of them) of src/atmosphere/nrlmsise00_densm.cpp.  Returns the temperature and the factor
for the density. -/
def densmPart (F : Fns K) (n : ℕ) (zn : ℕ → K) (z re gsurf xm : K) (tn tg : ℕ → K) : K × K :=
  let z1 := zn 0
  let z2 := zn (n - 1)
  let t1 := tn 0
  let t2 := tn (n - 1)
  let zg := zeta re z z1
  let zgdif := zeta re z2 z1
  let xs := fun k => zeta re (zn k) z1 / zgdif
  let ys := fun k => 1 / tn k
  let yd1 := -tg 0 / (t1 * t1) * zgdif
  let yd2 := -tg 1 / (t2 * t2) * zgdif * F.pow ((re + z2) / (re + z1)) 2
  let y2 := spline 0.99e30 xs ys n yd1 yd2 junk
  let x := zg / zgdif
  let tz := 1 / splint 1e-30 xs ys y2 n x
  let glb := gsurf / F.pow (1 + z1 / re) 2
  let gamm := xm * glb * zgdif / r100gas
  let yi := splini xs ys y2 n x
  let expl := if gamm * yi > 50 then 50 else gamm * yi
  (tz, t1 / tz * F.exp (-expl))

/-- `densm` (src/atmosphere/nrlmsise00_densm.cpp:10-107); `tz0` is the value of the reference
parameter on entry.  Returns the density and `tz`. -/
def densm (F : Fns K) (alt d0 xm tz0 : K) : M K (K × K) := do
  let re ← rd (·.re)
  let gsurf ← rd (·.gsurf)
  if alt ≤ zn2 0 then
    let a ← rd fun s => [s.tn2 0, s.tn2 1, s.tn2 2, s.tn2 3]
    let g ← rd fun s => [s.tgn2 0, s.tgn2 1]
    let up := densmPart F 4 zn2 (max alt (zn2 3)) re gsurf xm (fun k => a.getD k 0)
      (fun k => g.getD k 0)
    let dA := if |xm| > nearzero then d0 * up.2 else d0
    if alt ≤ zn3 0 then
      let b ← rd fun s => [s.tn3 0, s.tn3 1, s.tn3 2, s.tn3 3, s.tn3 4]
      let h ← rd fun s => [s.tgn3 0, s.tgn3 1]
      let lo := densmPart F 5 zn3 alt re gsurf xm (fun k => b.getD k 0) (fun k => h.getD k 0)
      let dB := if |xm| > nearzero then dA * lo.2 else dA
      pure (if |xm| < nearzero then lo.1 else dB, lo.1)
    else pure (if |xm| < nearzero then up.1 else dA, up.1)
  else pure (if |xm| < nearzero then tz0 else d0, tz0)

/-! ### gts7 -/

/-- `alpha` (src/atmosphere/nrlmsise00_gts7.cpp:8-9). -/
def alpha : ℕ → K := fun k => [(-0.380 : K), 0, 0, 0, 0.170, 0, -0.380, 0, 0].getD k 0

/-- `altl` (src/atmosphere/nrlmsise00_gts7.cpp:7). -/
def altl : ℕ → K := fun k => [(200 : K), 300, 160, 250, 240, 450, 320, 450].getD k 0

/-- `mt` (src/atmosphere/nrlmsise00_gts7.cpp:10). -/
def mt : List ℤ := [48, 0, 4, 16, 28, 32, 40, 1, 49, 14, 17]

/-- `j` (src/atmosphere/nrlmsise00_gts7.cpp:78, 98-105): one more than the position of the first entry
of `mt` equal to `mass`, `0` if there is none. -/
def jOf (mass : ℤ) : ℕ := if mass ∈ mt then mt.idxOf mass + 1 else 0

/-- What the species parts share. -/
structure Ctx (K : Type) where
  tinf : K
  tlb : K
  s : K
  zhm28 : K
  b28 : K

/-- `densu` with the shared arguments. -/
def den (F : Fns K) (T : Tab K) (c : Ctx K) (alt dlb xm xalph : K) : M K (K × K) :=
  densu F T alt dlb c.tinf c.tlb xm xalph (T.ptm 5) c.s

/-- `dd = v`. -/
def setDd (v : K) : M K Unit := upd fun s => { s with dd := v }

/-- Temperatures (src/atmosphere/nrlmsise00_gts7.cpp:22-50): returns `tinf`, `tlb` and `s`. -/
def gtsTemps (F : Fns K) (T : Tab K) (x : In K) : M K (K × K × K) := do
  let tinf ← (if x.alt > zn1 T 0 then do
      let g ← globe7 F T x .pt
      pure (T.ptm 0 * T.p .pt 0 * (1 + x.sw 15 * g))
    else pure (T.ptm 0 * T.p .pt 0))
  let xg ← (if x.alt > zn1 T 4 then do
      let g ← globe7 F T x .ps
      pure (T.ptm 3 * T.p .ps 0 * (1 + x.sw 18 * g))
    else pure (T.ptm 3 * T.p .ps 0))
  upd fun s => { s with xg0 := xg }
  let g ← globe7 F T x (.pd 3)
  upd fun s => { s with tlb := T.ptm 1 * (1 + x.sw 16 * g) * T.p (.pd 3) 0 }
  let xg0 ← rd (·.xg0)
  let tlb ← rd (·.tlb)
  pure (tinf, tlb, xg0 / (tinf - tlb))

/-- Node temperatures (src/atmosphere/nrlmsise00_gts7.cpp:54-72). -/
def gtsNodes (F : Fns K) (T : Tab K) (x : In K) : M K Unit := do
  if x.alt ≥ 300 then
    upd fun s =>
      let t := put (put (put (put s.tn1 1 (T.ptm 6 * T.p (.ptl 0) 0)) 2 (T.ptm 2 * T.p (.ptl 1) 0))
        3 (T.ptm 7 * T.p (.ptl 2) 0)) 4 (T.ptm 4 * T.p (.ptl 3) 0)
      { s with
        tn1 := t
        tgn1 := put s.tgn1 1 (T.ptm 8 * T.p (.pma 8) 0 * t 4 * t 4 /
          F.pow (T.ptm 4 * T.p (.ptl 3) 0) 2) }
  else
    let g0 ← glob7s F T x (.ptl 0)
    upd fun s => { s with tn1 := put s.tn1 1 (T.ptm 6 * T.p (.ptl 0) 0 / (1 - x.sw 17 * g0)) }
    let g1 ← glob7s F T x (.ptl 1)
    upd fun s => { s with tn1 := put s.tn1 2 (T.ptm 2 * T.p (.ptl 1) 0 / (1 - x.sw 17 * g1)) }
    let g2 ← glob7s F T x (.ptl 2)
    upd fun s => { s with tn1 := put s.tn1 3 (T.ptm 7 * T.p (.ptl 2) 0 / (1 - x.sw 17 * g2)) }
    let g3 ← glob7s F T x (.ptl 3)
    upd fun s => { s with
      tn1 := put s.tn1 4 (T.ptm 4 * T.p (.ptl 3) 0 / (1 - x.sw 17 * x.sw 19 * g3)) }
    let g4 ← glob7s F T x (.pma 8)
    upd fun s => { s with
      tgn1 := put s.tgn1 1 (T.ptm 8 * T.p (.pma 8) 0 * (1 + x.sw 17 * x.sw 19 * g4) *
        s.tn1 4 * s.tn1 4 / F.pow (T.ptm 4 * T.p (.ptl 3) 0) 2) }

/-- `xmm` (src/atmosphere/nrlmsise00_gts7.cpp:94). -/
def xmm (T : Tab K) : K := T.pdm 2 4

/-- Molecular nitrogen (src/atmosphere/nrlmsise00_gts7.cpp:110-133): returns the density, the
temperature, `zhm28` and `b28`. -/
def gtsN2 (F : Fns K) (T : Tab K) (x : In K) (mass : ℤ) (tinf tlb s g28 : K) : M K (K × K × K × K) := do
  let c : Ctx K := ⟨tinf, tlb, s, 0, 0⟩
  let zhf := T.pdl 1 24 * (1 + x.sw 4 * T.pdl 0 24 * F.sin (F.deg2rad x.glat) *
    F.cos (dr * (x.doy - T.p .pt 13)))
  if x.alt < altl 5 ∨ mass = 28 ∨ mass = 48 then
    let db28 := T.pdm 2 0 * F.exp g28 * T.p (.pd 2) 0
    let r ← den F T c x.alt db28 28 (alpha 2)
    setDd r.1
    let zh28 := T.pdm 2 2 * zhf
    let zhm28 := T.pdm 2 3 * T.pdl 1 5
    let b ← den F T c zh28 db28 (28 - xmm T) (alpha 2 - 1)
    if x.alt ≤ altl 2 ∧ |x.sw 14| > 0 then
      let m ← den F T c x.alt b.1 (xmm T) (alpha 2)
      upd fun st => { st with dm28 := m.1 }
      let dm ← rd (·.dm28)
      pure (dnet F r.1 dm zhm28 (xmm T) 28, r.2, zhm28, b.1)
    else pure (r.1, r.2, zhm28, b.1)
  else pure (0, 0, 0, 0)

/-- The common pattern of the lighter and heavier species: diffusive density and, below a limit, the
net density with mixing.  `k` is the row of `pdm`, `a` the parameter array, `m` the molecular weight,
`ia` the index into `alpha`, `il` the index into `altl`; `corr dnet b` applies the corrections. -/
def species (F : Fns K) (T : Tab K) (x : In K) (c : Ctx K) (k : ℕ) (a : Arr) (m : K) (ia il : ℕ)
    (corr : K → K → K) : M K K := do
  let g ← globe7 F T x a
  let db := T.pdm k 0 * F.exp (x.sw 20 * g) * T.p a 0
  let r ← den F T c x.alt db m (alpha ia)
  setDd r.1
  if x.alt ≤ altl il ∧ |x.sw 14| > 0 then
    let b ← den F T c (T.pdm k 2) db (m - xmm T) (alpha ia - 1)
    let dm ← den F T c x.alt b.1 (xmm T) 0
    pure (corr (dnet F r.1 dm.1 c.zhm28 (xmm T) m) b.1)
  else pure r.1

/-- Helium (src/atmosphere/nrlmsise00_gts7.cpp:140-164). -/
def gtsHe (F : Fns K) (T : Tab K) (x : In K) (c : Ctx K) : M K K :=
  species F T x c 0 (.pd 0) 4 0 0 fun d b =>
    d * ccor F x.alt (F.log (c.b28 * T.pdm 0 1 / b)) (T.pdm 0 5 * T.pdl 1 1) (T.pdm 0 4 * T.pdl 1 0)

/-- Oxygen (src/atmosphere/nrlmsise00_gts7.cpp:171-207). -/
def gtsO (F : Fns K) (T : Tab K) (x : In K) (c : Ctx K) : M K K :=
  species F T x c 1 (.pd 1) 16 1 1 fun d _ =>
    d * ccor2 F x.alt (T.pdm 1 1 * T.pdl 1 16 * (1 + x.sw 0 * T.pdl 0 23 * (x.f107A - 150)))
          (T.pdm 1 5 * T.pdl 1 3) (T.pdm 1 4 * T.pdl 1 2) (T.pdm 1 5 * T.pdl 1 4) *
      ccor F x.alt (T.pdm 1 3 * T.pdl 1 14) (T.pdm 1 7 * T.pdl 1 13) (T.pdm 1 6 * T.pdl 1 12)

/-- Molecular oxygen (src/atmosphere/nrlmsise00_gts7.cpp:216-256). -/
def gtsO2 (F : Fns K) (T : Tab K) (x : In K) (mass : ℤ) (c : Ctx K) : M K K := do
  let g ← globe7 F T x (.pd 4)
  let db := T.pdm 3 0 * F.exp (x.sw 20 * g) * T.p (.pd 4) 0
  let r ← den F T c x.alt db 32 (alpha 3)
  upd fun s => { s with dd := if mass = 49 then s.dd + 2 * r.1 else r.1 }
  if |x.sw 14| > 0 then
    let d ← (if x.alt ≤ altl 3 then do
        let b ← den F T c (T.pdm 3 2) db (32 - xmm T) (alpha 3 - 1)
        let dm ← den F T c x.alt b.1 (xmm T) 0
        pure (dnet F r.1 dm.1 c.zhm28 (xmm T) 32 *
          ccor F x.alt (F.log (c.b28 * T.pdm 3 1 / b.1)) (T.pdm 3 5 * T.pdl 1 7)
            (T.pdm 3 4 * T.pdl 1 6))
      else pure r.1)
    pure (d * ccor2 F x.alt
      (T.pdm 3 3 * T.pdl 1 23 * (1 + x.sw 0 * T.pdl 0 23 * (x.f107A - 150)))
      (T.pdm 3 7 * T.pdl 1 22) (T.pdm 3 6 * T.pdl 1 21) (T.pdm 3 7 * T.pdl 0 22))
  else pure r.1

/-- Argon (src/atmosphere/nrlmsise00_gts7.cpp:266-291). -/
def gtsAr (F : Fns K) (T : Tab K) (x : In K) (c : Ctx K) : M K K :=
  species F T x c 4 (.pd 5) 40 4 4 fun d b =>
    d * ccor F x.alt (F.log (c.b28 * T.pdm 4 1 / b)) (T.pdm 4 5 * T.pdl 1 9) (T.pdm 4 4 * T.pdl 1 8)

/-- Hydrogen (src/atmosphere/nrlmsise00_gts7.cpp:299-330). -/
def gtsH (F : Fns K) (T : Tab K) (x : In K) (c : Ctx K) : M K K :=
  species F T x c 5 (.pd 6) 1 6 6 fun d b =>
    d * ccor F x.alt (F.log (c.b28 * T.pdm 5 1 * |T.pdl 1 17| / b)) (T.pdm 5 5 * T.pdl 1 11)
          (T.pdm 5 4 * T.pdl 1 10) *
      ccor F x.alt (T.pdm 5 3 * T.pdl 1 20) (T.pdm 5 7 * T.pdl 1 19) (T.pdm 5 6 * T.pdl 1 18)

/-- Atomic nitrogen (src/atmosphere/nrlmsise00_gts7.cpp:339-369). -/
def gtsN (F : Fns K) (T : Tab K) (x : In K) (c : Ctx K) : M K K :=
  species F T x c 6 (.pd 7) 14 7 7 fun d b =>
    d * ccor F x.alt (F.log (c.b28 * T.pdm 6 1 * |T.pdl 0 2| / b)) (T.pdm 6 5 * T.pdl 0 1)
          (T.pdm 6 4 * T.pdl 0 0) *
      ccor F x.alt (T.pdm 6 3 * T.pdl 0 5) (T.pdm 6 7 * T.pdl 0 4) (T.pdm 6 6 * T.pdl 0 3)

/-- Anomalous oxygen (src/atmosphere/nrlmsise00_gts7.cpp:379-387). -/
def gtsAnomO (F : Fns K) (T : Tab K) (x : In K) (c : Ctx K) : M K K := do
  let g ← globe7 F T x (.pd 8)
  let db := T.pdm 7 0 * F.exp (x.sw 20 * g) * T.p (.pd 8) 0
  let tho := T.pdm 7 9 * T.pdl 0 6
  let r ← densu F T x.alt db tho tho 16 (alpha 8) (T.ptm 5) c.s
  setDd r.1
  let gsurf ← rd (·.gsurf)
  let re ← rd (·.re)
  let zsht := T.pdm 7 5
  let zmho := T.pdm 7 4
  let zsho := scalh F gsurf re zmho 16 tho
  pure (r.1 * F.exp (-zsht / zsho * (F.exp (-(x.alt - zmho) / zsht) - 1)))

/-- Total mass density (src/atmosphere/nrlmsise00_gts7.cpp:390-393, nrlmsise00_gtd7.cpp:129-130). -/
def massSum (d : ℕ → K) : K :=
  1.66e-24 * (4 * d 0 + 16 * d 1 + 28 * d 2 + 32 * d 3 + 40 * d 4 + d 6 + 14 * d 7)

/-- Run a part when a condition holds, the density is `0` otherwise
(src/atmosphere/nrlmsise00_gts7.cpp:24). -/
def part (b : Prop) [Decidable b] (m : M K K) : M K K := if b then m else pure 0

/-- The densities (src/atmosphere/nrlmsise00_gts7.cpp:85-398) for `mass ≠ 0`; returns the array and
the temperature left by the nitrogen part. -/
def gtsDens (F : Fns K) (T : Tab K) (x : In K) (mass : ℤ) (tinf tlb s : K) : M K ((ℕ → K) × K) := do
  let g ← globe7 F T x (.pd 2)
  let j := jOf mass
  let n2 ← (if mass ∈ mt then gtsN2 F T x mass tinf tlb s (x.sw 20 * g) else pure (0, 0, 0, 0))
  let c : Ctx K := ⟨tinf, tlb, s, n2.2.2.1, n2.2.2.2⟩
  let he ← part (j ∈ [1, 3, 4, 9]) (gtsHe F T x c)
  let o ← part (j ∈ [1, 3, 4, 9]) (gtsO F T x c)
  let o2 ← part (j ∈ [1, 3, 4, 6, 9]) (gtsO2 F T x mass c)
  let ar ← part (j ∈ [1, 3, 4, 6, 9, 7]) (gtsAr F T x c)
  let h ← part (j ∈ [1, 3, 4, 6, 9, 7, 8]) (gtsH F T x c)
  let n ← part (j ∈ [1, 3, 4, 6, 9, 7, 8]) (gtsN F T x c)
  let ox ← part (j ∈ [1, 3, 4, 6, 9, 7, 8, 10, 11]) (gtsAnomO F T x c)
  let d : ℕ → K := fun k => [he, o, n2.1, o2, ar, 0, h, n, ox].getD k 0
  pure (if mass = 48 then put d 5 (massSum d) else d, n2.2.1)

/-- Unit conversion at the end of `gts7` (src/atmosphere/nrlmsise00_gts7.cpp:408-413). -/
def toMeters (d : ℕ → K) : ℕ → K := fun k => if k = 5 then d 5 * 1e6 / 1e3 else d k * 1e6

/-- `gts7` before the unit conversion (src/atmosphere/nrlmsise00_gts7.cpp:16-406): the two
temperatures and the densities. -/
def gtsCore (F : Fns K) (T : Tab K) (x : In K) (mass : ℤ) : M K (K × K × (ℕ → K)) := do
  let tt ← gtsTemps F T x
  gtsNodes F T x
  let r ← (if mass ≠ 0 then gtsDens F T x mass tt.1 tt.2.1 tt.2.2 else pure (fun _ => 0, 0))
  let t1 ← (if (if mass ≠ 0 then jOf mass else 0) ≠ 5 then do
      let q ← densu F T |x.alt| 1 tt.1 tt.2.1 0 0 (T.ptm 5) tt.2.2
      pure q.2
    else pure r.2)
  pure (tt.1, t1, r.1)

/-- `gts7` (src/atmosphere/nrlmsise00_gts7.cpp:13-419). -/
def gts7 (F : Fns K) (T : Tab K) (x : In K) (mass : ℤ) : M K (Out K) := do
  let r ← gtsCore F T x mass
  pure { d := if x.meters then toMeters r.2.2 else r.2.2, t0 := r.1, t1 := r.2.1 }

/-! ### gtd7 -/

/-- Mesosphere and stratosphere nodes (src/atmosphere/nrlmsise00_gtd7.cpp:56-69). -/
def gtdNodes2 (F : Fns K) (T : Tab K) (x : In K) : M K Unit := do
  upd fun s => { s with tgn2 := put s.tgn2 0 (s.tgn1 1), tn2 := put s.tn2 0 (s.tn1 4) }
  let g0 ← glob7s F T x (.pma 0)
  upd fun s => { s with tn2 := put s.tn2 1 (T.p (.pma 0) 0 * T.pavgm 0 / (1 - x.sw 19 * g0)) }
  let g1 ← glob7s F T x (.pma 1)
  upd fun s => { s with tn2 := put s.tn2 2 (T.p (.pma 1) 0 * T.pavgm 1 / (1 - x.sw 19 * g1)) }
  let g2 ← glob7s F T x (.pma 2)
  upd fun s => { s with
    tn2 := put s.tn2 3 (T.p (.pma 2) 0 * T.pavgm 2 / (1 - x.sw 19 * x.sw 21 * g2)) }
  let g9 ← glob7s F T x (.pma 9)
  upd fun s => { s with
    tgn2 := put s.tgn2 1 (T.pavgm 8 * T.p (.pma 9) 0 * (1 + x.sw 19 * x.sw 21 * g9) *
      s.tn2 3 * s.tn2 3 / F.pow (T.p (.pma 2) 0 * T.pavgm 2) 2) }

/-- Lower nodes (src/atmosphere/nrlmsise00_gtd7.cpp:75-85); `tn3[0]` is not written. -/
def gtdNodes3 (F : Fns K) (T : Tab K) (x : In K) : M K Unit := do
  upd fun s => { s with tgn3 := put s.tgn3 0 (s.tgn2 1) }
  let g3 ← glob7s F T x (.pma 3)
  upd fun s => { s with tn3 := put s.tn3 1 (T.p (.pma 3) 0 * T.pavgm 3 / (1 - x.sw 21 * g3)) }
  let g4 ← glob7s F T x (.pma 4)
  upd fun s => { s with tn3 := put s.tn3 2 (T.p (.pma 4) 0 * T.pavgm 4 / (1 - x.sw 21 * g4)) }
  let g5 ← glob7s F T x (.pma 5)
  upd fun s => { s with tn3 := put s.tn3 3 (T.p (.pma 5) 0 * T.pavgm 5 / (1 - x.sw 21 * g5)) }
  let g6 ← glob7s F T x (.pma 6)
  upd fun s => { s with tn3 := put s.tn3 4 (T.p (.pma 6) 0 * T.pavgm 6 / (1 - x.sw 21 * g6)) }
  let g7 ← glob7s F T x (.pma 7)
  upd fun s => { s with
    tgn3 := put s.tgn3 1 (T.p (.pma 7) 0 * T.pavgm 7 * (1 + x.sw 21 * g7) *
      s.tn3 4 * s.tn3 4 / F.pow (T.p (.pma 6) 0 * T.pavgm 6) 2) }

/-- `zmix` (src/atmosphere/nrlmsise00_gtd7.cpp:10). -/
def zmix : K := 62.5

/-- A trace species in the mixed region (src/atmosphere/nrlmsise00_gtd7.cpp:104-105). -/
def mixed (d2 dsk dz28 r dmc : K) : K := d2 * r * (1 + (dsk / (dz28 * r) - 1) * dmc)

/-- Densities below 72.5 km (src/atmosphere/nrlmsise00_gtd7.cpp:92-133) from the nitrogen value
`dens` of `densm`; `old` holds the caller's array. -/
def gtdMix (T : Tab K) (alt : K) (meters : Bool) (mass : ℤ) (ds : ℕ → K) (dm28m dens : K) (old : ℕ → K) : ℕ → K :=
  let dmc := if alt > zmix then 1 - (zn2 0 - alt) / (zn2 0 - zmix) else 0
  let d2 := dens * (1 + (ds 2 / dm28m - 1) * dmc)
  let d : ℕ → K := fun k => match k with
    | 0 => if mass = 4 ∨ mass = 48 then mixed d2 (ds 0) (ds 2) (T.pdm 0 1) dmc else old 0
    | 1 => 0
    | 2 => d2
    | 3 => if mass = 32 ∨ mass = 48 then mixed d2 (ds 3) (ds 2) (T.pdm 3 1) dmc else 0
    | 4 => if mass = 40 ∨ mass = 48 then mixed d2 (ds 4) (ds 2) (T.pdm 4 1) dmc else 0
    | 5 => old 5
    | 6 => 0
    | 7 => 0
    | 8 => 0
    | k + 9 => old (k + 9)
  if mass = 48 then put d 5 (if meters then massSum d / 1e3 else massSum d) else d

/-- `gtd7` (src/atmosphere/nrlmsise00_gtd7.cpp:7-141).  `old` holds the caller's output structure;
`tzg` is the indeterminate initial value of the local `tz` (never read, since line 89 or 99 runs with
an altitude below 72.5 km).  The latitude of line 22-25 is always `glat`: `|sw[1]| < 0` never holds. -/
def gtd7 (F : Fns K) (T : Tab K) (tzg : K) (x : In K) (mass : ℤ) (old : Out K) : M K (Out K) := do
  glatf F (if |x.sw 1| < 0 then 45 else x.glat)
  let mss := if x.alt < zmix ∧ mass > 0 then 28 else mass
  let o ← gts7 F T { x with alt := max x.alt (zn2 0) } mss
  upd fun s => { s with dm28m := if x.meters then s.dm28 * 1e6 else s.dm28 }
  if x.alt ≥ zn2 0 then
    pure { d := fun k => if k < 9 then o.d k else old.d k, t0 := o.t0, t1 := o.t1 }
  else
    gtdNodes2 F T x
    if x.alt < zn3 0 then gtdNodes3 F T x else pure ()
    if mass = 0 then
      let r ← densm F x.alt 1 0 tzg
      setDd r.1
      pure { d := old.d, t0 := o.t0, t1 := r.2 }
    else
      let dm28m ← rd (·.dm28m)
      let r ← densm F x.alt dm28m (xmm T) tzg
      pure { d := gtdMix T x.alt x.meters mass o.d dm28m r.1 old.d, t0 := o.t0, t1 := r.2 }

/-- Effective mass density (src/atmosphere/nrlmsise00_gtd7d.cpp:16-17). -/
def massSumD (d : ℕ → K) : K :=
  1.66e-24 * (4 * d 0 + 16 * d 1 + 28 * d 2 + 32 * d 3 + 40 * d 4 + d 6 + 14 * d 7 + 16 * d 8)

/-- `gtd7d` (src/atmosphere/nrlmsise00_gtd7d.cpp:5-24). -/
def gtd7d (F : Fns K) (T : Tab K) (tzg : K) (x : In K) (mass : ℤ) (old : Out K) : M K (Out K) := do
  let o ← gtd7 F T tzg x mass old
  let d := if mass = 48 then put o.d 5 (massSumD o.d) else o.d
  pure { o with d := if x.meters then put d 5 (d 5 / 1e3) else d }

end Verif.Atmosphere.Msis
