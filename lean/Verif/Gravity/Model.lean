import Verif.Mat2D.Model
import Verif.Factorial.Model
import Verif.Gravity.Spec
import Mathlib.Algebra.Field.Basic
import Mathlib.Algebra.Group.Prod
import Mathlib.Data.Nat.Cast.Basic

/-
Model of src/gravity/lagrange_poly.cpp 67-125 (the trapezoidal version) and
src/gravity/gravity_acceleration.cpp, over any field `K` in place of `double`.
Work arrays are `Verif.Mat2D.Mat` in trapezoidal storage: an access outside the buffer makes the
whole computation `none`.  Coefficients `C`, `S` are functions of degree and order (the table of
`HarmonicCoeffs` is the subject of C08, C09).  Integer overflow of the factors is the subject of
`Verif.Mat2D.IntModel`.
-/
namespace Verif.Gravity

open Verif.Mat2D

variable {K : Type} [Field K]

/-- Read and write a work array. -/
def rd (m : Mat K) (i j : Nat) : Option K := m.get? .trapezoid i j
def wr (m : Mat K) (i j : Nat) (v : K) : Option (Mat K) := m.set? .trapezoid i j v

/-- One turn of the zonal loop (lines 97-101). -/
def zonalStep (g : Geo K) (s : Mat K × Mat K) (n : Nat) : Option (Mat K × Mat K) := do
  let a ← rd s.1 (n - 1) 0
  let b ← rd s.1 (n - 2) 0
  let V ← wr s.1 n 0 (((2 * n - 1 : Nat) * g.z0 * a - (n - 1 : Nat) * g.rho * b) / n)
  let W ← wr s.2 n 0 0
  some (V, W)

/-- One turn of the inner loop (lines 114-121). -/
def innerStep (g : Geo K) (m : Nat) (s : Mat K × Mat K) (n : Nat) : Option (Mat K × Mat K) := do
  let a ← rd s.1 (n - 1) m
  let b ← rd s.1 (n - 2) m
  let V ← wr s.1 n m (((2 * n - 1 : Nat) * g.z0 * a - (n + m - 1 : Nat) * g.rho * b) / (n - m : Nat))
  let c ← rd s.2 (n - 1) m
  let d ← rd s.2 (n - 2) m
  let W ← wr s.2 n m (((2 * n - 1 : Nat) * g.z0 * c - (n + m - 1 : Nat) * g.rho * d) / (n - m : Nat))
  some (V, W)

/-- One turn of the outer loop (lines 103-122). -/
def outerStep (g : Geo K) (l : Nat) (s : Mat K × Mat K) (m : Nat) : Option (Mat K × Mat K) := do
  let v ← rd s.1 (m - 1) (m - 1)
  let w ← rd s.2 (m - 1) (m - 1)
  let V ← wr s.1 m m ((2 * m - 1 : Nat) * (g.x0 * v - g.y0 * w))
  let w ← rd s.2 (m - 1) (m - 1)
  let v ← rd V (m - 1) (m - 1)
  let W ← wr s.2 m m ((2 * m - 1 : Nat) * (g.x0 * w + g.y0 * v))
  let s ← (if m < l then do
      let v ← rd V m m
      let V ← wr V (m + 1) m ((2 * m + 1 : Nat) * g.z0 * v)
      let w ← rd W m m
      let W ← wr W (m + 1) m ((2 * m + 1 : Nat) * g.z0 * w)
      some (V, W)
    else some (V, W))
  (List.range' (m + 2) (l - (m + 1))).foldlM (innerStep g m) s

/-- `lagrange_polynomials` (lines 67-125): status and the arrays.  `l`, `k` are the largest degree
and order. -/
def lagrange (g : Geo K) (l k : Nat) (V W : Mat K) : Option (Nat × Mat K × Mat K) :=
  if k > l then some (1, V, W)
  else do
    let V ← wr V 0 0 g.v00
    let W ← wr W 0 0 0
    let v ← rd V 0 0
    let V ← wr V 1 0 (g.z0 * v)
    let W ← wr W 1 0 0
    let s ← (List.range' 2 (l - 1)).foldlM (zonalStep g) (V, W)
    let s ← (List.range' 1 k).foldlM (outerStep g l) s
    some (0, s.1, s.2)

/-! ### Acceleration -/

/-- One turn of the first loop (gravity_acceleration.cpp 21-26). -/
def acc0Step (V W : Mat K) (C : Nat → Nat → K) (s : K × K × K) (i : Nat) : Option (K × K × K) := do
  let c := C i 0
  let a ← rd V (i + 1) 0
  let b ← rd V (i + 1) 1
  let d ← rd W (i + 1) 1
  some (s.1 + -c * b, s.2.1 + -c * d, s.2.2 + -((i + 1 : Nat) : K) * c * a)

/-- One turn of the inner loop (31-47). -/
def acc1Step (V W : Mat K) (C S : Nat → Nat → K) (i : Nat) (s : K × K × K) (j : Nat) : Option (K × K × K) := do
  let c := C i j
  let sn := S i j
  let vm ← rd V (i + 1) (j - 1)
  let v0 ← rd V (i + 1) j
  let vp ← rd V (i + 1) (j + 1)
  let wm ← rd W (i + 1) (j - 1)
  let w0 ← rd W (i + 1) j
  let wp ← rd W (i + 1) (j + 1)
  let fac : K := ((i - j + 1) * (i - j + 2) : Nat) / 2
  some (s.1 + (1 / 2 * (-c * vp - sn * wp) + fac * (c * vm + sn * wm)),
    s.2.1 + (1 / 2 * (-c * wp + sn * vp) + fac * (-c * wm + sn * vm)),
    s.2.2 + ((i - j + 1 : Nat) : K) * (-c * v0 - sn * w0))

/-- `grav_potential_accel` (12-63). -/
def accel (degree order : Nat) (Re GM : K) (V W : Mat K) (C S : Nat → Nat → K) : Option (K × K × K) := do
  let a ← (List.range (degree + 1)).foldlM (acc0Step V W C) (0, 0, 0)
  let b ← (List.range' 1 degree).foldlM
    (fun s i => (List.range' 1 (min i order)).foldlM (acc1Step V W C S i) s) (0, 0, 0)
  let f := GM / (Re * Re)
  some ((a.1 + b.1) * f, (a.2.1 + b.2.1) * f, (a.2.2 + b.2.2) * f)

/-! ### Acceleration with partials -/

/-- Partial derivatives accumulated by the loops: dax/dx, dax/dy, dax/dz, day/dz, daz/dz. -/
structure Par (K : Type) where
  xx : K
  xy : K
  xz : K
  yz : K
  zz : K

def Par.zero : Par K := ⟨0, 0, 0, 0, 0⟩

/-- One turn of the first loop (84-102); the state carries `fac`. -/
def par0Step (V W : Mat K) (C : Nat → Nat → K) (s : (K × K × K) × Par K × K) (i : Nat) :
    Option ((K × K × K) × Par K × K) := do
  let c := C i 0
  let a ← rd V (i + 1) 0
  let b ← rd V (i + 1) 1
  let d ← rd W (i + 1) 1
  let v2 ← rd V (i + 2) 2
  let v0 ← rd V (i + 2) 0
  let w2 ← rd W (i + 2) 2
  let v1 ← rd V (i + 2) 1
  let w1 ← rd W (i + 2) 1
  let p := s.2.1
  let fac := s.2.2
  some ((s.1.1 - c * b, s.1.2.1 - c * d, s.1.2.2 - ((i + 1 : Nat) : K) * c * a),
    ⟨p.xx + 1 / 2 * (c * v2 - fac * (c * v0)), p.xy + 1 / 2 * (c * w2),
      p.xz + ((i + 1 : Nat) : K) * c * v1, p.yz + ((i + 1 : Nat) : K) * c * w1,
      p.zz + (((i + 1) * (i + 2) : Nat) : K) * (c * v0)⟩,
    fac * (((i + 3 : Nat) : K) / ((i + 1 : Nat) : K)))

/-- One turn of the second loop (109-119): only `xx`, `xy`, `zz`. -/
def par1Step (V W : Mat K) (C S : Nat → Nat → K) (s : Par K × K) (i : Nat) : Option (Par K × K) := do
  let c := C i 1
  let sn := S i 1
  let v3 ← rd V (i + 2) 3
  let w3 ← rd W (i + 2) 3
  let v1 ← rd V (i + 2) 1
  let w1 ← rd W (i + 2) 1
  let p := s.1
  let fac := s.2
  some (⟨p.xx + 1 / 4 * (c * v3 + sn * w3 + fac * (-3 * c * v1 - sn * w1)),
      p.xy + 1 / 4 * (c * w3 - sn * v3 + fac * (-c * w1 - sn * v1)), p.xz, p.yz,
      p.zz + ((i * (i + 1) : Nat) : K) * (c * v1 + sn * w1)⟩,
    fac * (((i + 2 : Nat) : K) / ((i : Nat) : K)))

/-- The three factors of the third loop. -/
structure Facs (K : Type) where
  f2 : K
  f3 : K
  f4 : K

/-- Acceleration part of a turn of the inner third loop (142-157). -/
def acc2Step (V W : Mat K) (C S : Nat → Nat → K) (i : Nat) (s : K × K × K) (j : Nat) : Option (K × K × K) := do
  let c := C i j
  let sn := S i j
  let vm ← rd V (i + 1) (j - 1)
  let v0 ← rd V (i + 1) j
  let vp ← rd V (i + 1) (j + 1)
  let wm ← rd W (i + 1) (j - 1)
  let w0 ← rd W (i + 1) j
  let wp ← rd W (i + 1) (j + 1)
  let afac : K := ((i - j + 1) * (i - j + 2) : Nat) / 2
  some (s.1 + (1 / 2 * (-c * vp - sn * wp) + afac * (c * vm + sn * wm)),
    s.2.1 + (1 / 2 * (-c * wp + sn * vp) + afac * (-c * wm + sn * vm)),
    s.2.2 + ((i - j + 1 : Nat) : K) * (-c * v0 - sn * w0))

/-- Partials part of a turn of the inner third loop (161-183). -/
def parStep (V W : Mat K) (C S : Nat → Nat → K) (i : Nat) (p : Par K) (f : Facs K) (j : Nat) :
    Option (Par K × Facs K) := do
  let c := C i j
  let sn := S i j
  let Vp2 ← rd V (i + 2) (j + 2)
  let Wp2 ← rd W (i + 2) (j + 2)
  let V0 ← rd V (i + 2) j
  let W0 ← rd W (i + 2) j
  let Vm2 ← rd V (i + 2) (j - 2)
  let Wm2 ← rd W (i + 2) (j - 2)
  let Vp1 ← rd V (i + 2) (j + 1)
  let Wp1 ← rd W (i + 2) (j + 1)
  let Vm1 ← rd V (i + 2) (j - 1)
  let Wm1 ← rd W (i + 2) (j - 1)
  let half : K := ((i - j + 1 : Nat) : K) / 2
  some (
      ⟨p.xx + 1 / 4 * (c * Vp2 + sn * Wp2 + 2 * f.f2 * (-c * V0 - sn * W0) + f.f4 * (c * Vm2 + sn * Wm2)),
       p.xy + 1 / 4 * (c * Wp2 - sn * Vp2 + f.f4 * (-c * Wm2 + sn * Vm2)),
       p.xz + (half * (c * Vp1 + sn * Wp1) + f.f3 * (1 / 2) * (-c * Vm1 - sn * Wm1)),
       p.yz + (half * (c * Wp1 - sn * Vp1) + f.f3 * (1 / 2) * (c * Wm1 - sn * Vm1)),
       p.zz + f.f2 * (c * V0 + sn * W0)⟩,
      ⟨f.f2 * (((i - j : Nat) : K) / ((i - j + 2 : Nat) : K)),
       f.f3 * (((i - j : Nat) : K) / ((i - j + 3 : Nat) : K)),
       f.f4 * (((i - j : Nat) : K) / ((i - j + 4 : Nat) : K))⟩)

/-- One turn of the inner third loop (141-185). -/
def par2Step (V W : Mat K) (C S : Nat → Nat → K) (i : Nat) (s : (K × K × K) × Par K × Facs K) (j : Nat) :
    Option ((K × K × K) × Par K × Facs K) := do
  let acc ← acc2Step V W C S i s.1 j
  if j > 1 then do
    let pf ← parStep V W C S i s.2.1 s.2.2 j
    some (acc, pf)
  else some (acc, s.2)

/-- The factors at the start of a row (126-139). -/
def rowFacs (i : Nat) : Facs K :=
  if i > 1 then ⟨Verif.Factorial.factorialRatio K (i - 2 + 2) (i - 2), Verif.Factorial.factorialRatio K (i - 2 + 3) (i - 2),
    Verif.Factorial.factorialRatio K (i - 2 + 4) (i - 2)⟩
  else ⟨0, 0, 0⟩

/-- One row of the third loop (125-186). -/
def par2Row (V W : Mat K) (C S : Nat → Nat → K) (order : Nat) (s : (K × K × K) × Par K) (i : Nat) :
    Option ((K × K × K) × Par K) := do
  let r ← (List.range' 1 (min i order)).foldlM (par2Step V W C S i) (s.1, s.2, rowFacs i)
  some (r.1, r.2.1)

/-- A 3x3 matrix by entries. -/
abbrev Mat33 (K : Type) := Nat → Nat → K

/-- `grav_potential_accel` with partials (65-223): acceleration and the matrix; `inp` is what the
caller's matrix holds beforehand. -/
def accelPartials (degree order : Nat) (Re GM : K) (V W : Mat K) (C S : Nat → Nat → K) (inp : Mat33 K) :
    Option ((K × K × K) × Mat33 K) := do
  let a ← (List.range (degree + 1)).foldlM (par0Step V W C) ((0, 0, 0), Par.zero, 2)
  let m1 ← (List.range' 1 degree).foldlM (par1Step V W C S) (Par.zero, 2)
  let b ← (List.range' 1 degree).foldlM (par2Row V W C S order) ((0, 0, 0), Par.zero)
  let f := GM / (Re * Re)
  let p0 := a.2.1
  let p1 := m1.1
  let p2 := b.2
  let q := GM / Re / Re / Re
  let xx := p0.xx + p1.xx + p2.xx
  let zz := p0.zz + p1.zz + p2.zz
  let out : Mat33 K := fun i j =>
    (match i, j with
     | 0, 0 => xx
     | 1, 0 => p0.xy + p1.xy + p2.xy
     | 2, 0 => p0.xz + p2.xz
     | 0, 1 => inp 0 1
     | 1, 1 => -(xx + zz)
     | 2, 1 => p0.yz + p2.yz
     | 0, 2 => inp 0 2
     | 1, 2 => inp 1 2
     | 2, 2 => zz
     | _, _ => 0) * q
  some (((a.1.1 + b.1.1) * f, (a.1.2.1 + b.1.2.1) * f, (a.1.2.2 + b.1.2.2) * f), out)

end Verif.Gravity
