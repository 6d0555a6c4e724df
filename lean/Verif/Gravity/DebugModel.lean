import Verif.Gravity.Model

/-
Model of the version of `lagrange_polynomials` for row-wise arrays, which exists in debug builds
(src/gravity/lagrange_poly.cpp:5-65).  Conventions as in `Verif.Gravity.Model`.
-/
namespace Verif.Gravity.Debug

open Verif.Mat2D Verif.Gravity

variable {K : Type} [Field K]

/-- Read and write a row-wise work array. -/
def rd (m : Mat K) (i j : Nat) : Option K := m.get? .rowWise i j
def wr (m : Mat K) (i j : Nat) (v : K) : Option (Mat K) := m.set? .rowWise i j v

/-- One turn of the zonal loop (src/gravity/lagrange_poly.cpp:36-40). -/
def zonalStep (g : Geo K) (s : Mat K × Mat K) (n : Nat) : Option (Mat K × Mat K) := do
  let a ← rd s.1 (n - 1) 0
  let b ← rd s.1 (n - 2) 0
  let V ← wr s.1 n 0 (((2 * n - 1 : Nat) * g.z0 * a - (n - 1 : Nat) * g.rho * b) / n)
  let W ← wr s.2 n 0 0
  some (V, W)

/-- One turn of the inner loop (src/gravity/lagrange_poly.cpp:53-60). -/
def innerStep (g : Geo K) (m : Nat) (s : Mat K × Mat K) (n : Nat) : Option (Mat K × Mat K) := do
  let a ← rd s.1 (n - 1) m
  let b ← rd s.1 (n - 2) m
  let V ← wr s.1 n m (((2 * n - 1 : Nat) * g.z0 * a - (n + m - 1 : Nat) * g.rho * b) / (n - m : Nat))
  let c ← rd s.2 (n - 1) m
  let d ← rd s.2 (n - 2) m
  let W ← wr s.2 n m (((2 * n - 1 : Nat) * g.z0 * c - (n + m - 1 : Nat) * g.rho * d) / (n - m : Nat))
  some (V, W)

/-- One turn of the outer loop (src/gravity/lagrange_poly.cpp:42-61). -/
def outerStep (g : Geo K) (l : Nat) (s : Mat K × Mat K) (m : Nat) : Option (Mat K × Mat K) := do
  let v ← rd s.1 (m - 1) (m - 1)
  let w ← rd s.2 (m - 1) (m - 1)
  let V ← wr s.1 m m ((2 * m - 1 : Nat) * g.x0 * v - g.y0 * w)
  let w ← rd s.2 (m - 1) (m - 1)
  let v ← rd V (m - 1) (m - 1)
  let W ← wr s.2 m m ((2 * m - 1 : Nat) * g.x0 * w + g.y0 * v)
  let s ← (if m < l then do
      let v ← rd V m m
      let V ← wr V (m + 1) m ((2 * m + 1 : Nat) * g.z0 * v)
      let w ← rd W m m
      let W ← wr W (m + 1) m ((2 * m + 1 : Nat) * g.z0 * w)
      some (V, W)
    else some (V, W))
  (List.range' (m + 2) (l - (m + 1))).foldlM (innerStep g m) s

/-- `lagrange_polynomials` (src/gravity/lagrange_poly.cpp:6-64): status and the arrays.  `l`, `k` are the largest degree
and order. -/
def lagrange (g : Geo K) (l k : Nat) (V W : Mat K) : Option (Nat × Mat K × Mat K) :=
  if k > l then some (1, V, W)
  else do
    let V ← wr V 0 0 g.v00
    let W ← wr W 0 0 0
    let v ← rd V 0 0
    let V ← wr V 1 0 (g.z0 * v)
    let W ← wr W 1 0 0
    let s ← (List.range' 2 (l - 1)).foldlM (zonalStep g) (V, W)
    let s ← (List.range' 1 k).foldlM (outerStep g l) s
    some (0, s.1, s.2)

end Verif.Gravity.Debug
