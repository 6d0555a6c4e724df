import Mathlib.Algebra.Order.Field.Basic

/-
Model of the spline routines of the atmosphere model: src/atmosphere/nrlmsise_spline.cpp,
src/atmosphere/nrlmsise00_splint.cpp, src/atmosphere/nrlmsise00_splini.cpp.

Doubles are elements of an ordered field.  Arrays are functions of the index (all accesses are
between `0` and `n - 1` for `n ≥ 2`).
-/
namespace Verif.Atmosphere

variable {K : Type} [Field K] [LinearOrder K]

/-- `a[i] = v`. -/
def put (a : ℕ → K) (i : ℕ) (v : K) : ℕ → K := fun j => if j = i then v else a j

/-- The two work arrays of `spline`. -/
structure Work (K : Type) where
  y2 : ℕ → K
  u : ℕ → K

/-- Start of the forward sweep (src/atmosphere/nrlmsise_spline.cpp:10-16).  `big` is `0.99e30`. -/
def splineInit (big : K) (x y : ℕ → K) (yp1 : K) (w : Work K) : Work K :=
  if yp1 > big then ⟨put w.y2 0 0, put w.u 0 0⟩
  else ⟨put w.y2 0 (-(1 / 2)),
    put w.u 0 ((3 / (x 1 - x 0)) * ((y 1 - y 0) / (x 1 - x 0) - yp1))⟩

/-- Body of the forward sweep (src/atmosphere/nrlmsise_spline.cpp:19-27). -/
def splineStep (x y : ℕ → K) (i : ℕ) (w : Work K) : Work K :=
  let sig := (x i - x (i - 1)) / (x (i + 1) - x (i - 1))
  let p := sig * w.y2 (i - 1) + 2
  ⟨put w.y2 i ((sig - 1) / p),
   put w.u i ((6 * ((y (i + 1) - y i) / (x (i + 1) - x i) - (y i - y (i - 1)) / (x i - x (i - 1))) /
      (x (i + 1) - x (i - 1)) - sig * w.u (i - 1)) / p)⟩

/-- The forward sweep for `i = 1, …, m` (src/atmosphere/nrlmsise_spline.cpp:18-28). -/
def splineFwd (x y : ℕ → K) : ℕ → Work K → Work K
  | 0, w => w
  | m + 1, w => splineStep x y (m + 1) (splineFwd x y m w)

/-- Back substitution for `k = m-1, …, 0` (src/atmosphere/nrlmsise_spline.cpp:41-43). -/
def splineBack (u : ℕ → K) : ℕ → (ℕ → K) → (ℕ → K)
  | 0, y2 => y2
  | k + 1, y2 => splineBack u k (put y2 k (y2 k * y2 (k + 1) + u k))

/-- `spline` (src/atmosphere/nrlmsise_spline.cpp:4-46) for `n ≥ 2`; `w` holds the old contents of
the output and of the work array. -/
def spline (big : K) (x y : ℕ → K) (n : ℕ) (yp1 ypn : K) (w : Work K) : ℕ → K :=
  let w1 := splineFwd x y (n - 2) (splineInit big x y yp1 w)
  let qn : K := if ypn > big then 0 else 1 / 2
  let un : K := if ypn > big then 0 else
    (3 / (x (n - 1) - x (n - 2))) * (ypn - (y (n - 1) - y (n - 2)) / (x (n - 1) - x (n - 2)))
  splineBack w1.u (n - 1)
    (put w1.y2 (n - 1) ((un - qn * w1.u (n - 2)) / (qn * w1.y2 (n - 2) + 1)))

/-- The bisection loop of `splint` (src/atmosphere/nrlmsise00_splint.cpp:9-18).  The first argument
bounds the number of iterations. -/
def bisect (xa : ℕ → K) (x : K) : ℕ → ℕ → ℕ → ℕ × ℕ
  | 0, klo, khi => (klo, khi)
  | f + 1, klo, khi =>
    let k := (khi + klo) / 2
    let klo' := if xa k > x then klo else k
    let khi' := if xa k > x then k else khi
    if (khi' : ℤ) - klo' > 1 then bisect xa x f klo' khi' else (klo', khi')

/-- The cubic of one interval (src/atmosphere/nrlmsise00_splint.cpp:24-28). -/
def cubic (xa ya y2a : ℕ → K) (klo khi : ℕ) (x : K) : K :=
  let h := xa khi - xa klo
  let a := (xa khi - x) / h
  let b := (x - xa klo) / h
  a * ya klo + b * ya khi +
    ((a * a * a - a) * y2a klo + (b * b * b - b) * y2a khi) * h * h / 6

/-- `splint` (src/atmosphere/nrlmsise00_splint.cpp:3-31); `tiny` is `1e-30`. -/
def splint (tiny : K) (xa ya y2a : ℕ → K) (n : ℕ) (x : K) : K :=
  let k := bisect xa x n 0 (n - 1)
  if xa k.2 - xa k.1 = 0 then tiny else cubic xa ya y2a k.1 k.2 x

/-- The contribution of one interval to the integral (src/atmosphere/nrlmsise00_splini.cpp:17-26). -/
def cubicInt (xa ya y2a : ℕ → K) (klo khi : ℕ) (xx : K) : K :=
  let h := xa khi - xa klo
  let a := (xa khi - xx) / h
  let b := (xx - xa klo) / h
  let a2 := a * a
  let b2 := b * b
  ((1 - a2) * ya klo / 2 + b2 * ya khi / 2 +
    ((-(1 + a2 * a2) / 4 + a2 / 2) * y2a klo + (b2 * b2 / 4 - b2 / 2) * y2a khi) * h * h / 6) * h

/-- The loop of `splini` (src/atmosphere/nrlmsise00_splini.cpp:13-29) from interval `klo`, `khi =
klo + 1` on.  The first argument bounds the number of iterations. -/
def spliniLoop (xa ya y2a : ℕ → K) (n : ℕ) (x : K) : ℕ → ℕ → K → K
  | 0, _, yi => yi
  | f + 1, klo, yi =>
    let xx := if klo + 1 < n - 1 then min x (xa (klo + 1)) else x
    let yi' := yi + cubicInt xa ya y2a klo (klo + 1) xx
    if x > xa (klo + 1) ∧ klo + 2 < n then spliniLoop xa ya y2a n x f (klo + 1) yi' else yi'

/-- `splini` (src/atmosphere/nrlmsise00_splini.cpp:4-32). -/
def splini (xa ya y2a : ℕ → K) (n : ℕ) (x : K) : K := spliniLoop xa ya y2a n x n 0 0

end Verif.Atmosphere
