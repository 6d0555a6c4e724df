import Verif.Float.Format

/-
Model of the extended Kalman filter (src/filters/ekf.hpp) in double arithmetic: every operation is
followed by a rounding `rnd`.  The order in which Eigen adds the products of a matrix product, and
which of the products the compiler fuses with the following sum into one operation with one
rounding (the release build has `-march=native`), are left open: a result is any value that some
order and some choice of fused operations give.  `dotE` and `obsE` are one order, from the first to
the last index, without or with fused operations.  There is no largest double here.
-/
namespace Verif.Float

variable {K : Type} [Field K]

/-- The values that a sum of products may have: in any order, with parentheses in any places, and
with any of the products fused with a sum (matrix products of src/filters/ekf.hpp:46, 55, 64,
72-74). -/
inductive DotC (rnd : K → K) : List (K × K) → K → Prop
  | nil : DotC rnd [] 0
  | prod (a b : K) : DotC rnd [(a, b)] (rnd (a * b))
  | add {l m : List (K × K)} {x y : K} (hl : l ≠ []) (hm : m ≠ []) :
      DotC rnd l x → DotC rnd m y → DotC rnd (l ++ m) (rnd (x + y))
  | fma {l : List (K × K)} {x : K} (a b : K) : DotC rnd l x →
      DotC rnd (l ++ [(a, b)]) (rnd (x + a * b))
  | perm {l m : List (K × K)} {x : K} : l.Perm m → DotC rnd l x → DotC rnd m x

/-- A product added to a number, with one rounding or with two. -/
def MulAdd (rnd : K → K) (c a b v : K) : Prop := v = rnd (c + rnd (a * b)) ∨ v = rnd (c + a * b)

/-- A symmetric product `A * P * A.transpose()`, evaluated from the left, with the intermediate
matrix `M` (src/filters/ekf.hpp:46, 55, 74). -/
structure Sandwich (rnd : K → K) {n : Nat} (A P N : Fin n → Fin n → K) where
  M : Fin n → Fin n → K
  hM : ∀ i j, DotC rnd (List.ofFn fun k => (A i k, P k j)) (M i j)
  hN : ∀ i j, DotC rnd (List.ofFn fun k => (M i k, A j k)) (N i j)

/-- `observation_update(z, g, sigma, H)` (src/filters/ekf.hpp:58-75) from the state `x`, `P` to the
state `x'`, `P'` with the gain `G`; the other fields are the intermediate values. -/
structure ObsD (rnd : K → K) {n : Nat} (x : Fin n → K) (P : Fin n → Fin n → K) (z g sigma : K)
    (H : Fin n → K) (G x' : Fin n → K) (P' : Fin n → Fin n → K) where
  /-- `P * H` (line 64) -/
  PH : Fin n → K
  hPH : ∀ i, DotC rnd (List.ofFn fun k => (P i k, H k)) (PH i)
  /-- `H.dot(P * H)` and the denominator (lines 60, 64) -/
  d : K
  hd : DotC rnd (List.ofFn fun k => (H k, PH k)) d
  q : K
  hq : MulAdd rnd d sigma sigma q
  /-- the gain (line 64) -/
  hG : ∀ i, G i = rnd (PH i / q)
  /-- the state (line 67) -/
  hx : ∀ i, MulAdd rnd (x i) (G i) (rnd (z - g)) (x' i)
  /-- `K * sigma` (line 72) -/
  w : Fin n → K
  hw : ∀ i, w i = rnd (G i * sigma)
  /-- `ImKG` (line 73) -/
  A : Fin n → Fin n → K
  hA : ∀ i j, MulAdd rnd (if i = j then 1 else 0) (-G i) (H j) (A i j)
  /-- `ImKG * P * ImKG.transpose()` and the new covariance (line 74) -/
  N : Fin n → Fin n → K
  hN : Sandwich rnd A P N
  hP : ∀ i j, MulAdd rnd (N i j) (w i) (w j) (P' i j)

/-- The two `time_update` functions (src/filters/ekf.hpp:41-56), covariance: without process noise
(`Q = none`) and with it. -/
structure TimeD (rnd : K → K) {n : Nat} (P phi : Fin n → Fin n → K)
    (Q : Option (Fin n → Fin n → K)) (P' : Fin n → Fin n → K) where
  N : Fin n → Fin n → K
  hN : Sandwich rnd phi P N
  hP : ∀ i j, P' i j = match Q with
    | none => N i j
    | some Q => rnd (N i j + Q i j)

/-- Sum of products from the first to the last (a coefficient of a small product in
src/filters/ekf.hpp:64-74). -/
def mulAddE (rnd : K → K) (fused : Bool) (c a b : K) : K :=
  if fused then rnd (c + a * b) else rnd (c + rnd (a * b))

/-- As `mulAddE`, for a list. -/
def dotE (rnd : K → K) (fused : Bool) : List (K × K) → K
  | [] => 0
  | (a, b) :: l => l.foldl (fun s p => mulAddE rnd fused s p.1 p.2) (rnd (a * b))

/-- `ImKG * P * ImKG.transpose()` in that order (src/filters/ekf.hpp:74). -/
def sandE (rnd : K → K) (fused : Bool) {n : Nat} (A P : Fin n → Fin n → K) :
    Fin n → Fin n → K := fun i j =>
  dotE rnd fused (List.ofFn fun k =>
    (dotE rnd fused (List.ofFn fun l => (A i l, P l k)), A j k))

/-- The denominator of the gain (src/filters/ekf.hpp:60, 64). -/
def denE (rnd : K → K) (fused : Bool) {n : Nat} (P : Fin n → Fin n → K) (sigma : K)
    (H : Fin n → K) : K :=
  mulAddE rnd fused (dotE rnd fused (List.ofFn fun k =>
    (H k, dotE rnd fused (List.ofFn fun l => (P k l, H l))))) sigma sigma

/-- The gain (src/filters/ekf.hpp:64). -/
def gainE (rnd : K → K) (fused : Bool) {n : Nat} (P : Fin n → Fin n → K) (sigma : K)
    (H : Fin n → K) (i : Fin n) : K :=
  rnd (dotE rnd fused (List.ofFn fun k => (P i k, H k)) / denE rnd fused P sigma H)

/-- `ImKG` (src/filters/ekf.hpp:73). -/
def imkgE (rnd : K → K) (fused : Bool) {n : Nat} (G H : Fin n → K) (i j : Fin n) : K :=
  mulAddE rnd fused (if i = j then 1 else 0) (-G i) (H j)

/-- The covariance after `observation_update` (src/filters/ekf.hpp:58-75), in that order. -/
def obsE (rnd : K → K) (fused : Bool) {n : Nat} (P : Fin n → Fin n → K) (sigma : K)
    (H : Fin n → K) : Fin n → Fin n → K :=
  let G := gainE rnd fused P sigma H
  fun i j => mulAddE rnd fused (sandE rnd fused (imkgE rnd fused G H) P i j)
    (rnd (G i * sigma)) (rnd (G j * sigma))

/-- The state after `observation_update` (src/filters/ekf.hpp:67), in that order. -/
def stateE (rnd : K → K) (fused : Bool) {n : Nat} (x : Fin n → K) (P : Fin n → Fin n → K)
    (z g sigma : K) (H : Fin n → K) (i : Fin n) : K :=
  mulAddE rnd fused (x i) (gainE rnd fused P sigma H i) (rnd (z - g))

end Verif.Float
