import Mathlib.Data.Matrix.Mul
import Mathlib.Analysis.Real.Sqrt

/-
Model of the extended Kalman filter (src/filters/ekf.hpp) over the real numbers, for any number
of parameters.  (Floating-point rounding is not modelled; Eigen's expressions are evaluated as
written.)
-/
namespace Verif.Filters

open Matrix

/-- The filter (src/filters/ekf.hpp:11-15); `T` are epochs. -/
structure Ekf (T : Type) (n : Nat) where
  t : T
  x : Fin n → ℝ
  P : Matrix (Fin n) (Fin n) ℝ
  K : Fin n → ℝ

/-- `ExtendedKalmanFilter(num_params)` (src/filters/ekf.hpp:19-26); `tmin` is `datetime::min()`. -/
def Ekf.new {T : Type} (tmin : T) (n : Nat) : Ekf T n := ⟨tmin, 0, 1, 0⟩

/-- `time_update(tk, xk, phi)` (src/filters/ekf.hpp:41-47). -/
def Ekf.timeUpdate {T : Type} {n : Nat} (f : Ekf T n) (tk : T) (xk : Fin n → ℝ)
    (phi : Matrix (Fin n) (Fin n) ℝ) : Ekf T n :=
  { f with t := tk, x := xk, P := phi * f.P * phiᵀ }

/-- `time_update(tk, xk, phi, Qdt)` (src/filters/ekf.hpp:49-56). -/
def Ekf.timeUpdateQ {T : Type} {n : Nat} (f : Ekf T n) (tk : T) (xk : Fin n → ℝ)
    (phi Q : Matrix (Fin n) (Fin n) ℝ) : Ekf T n :=
  { f with t := tk, x := xk, P := phi * f.P * phiᵀ + Q }

/-- `observation_update(z, g, sigma, H)` (src/filters/ekf.hpp:58-75). -/
noncomputable def Ekf.observationUpdate {T : Type} {n : Nat} (f : Ekf T n) (z g sigma : ℝ)
    (H : Fin n → ℝ) : Ekf T n :=
  let inv_w := sigma * sigma
  let K : Fin n → ℝ := fun i => (f.P *ᵥ H) i / (inv_w + H ⬝ᵥ (f.P *ᵥ H))
  let x := f.x + fun i => K i * (z - g)
  let KWm1Kt := vecMulVec (fun i => K i * sigma) (fun i => K i * sigma)
  let ImKG := 1 - vecMulVec K H
  { f with K := K, x := x, P := ImKG * f.P * ImKGᵀ + KWm1Kt }

end Verif.Filters
