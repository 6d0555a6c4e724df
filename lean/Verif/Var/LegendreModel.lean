import Mathlib.Analysis.SpecialFunctions.Trigonometric.Basic

/-
Model of `plegendre` (var/legendre.cc).  Numbers are reals; the constant `ngpt::DPI` is pi; the products of integers
in line 35 are exact (l up to 46340).
-/
namespace Verif.Var.Legendre

/-- The product (var/legendre.cc:10-19): `pmm` and `fact` after so many passes. -/
noncomputable def product (omx2 : ℝ) : Nat → ℝ × ℝ
  | 0 => (1, 1)
  | n + 1 =>
    let (pmm, fact) := product omx2 n
    (pmm * (omx2 * fact / (fact + 1)), fact + 2)

/-- The loop over the degrees (var/legendre.cc:34-40): `n` passes from `ll` on; `pll` at the start holds no value. -/
noncomputable def degrees (m : Nat) (x : ℝ) : Nat → Nat → ℝ → ℝ → ℝ → ℝ → ℝ
  | 0, _, _, _, _, pll => pll
  | n + 1, ll, oldfact, pmm, pmmp1, _ =>
    let fact := Real.sqrt ((4 * (ll : ℝ) * ll - 1) / ((ll : ℝ) * ll - (m : ℝ) * m))
    let pll := (x * pmmp1 - pmm / oldfact) * fact
    degrees m x n (ll + 1) fact pmmp1 pll pll

/-- `plegendre` without the assertions (var/legendre.cc:10-43); `junk`: the value of `pll` before the first pass. -/
noncomputable def body (junk : ℝ) (l m : Nat) (x : ℝ) : ℝ :=
  let pmm := if m > 0 then (product ((1 - x) * (1 + x)) m).1 else 1
  let pmm := Real.sqrt ((2 * m + 1) * pmm / (4 * Real.pi))
  let pmm := if m % 2 = 1 then -pmm else pmm
  if l = m then pmm
  else
    let pmmp1 := x * Real.sqrt (2 * m + 3) * pmm
    if l = m + 1 then pmmp1
    else degrees m x (l + 1 - (m + 2)) (m + 2) (Real.sqrt (2 * m + 3)) pmm pmmp1 junk

open Classical in
/-- `plegendre` (var/legendre.cc:6-45); `none`: an assertion fails. -/
noncomputable def plegendre (junk : ℝ) (l m : Int) (x : ℝ) : Option ℝ :=
  if 0 ≤ m ∧ m ≤ l then
    if |x| ≤ 1 then some (body junk l.toNat m.toNat x) else none
  else none

end Verif.Var.Legendre
