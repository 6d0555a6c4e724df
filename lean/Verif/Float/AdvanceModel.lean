import Verif.Float.Arith

/-
The independent variable and the step size of the integrator in double arithmetic
(src/integrators/sgode_step.cpp, sgode_de.cpp).

The error estimates come from the differential equation; here they are arbitrary values, NaN and
infinities included.  `x`, `h`, `eps` are finite; their overflow is not modelled.
-/
namespace Verif.Float

/-- `fouru * std::abs(x)` with `fouru = 4 * 2^-52` (src/integrators/sgode_step.cpp:7-9, 26). -/
noncomputable def fourU (rnd : ℝ → ℝ) (x : ℝ) : ℝ := rnd (2 ^ (-50 : ℤ) * |x|)

/-- `std::copysign`; a zero counts as positive. -/
noncomputable def signed (a b : ℝ) : ℝ := open Classical in if b < 0 then -|a| else |a|

/-- The estimates of one attempt, `err` and `erk` (src/integrators/sgode_step.cpp:255-257). -/
structure Attempt where
  err : D
  erk : D

/-- What a call of `step` does: step accepted (new `x`, used `h`), refused with crash set (new `h`),
or still in the loop after the given number of attempts. -/
inductive StepOut where
  | accepted (x h : ℝ)
  | refused (h : ℝ)
  | running

/-- `err <= eps` (src/integrators/sgode_step.cpp:273); false for NaN. -/
def D.leFin : D → ℝ → Prop
  | .fin a, b => a ≤ b
  | .inf s, _ => s = true
  | .nan, _ => False

/-- The factor `t2` (src/integrators/sgode_step.cpp:302-309), `ifail` after its increment. -/
noncomputable def shrinkD (rnd : ℝ → ℝ) (p5eps : ℝ) (ifail : ℤ) (erk : D) : D :=
  open Classical in
  if ifail < 3 ∧ D.lt (.fin p5eps) (D.mul rnd (.fin (1 / 4)) erk) then
    D.sqrt rnd (D.div rnd (.fin p5eps) erk)
  else .fin (1 / 2)

/-- `h = t2 * h` (src/integrators/sgode_step.cpp:310).  A factor that is not finite does not occur
(`shrinkD_half`). -/
noncomputable def scaleD (rnd : ℝ → ℝ) (t : D) (h : ℝ) : ℝ :=
  match t with
  | .fin t => rnd (t * h)
  | _ => h

/-- The loop (src/integrators/sgode_step.cpp:80-325) for its effect on `x` and `h`; `fuel` bounds the
number of attempts. -/
noncomputable def stepLoopD (rnd : ℝ → ℝ) (eps p5eps x : ℝ) (est : ℕ → Attempt) :
    ℕ → ℕ → ℤ → ℝ → StepOut
  | 0, _, _, _ => .running
  | fuel + 1, i, ifail, h =>
    open Classical in
    if (est i).err.leFin eps then .accepted (rnd (x + h)) h
    else
      let h' := scaleD rnd (shrinkD rnd p5eps (ifail + 1) (est i).erk) h
      if ¬ |h'| ≥ fourU rnd x then .refused (signed (fourU rnd x) h')
      else stepLoopD rnd eps p5eps x est fuel (i + 1) (ifail + 1) h'

/-- The first step size (src/integrators/sgode_step.cpp:54-58).  A root that is not finite stands
for the size given. -/
noncomputable def firstH (rnd : ℝ → ℝ) (eps x h : ℝ) (sum : D) : ℝ :=
  open Classical in
  let absh :=
    if D.lt (.fin eps) (D.mul rnd (D.mul rnd (D.mul rnd (.fin 16) sum) (.fin h)) (.fin h)) then
      match D.sqrt rnd (D.div rnd (.fin eps) sum) with
      | .fin r => rnd (1 / 4 * r)
      | _ => |h|
    else |h|
  signed (if absh < fourU rnd x then fourU rnd x else absh) h

/-- `step` (src/integrators/sgode_step.cpp:18-325) for its effect on `x` and `h`.  `round` and `sum`
are the norms of lines 35 and 54, `ifail` is indeterminate unless `start` is set. -/
noncomputable def stepD (rnd : ℝ → ℝ) (eps x h : ℝ) (start : Bool) (round sum : D) (garbage : ℤ)
    (est : ℕ → Attempt) (fuel : ℕ) : StepOut :=
  open Classical in
  if |h| < fourU rnd x then .refused (signed (fourU rnd x) h)
  else if D.lt (.fin (rnd (1 / 2 * eps))) round then .refused h
  else if start then
    stepLoopD rnd eps (rnd (1 / 2 * eps)) x est fuel 0 0 (firstH rnd eps x h sum)
  else stepLoopD rnd eps (rnd (1 / 2 * eps)) x est fuel 0 garbage h

/-- The step size is limited by the last point allowed (src/integrators/sgode_de.cpp:131). -/
noncomputable def limitD (rnd : ℝ → ℝ) (tend x h : ℝ) : ℝ := signed (min |h| |rnd (tend - x)|) h

/-- The last point allowed (src/integrators/sgode_de.cpp:64-68). -/
noncomputable def tendD (rnd : ℝ → ℝ) (stop : Bool) (t tout : ℝ) : ℝ :=
  if stop then tout else rnd (t + rnd (10 * rnd (tout - t)))

end Verif.Float
