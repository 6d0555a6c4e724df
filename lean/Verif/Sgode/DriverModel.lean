import Verif.Sgode.Model

/-
Model of the driver `SGOde::de` (src/integrators/sgode_de.cpp).  `step` and `intrp` are parameters:
the statements are about the decisions of the driver for every behaviour of the step routine.
-/
namespace Verif.Sgode

variable {K : Type} [Field K] [LinearOrder K] {n : Nat}

/-- The members used by the driver only. -/
structure Drv (K : Type) (n : Nat) where
  st : St K n
  iflag : Int
  relerr : K
  abserr : K
  told : K
  delsgn : K
  isnold : Int

/-- What the driver calls: a step (new state, tolerance, crash), the interpolation, the right-hand
side; `fouru` is the constant of sgode_de.cpp:9. -/
structure DExt (K : Type) (n : Nat) where
  step : St K n → K → St K n × K × Bool
  intrp : St K n → K → Vec K n × Vec K n
  f : K → Vec K n → Vec K n
  fouru : K

/-- What a call leaves: return value, members, `t`, `yout`, number of calls of `step`. -/
structure DOut (K : Type) (n : Nat) where
  ret : Int
  drv : Drv K n
  t : K
  yout : Vec K n
  calls : Nat

/-- `maxnum` (sgode_de.cpp:26). -/
def maxnum : Nat := 500

/-- The loop (sgode_de.cpp:89-154); `kle4` and `stiff` of sgode_de.cpp:71-72, `tend` and `absdel` as in
sgode_de.cpp:65-68.  The counter `nostep` is kept as `rem = maxnum - nostep`. -/
def deLoop (e : DExt K n) (tout t tend absdel releps abseps : K) (isn : Int) :
    Nat → Drv K n → K → Nat → Bool → DOut K n
  | rem, d, eps, kle4, stiff =>
    let s := d.st
    if |s.x - t| ≥ absdel then
      let y := e.intrp s tout
      ⟨0, { d with st := { s with ypout := y.2 }, iflag := 2, told := tout, isnold := isn }, tout, y.1, maxnum - rem⟩
    else if ¬ (isn > 0 ∨ |tout - s.x| ≥ e.fouru * |s.x|) then
      let h := tout - s.x
      let yp := e.f s.x s.yy
      ⟨0, { d with st := { s with h := h, yp := yp }, iflag := 2, told := tout, isnold := isn }, tout,
        s.yy + h • yp, maxnum - rem⟩
    else
      match rem with
      | 0 => ⟨1, { d with iflag := if stiff then isn * 5 else isn * 4, told := s.x, isnold := 1 }, s.x, s.yy, maxnum⟩
      | rem + 1 =>
        let s1 : St K n := { s with h := copysign (min |s.h| |tend - s.x|) s.h, wt := fun i => releps * |s.yy i| + abseps }
        let r := e.step s1 eps
        let s2 := r.1
        if r.2.2 then
          ⟨1, { d with st := s2, iflag := isn * 3, relerr := r.2.1 * releps, abserr := r.2.1 * abseps,
                       told := s2.x, isnold := 1 }, s2.x, s2.yy, maxnum - rem⟩
        else
          let kle4' := if s2.kold > 4 then 0 else kle4 + 1
          deLoop e tout t tend absdel releps abseps isn rem { d with st := s2 } r.2.1 kle4'
            (if kle4' ≥ 50 then true else stiff)

/-- `SGOde::de` (sgode_de.cpp:11-157) for `n` equations. -/
def de (e : DExt K n) (d : Drv K n) (t tout : K) (y0 yout : Vec K n) : DOut K n :=
  let eps := max d.relerr d.abserr
  if n < 1 ∨ t = tout ∨ (d.relerr < 0 ∨ d.abserr < 0) ∨ eps < 0 ∨ d.iflag = 0 ∨
      (t ≠ d.told ∧ d.iflag.natAbs ≠ 1) then
    ⟨1, { d with iflag := 6 }, t, yout, 0⟩
  else
    let isn : Int := if d.iflag < 0 then -1 else 1
    let iflag : Int := d.iflag.natAbs
    let d := { d with iflag := iflag }
    if iflag > 5 then ⟨1, d, t, yout, 0⟩
    else
      let del := tout - t
      let absdel := |del|
      let tend := if isn < 0 then tout else t + 10 * del
      let releps := d.relerr / eps
      let abseps := d.abserr / eps
      let d :=
        if d.delsgn * del ≤ 0 ∨ iflag = 1 then
          { d with
            delsgn := copysign 1 del
            st := { d.st with x := t, yy := y0, start := true,
                              h := copysign (max |tout - t| (e.fouru * |t|)) (tout - t) } }
        else d
      deLoop e tout t tend absdel releps abseps isn maxnum d eps 0 false

end Verif.Sgode
