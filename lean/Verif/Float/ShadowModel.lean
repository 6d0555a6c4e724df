import Verif.Float.AngleModel
import Verif.Forces.Model
import Verif.Forces.ShadowModel

/-
The shadow functions of src/astrodynamics/occultation.cpp in double arithmetic, NaN as `none`.
Constants of outside libraries and the compile-time constants made of them are parameters.
-/
namespace Verif.Float

open Verif.Astro (V3)
open Real

/-- `a <= b` with a possible NaN on the left: false. -/
def leO (a : Option ℝ) (b : ℝ) : Prop :=
  match a with
  | some x => x ≤ b
  | none => False

/-- `vallado_shadow` (src/astrodynamics/occultation.cpp:17-44); `tanApen`, `x`, `tanAumb`, `y` as
computed at compile time (29-32, 36-39). -/
noncomputable def valladoShadowD (rnd : ℝ → ℝ) (fused : Bool) (tanApen x tanAumb y : ℝ)
    (rsat rsun : V3) : ℝ :=
  open Classical in
  let product := dotD rnd rsat rsun
  if product ≥ 0 then 1 else
  let r := normD rnd fused rsat
  let s := normD rnd fused rsun
  match quotD rnd product (rnd (r * s)) with
  | none => 1
  | some cosz =>
    let zeta := acosD rnd cosz
    let sinz := zeta.map fun z => rnd (sin z)
    let sath := rnd (r * cosz)
    let satv := sinz.map fun s => rnd (r * s)
    let penv := rnd (tanApen * rnd (x + sath))
    if leO satv penv then
      let umbv := rnd (tanAumb * rnd (y - sath))
      if leO satv umbv then 0 else 1 / 2
    else 1

/-- The projection and the distance vector of `montebruck_shadow`, vector overload
(src/astrodynamics/occultation.cpp:48-50). -/
noncomputable def projectD (rnd : ℝ → ℝ) (fused : Bool) (rsat rsun : V3) : ℝ × V3 :=
  let n := normD rnd fused rsun
  let w : V3 := ⟨rnd (rsun.x / n), rnd (rsun.y / n), rnd (rsun.z / n)⟩
  let s := dotD rnd rsat w
  (s, ⟨rnd (rsat.x - rnd (s * w.x)), rnd (rsat.y - rnd (s * w.y)), rnd (rsat.z - rnd (s * w.z))⟩)

/-- `montebruck_shadow`, vector overload (src/astrodynamics/occultation.cpp:46-52), for a Sun vector
whose computed norm is not zero. -/
noncomputable def montebruckShadowD (rnd : ℝ → ℝ) (fused : Bool) (Re : ℝ) (rsat rsun : V3) : ℝ :=
  open Classical in
  let p := projectD rnd fused rsat rsun
  if p.1 > 0 ∨ normD rnd fused p.2 > Re then 1 else 0

/-- `bernese_shadow1` (src/astrodynamics/occultation.cpp:62-73); `fac` as computed at compile time.
The compiler may fuse the product and the difference of line 70. -/
noncomputable def berneseShadowD (rnd : ℝ → ℝ) (fused : Bool) (fac Re : ℝ) (rsat rsun : V3) : ℝ :=
  open Classical in
  let zsat : V3 := ⟨rsat.x, rsat.y, rnd (rsat.z * fac)⟩
  let zsun : V3 := ⟨rsun.x, rsun.y, rnd (rsun.z * fac)⟩
  let rn := normD rnd fused zsun
  let rsat2 := normSqD rnd fused zsat
  match quotD rnd (dotD rnd zsat zsun) rn with
  | none => 1
  | some rcos =>
    let d := if fused then rnd (rsat2 - rcos * rcos) else rnd (rsat2 - rnd (rcos * rcos))
    let rsin := sqrtD rnd d
    if rcos < 0 ∧ (∃ q, rsin = some q ∧ rnd (q - Re) < 0) then 0 else 1

/-- The part of `conical_shadow` after the three angles
(src/astrodynamics/occultation.cpp:83-98). -/
noncomputable def conicalAnglesD (rnd : ℝ → ℝ) (te ts tes : ℝ) : Option ℝ :=
  open Classical in
  if tes ≥ rnd (te + ts) then some 1 else
  if tes ≤ rnd (te - ts) then some 0 else
  let ts2 := rnd (ts * ts)
  let te2 := rnd (te * te)
  let tes2 := rnd (tes * tes)
  ((quotD rnd (rnd (rnd (ts2 + tes2) - te2)) (rnd (rnd (2 * ts) * tes))).bind (acosD rnd)).bind
    fun caf =>
  ((quotD rnd (rnd (rnd (te2 + tes2) - ts2)) (rnd (rnd (2 * te) * tes))).bind (acosD rnd)).bind
    fun cbd =>
  let Safc := rnd (rnd (0.5 * caf) * ts2)
  let Saec := rnd (rnd (0.5 * rnd (ts * rnd (sin caf))) * rnd (ts * rnd (cos caf)))
  let Sbdc := rnd (rnd (0.5 * cbd) * te2)
  let Sbec := rnd (rnd (0.5 * rnd (te * rnd (sin cbd))) * rnd (te * rnd (cos cbd)))
  let S := rnd (rnd (2 * rnd (Safc - Saec)) + rnd (2 * rnd (Sbdc - Sbec)))
  (quotD rnd S (rnd (rnd π * ts2))).map fun q => rnd (1 - q)

/-- `conical_shadow` (src/astrodynamics/occultation.cpp:75-99): a NaN among the three angles makes
both comparisons false and the result NaN. -/
noncomputable def conicalShadowD (rnd : ℝ → ℝ) (fused : Bool) (Re Rs : ℝ) (rsat rsun : V3) :
    Option ℝ :=
  let d : V3 := ⟨rnd (rsun.x - rsat.x), rnd (rsun.y - rsat.y), rnd (rsun.z - rsat.z)⟩
  let n := normD rnd fused d
  let te := (quotD rnd Re (normD rnd fused rsat)).bind (asinD rnd)
  let ts := (quotD rnd Rs n).bind (asinD rnd)
  let tes := (quotD rnd (-dotD rnd rsat d) (rnd (n * normD rnd fused rsat))).bind (acosD rnd)
  te.bind fun te => ts.bind fun ts => tes.bind fun tes => conicalAnglesD rnd te ts tes

end Verif.Float
