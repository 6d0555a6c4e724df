import Verif.Astro.Vec
import Mathlib.Analysis.SpecialFunctions.Sqrt
import Mathlib.Analysis.SpecialFunctions.Trigonometric.Deriv
import Mathlib.Analysis.Calculus.Deriv.Inv

/-
Differentiation along a path in space: the specification of "the partials are the derivatives"
used for the force models.
-/
namespace Verif.Forces

open Real Verif.Astro

/-- The path `p` has velocity `p'` at time `t`. -/
structure HasVel (p : ℝ → V3) (p' : V3) (t : ℝ) : Prop where
  x : HasDerivAt (fun s => (p s).x) p'.x t
  y : HasDerivAt (fun s => (p s).y) p'.y t
  z : HasDerivAt (fun s => (p s).z) p'.z t

/-- The matrix `J` is the derivative of the field `f` at `x0`: every path through `x0` is carried
to a path with velocity `J p'`. -/
def IsJacobian (f : V3 → V3) (J : M3) (x0 : V3) : Prop :=
  ∀ (p : ℝ → V3) (p' : V3) (t : ℝ), p t = x0 → HasVel p p' t → HasVel (fun s => f (p s)) (J.mulVec p') t

theorem HasVel.congr {p : ℝ → V3} {a b : V3} {t : ℝ} (h : HasVel p a t) (e : a = b) : HasVel p b t := e ▸ h

theorem hasVel_const (c : V3) (t : ℝ) : HasVel (fun _ => c) ⟨0, 0, 0⟩ t :=
  ⟨hasDerivAt_const _ _, hasDerivAt_const _ _, hasDerivAt_const _ _⟩

theorem HasVel.add {p q : ℝ → V3} {a b : V3} {t : ℝ} (hp : HasVel p a t) (hq : HasVel q b t) :
    HasVel (fun s => (p s).add (q s)) (a.add b) t := ⟨hp.x.add hq.x, hp.y.add hq.y, hp.z.add hq.z⟩

theorem HasVel.sub {p q : ℝ → V3} {a b : V3} {t : ℝ} (hp : HasVel p a t) (hq : HasVel q b t) :
    HasVel (fun s => (p s).sub (q s)) (a.sub b) t := ⟨hp.x.sub hq.x, hp.y.sub hq.y, hp.z.sub hq.z⟩

theorem HasVel.smul {p : ℝ → V3} {a : V3} {k : ℝ → ℝ} {k' t : ℝ} (hp : HasVel p a t) (hk : HasDerivAt k k' t) :
    HasVel (fun s => (p s).smul (k s)) (((p t).smul k').add (a.smul (k t))) t :=
  ⟨hk.mul hp.x, hk.mul hp.y, hk.mul hp.z⟩

theorem HasVel.mulVec {p : ℝ → V3} {a : V3} {t : ℝ} (m : M3) (hp : HasVel p a t) :
    HasVel (fun s => m.mulVec (p s)) (m.mulVec a) t :=
  ⟨((hp.x.const_mul m.r0.x).add (hp.y.const_mul m.r0.y)).add (hp.z.const_mul m.r0.z),
   ((hp.x.const_mul m.r1.x).add (hp.y.const_mul m.r1.y)).add (hp.z.const_mul m.r1.z),
   ((hp.x.const_mul m.r2.x).add (hp.y.const_mul m.r2.y)).add (hp.z.const_mul m.r2.z)⟩

theorem HasVel.dot {p q : ℝ → V3} {a b : V3} {t : ℝ} (hp : HasVel p a t) (hq : HasVel q b t) :
    HasDerivAt (fun s => (p s).dot (q s)) (a.dot (q t) + (p t).dot b) t := by
  have := ((hp.x.mul hq.x).add (hp.y.mul hq.y)).add (hp.z.mul hq.z)
  refine this.congr_deriv ?_
  simp only [V3.dot]
  ring

theorem HasVel.norm {p : ℝ → V3} {a : V3} {t : ℝ} (hp : HasVel p a t) (h0 : p t ≠ ⟨0, 0, 0⟩) :
    HasDerivAt (fun s => (p s).norm) ((p t).dot a / (p t).norm) t := by
  have hpos : 0 < (p t).norm := V3.norm_pos _ h0
  have hne : (p t).dot (p t) ≠ 0 := by
    rw [← V3.norm_sq]
    exact (mul_pos hpos hpos).ne'
  refine ((hp.dot hp).sqrt hne).congr_deriv ?_
  have hc : a.dot (p t) = (p t).dot a := by simp only [V3.dot]; ring
  rw [hc]
  unfold V3.norm
  ring

end Verif.Forces
