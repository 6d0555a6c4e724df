import Verif.Float.InertialModel
import Verif.Float.FrameProps

/-
C185: gravity in the equations of motion in double arithmetic.
-/
namespace Verif.Float.Inertial

open Real
open Verif.Astro (V3 M3)
open Verif.Float.State
open Verif.Float.Frame
open Verif.Forces (c2t rcel2ter rter2cel gravityInertial)

variable {rnd sn cs : ℝ → ℝ}

/-! ### The acceleration -/

/-- **C185** The acceleration.  If the Earth-fixed acceleration computed at the computed position is that of the exact
position up to `η` units `K`, and no component of the exact one exceeds a unit, then every component in the inertial frame
is right to `37 δ + 4e-14 + 4 η` units; `δ` is the error of the entries of the two matrices that are given. -/
theorem acc_error (hr : Nearest rnd) (hl : LibM sn cs) (f f' : ℕ → ℕ → ℕ → ℕ → Bool) {rc2i C rpom P : M3} {era δ η K : ℝ}
    (hC : C.Orthogonal) (hP : P.Orthogonal) (hc : NrM δ rc2i C) (hp : NrM δ rpom P) (h0 : 0 ≤ δ) (hδ : δ ≤ 1 / 10 ^ 6)
    (hK : State.Unit K) (gD g : V3 → V3) (G : V3 → M3) {r : V3}
    (hg : ∀ w : Ax, |w.of (g (rcel2ter r C era P))| ≤ K)
    (he : ∀ w : Ax, |w.of (gD (rcel2terD rnd sn cs f r rc2i era rpom)) - w.of (g (rcel2ter r C era P))| ≤ η * K) (w : Ax) :
    |w.of (accD rnd sn cs f f' gD r rc2i era rpom) - w.of (gravityInertial g G (c2t C era P) r).1| ≤
      (37 * δ + 4 / 10 ^ 14 + 4 * η) * K := by
  have K0 := hK.pos
  have η0 : 0 ≤ η * K := (abs_nonneg _).trans (he .x)
  have η1 : 0 ≤ η := nonneg_of_mul_nonneg_left η0 K0
  unfold accD gravityInertial
  simp only
  have e4 : (c2t C era P).mulVec r = rcel2ter r C era P := rfl
  rw [e4]
  generalize gD (rcel2terD rnd sn cs f r rc2i era rpom) = x at *
  generalize g (rcel2ter r C era P) = X at *
  have size : ∀ w : Ax, |w.of x| ≤ (1 + η) * K := fun w => by
    have := abs_add_le (w.of x - w.of X) (w.of X)
    rw [sub_add_cancel] at this
    linarith [hg w, he w]
  have hs : State.Unit ((1 + η) * K) := by
    unfold State.Unit at *
    exact hK.trans (by linarith)
  have e1 := rter2cel_error hr hl f' (era := era) hC hP hc hp h0 hδ hs size w
  have M := (orth_self (Verif.Forces.c2t_orthogonal C P era hC hP)).transpose
  have e2 := mulVec_diff M he w
  have e3 : |w.of (rter2cel x C era P) - w.of ((c2t C era P).transpose.mulVec X)| ≤ 3 * (η * K) := e2
  have h := abs_add_le (w.of (rter2celD rnd sn cs f' x rc2i era rpom) - w.of (rter2cel x C era P))
    (w.of (rter2cel x C era P) - w.of ((c2t C era P).transpose.mulVec X))
  rw [sub_add_sub_cancel] at h
  have b : allow δ * (1 + η) ≤ 37 * δ + 4 / 10 ^ 14 + η := by
    have : allow δ ≤ 1 / 1000 := by unfold allow; linarith
    have := mul_le_mul_of_nonneg_right this η1
    have e : allow δ = 37 * δ + 4 / 10 ^ 14 := rfl
    rw [mul_add, mul_one]
    linarith
  have := mul_le_mul_of_nonneg_right b K0.le
  linarith

/-- **C185** The same for a field that changes by at most `L` per metre near the exact position, computed to `κ`: the error
of the position in the Earth-fixed frame enters through `L`. -/
theorem acc_error_field (hr : Nearest rnd) (hl : LibM sn cs) (f f' : ℕ → ℕ → ℕ → ℕ → Bool) {rc2i C rpom P : M3}
    {era δ κ L K s : ℝ} (hC : C.Orthogonal) (hP : P.Orthogonal) (hc : NrM δ rc2i C) (hp : NrM δ rpom P) (h0 : 0 ≤ δ)
    (hδ : δ ≤ 1 / 10 ^ 6) (hK : State.Unit K) (hs : State.Unit s) (gD g : V3 → V3) (G : V3 → M3) {r : V3}
    (hrs : ∀ w : Ax, |w.of r| ≤ s) (hg : ∀ w : Ax, |w.of (g (rcel2ter r C era P))| ≤ K)
    (hgD : ∀ y : V3, (∀ w : Ax, |w.of y - w.of (rcel2ter r C era P)| ≤ s / 100) →
      ∀ w : Ax, |w.of (gD y) - w.of (g y)| ≤ κ)
    (hlip : ∀ (y : V3) (d : ℝ), d ≤ s / 100 → (∀ w : Ax, |w.of y - w.of (rcel2ter r C era P)| ≤ d) →
      ∀ w : Ax, |w.of (g y) - w.of (g (rcel2ter r C era P))| ≤ L * d) (w : Ax) :
    |w.of (accD rnd sn cs f f' gD r rc2i era rpom) - w.of (gravityInertial g G (c2t C era P) r).1| ≤
      (37 * δ + 4 / 10 ^ 14) * K + 4 * κ + 4 * L * ((37 * δ + 4 / 10 ^ 14) * s) := by
  have K0 := hK.pos
  have s0 := hs.pos
  have e1 := rcel2ter_error hr hl f (era := era) hC hP hc hp h0 hδ hs hrs
  have small : allow δ * s ≤ s / 100 := by
    have : allow δ ≤ 1 / 100 := by unfold allow; linarith
    have := mul_le_mul_of_nonneg_right this s0.le
    linarith
  have e2 := hlip _ _ small e1
  have η : ∀ w : Ax, |w.of (gD (rcel2terD rnd sn cs f r rc2i era rpom)) - w.of (g (rcel2ter r C era P))| ≤
      (κ + L * (allow δ * s)) / K * K := fun w => by
    rw [div_mul_cancel₀ _ K0.ne']
    have := abs_add_le (w.of (gD (rcel2terD rnd sn cs f r rc2i era rpom)) - w.of (g (rcel2terD rnd sn cs f r rc2i era rpom)))
      (w.of (g (rcel2terD rnd sn cs f r rc2i era rpom)) - w.of (g (rcel2ter r C era P)))
    rw [sub_add_sub_cancel] at this
    linarith [hgD _ (fun w => (e1 w).trans small) w, e2 w]
  have h := acc_error hr hl f f' hC hP hc hp h0 hδ hK gD g G hg η w
  refine h.trans (le_of_eq ?_)
  have e : allow δ = 37 * δ + 4 / 10 ^ 14 := rfl
  rw [← e]
  field_simp
  ring

/-! ### The partials -/

/-- All entries of `m` are those of `M` up to `d` units, and these are at most a unit. -/
structure NrS (s d : ℝ) (m M : M3) : Prop where
  r0 : NrV s d m.r0 M.r0
  r1 : NrV s d m.r1 M.r1
  r2 : NrV s d m.r2 M.r2

theorem NrS.transpose {s d : ℝ} {m M : M3} (h : NrS s d m M) : NrS s d m.transpose M.transpose :=
  ⟨⟨h.r0.x, h.r1.x, h.r2.x⟩, ⟨h.r0.y, h.r1.y, h.r2.y⟩, ⟨h.r0.z, h.r1.z, h.r2.z⟩⟩

theorem dotD_comm (f : ℕ → Bool) (a b : V3) : dotD rnd f a b = dotD rnd f b a := by
  unfold dotD
  simp only [mul_comm b.x, mul_comm b.y, mul_comm b.z]

theorem dot_comm (a b : V3) : a.dot b = b.dot a := by
  simp only [V3.dot, mul_comm b.x, mul_comm b.y, mul_comm b.z]

/-- The entries of a matrix. -/
def ent (m : M3) : Ax → Ax → ℝ
  | .x, w => w.of m.r0
  | .y, w => w.of m.r1
  | .z, w => w.of m.r2

/-- A product, the first factor without unit. -/
theorem mul_left_err (hr : Nearest rnd) (g : ℕ → ℕ → ℕ → Bool) {s d d' : ℝ} {a A b B : M3} (hs : State.Unit s)
    (ha : NrM d a A) (hb : NrS s d' b B) (hd : d ≤ 1 / 10000) (hd' : d' ≤ 1 / 10000) (v w : Ax) :
    |ent (mulD rnd g a b) v w - ent (M3.mul A B) v w| ≤ (3 * d' + 3003 / 1000 * d + 81 / 10 * t) * s := by
  have k : ∀ (i j : ℕ) {p P q Q : V3}, NrV 1 d p P → NrV s d' q Q →
      |dotD rnd (g i j) q p - Q.dot P| ≤ (3 * d' + 3003 / 1000 * d + 81 / 10 * t) * s := fun i j {p P q Q} hp hq => by
    rw [dotD_comm, dot_comm Q]
    exact dot_nr hr (g i j) hs hp hq hd hd'
  have c := hb.transpose
  cases v <;> cases w
  · exact k 0 0 ha.r0 c.r0
  · exact k 0 1 ha.r0 c.r1
  · exact k 0 2 ha.r0 c.r2
  · exact k 1 0 ha.r1 c.r0
  · exact k 1 1 ha.r1 c.r1
  · exact k 1 2 ha.r1 c.r2
  · exact k 2 0 ha.r2 c.r0
  · exact k 2 1 ha.r2 c.r1
  · exact k 2 2 ha.r2 c.r2

/-- A product, the second factor without unit. -/
theorem mul_right_err (hr : Nearest rnd) (g : ℕ → ℕ → ℕ → Bool) {s d d' : ℝ} {a A b B : M3} (hs : State.Unit s)
    (ha : NrS s d' a A) (hb : NrM d b B) (hd : d ≤ 1 / 10000) (hd' : d' ≤ 1 / 10000) (v w : Ax) :
    |ent (mulD rnd g a b) v w - ent (M3.mul A B) v w| ≤ (3 * d' + 3003 / 1000 * d + 81 / 10 * t) * s := by
  have c := hb.transpose
  cases v <;> cases w
  · exact dot_nr hr (g 0 0) hs c.r0 ha.r0 hd hd'
  · exact dot_nr hr (g 0 1) hs c.r1 ha.r0 hd hd'
  · exact dot_nr hr (g 0 2) hs c.r2 ha.r0 hd hd'
  · exact dot_nr hr (g 1 0) hs c.r0 ha.r1 hd hd'
  · exact dot_nr hr (g 1 1) hs c.r1 ha.r1 hd hd'
  · exact dot_nr hr (g 1 2) hs c.r2 ha.r1 hd hd'
  · exact dot_nr hr (g 2 0) hs c.r0 ha.r2 hd hd'
  · exact dot_nr hr (g 2 1) hs c.r1 ha.r2 hd hd'
  · exact dot_nr hr (g 2 2) hs c.r2 ha.r2 hd hd'

theorem NrS.of_ent {s d : ℝ} {m M : M3} (h : ∀ v w : Ax, |ent m v w - ent M v w| ≤ d * s)
    (hb : ∀ v w : Ax, |ent M v w| ≤ s) : NrS s d m M := by
  have k : ∀ v w : Ax, Nr s d 1 (ent m v w) (ent M v w) := fun v w => ⟨h v w, by rw [one_mul]; exact hb v w⟩
  exact ⟨⟨k .x .x, k .x .y, k .x .z⟩, ⟨k .y .x, k .y .y, k .y .z⟩, ⟨k .z .x, k .z .y, k .z .z⟩⟩

/-- Entries of the product of a matrix with entries up to one and a matrix with entries up to `K` are at most `3 K`. -/
theorem mul_size {K : ℝ} {A B : M3} (ha : NrM 0 A A) (hb : ∀ v w : Ax, |ent B v w| ≤ K) (v w : Ax) :
    |ent (M3.mul A B) v w| ≤ 3 * K := by
  have p : ∀ {a b : ℝ}, |a| ≤ 1 * 1 → |b| ≤ K → |b * a| ≤ K := fun {a b} h1 h2 => by
    rw [abs_mul]
    have := mul_le_mul h2 h1 (abs_nonneg _) ((abs_nonneg _).trans h2)
    linarith
  have k : ∀ {a b : V3}, NrV 1 0 a a → |b.x| ≤ K → |b.y| ≤ K → |b.z| ≤ K → |b.dot a| ≤ 3 * K := fun {a b} h x y z => by
    have h1 := p h.x.size x
    have h2 := p h.y.size y
    have h3 := p h.z.size z
    have := abs_add_three (b.x * a.x) (b.y * a.y) (b.z * a.z)
    unfold V3.dot
    linarith
  cases v <;> cases w
  · exact k ha.r0 (hb .x .x) (hb .y .x) (hb .z .x)
  · exact k ha.r0 (hb .x .y) (hb .y .y) (hb .z .y)
  · exact k ha.r0 (hb .x .z) (hb .y .z) (hb .z .z)
  · exact k ha.r1 (hb .x .x) (hb .y .x) (hb .z .x)
  · exact k ha.r1 (hb .x .y) (hb .y .y) (hb .z .y)
  · exact k ha.r1 (hb .x .z) (hb .y .z) (hb .z .z)
  · exact k ha.r2 (hb .x .x) (hb .y .x) (hb .z .x)
  · exact k ha.r2 (hb .x .y) (hb .y .y) (hb .z .y)
  · exact k ha.r2 (hb .x .z) (hb .y .z) (hb .z .z)

/-- **C185** The partials.  If the Earth-fixed partials are right to `η` units `K` and no exact entry exceeds a unit, every
entry of the product the code forms is right to `9 η + 221 δ + 2e-13` units with respect to the exact product
`U G Uᵀ` (which is not the derivative in the inertial frame, C58). -/
theorem part_error (hr : Nearest rnd) (hl : LibM sn cs) (f f' g : ℕ → ℕ → ℕ → ℕ → Bool) {rc2i C rpom P : M3} {era δ η K : ℝ}
    (hC : C.Orthogonal) (hP : P.Orthogonal) (hc : NrM δ rc2i C) (hp : NrM δ rpom P) (h0 : 0 ≤ δ) (hδ : δ ≤ 1 / 10 ^ 6)
    (hK : State.Unit K) (hη : η ≤ 1 / 10 ^ 5) {G : M3} (gr : V3 → V3) (H : V3 → M3) {r : V3}
    (hH : ∀ v w : Ax, |ent (H (rcel2ter r C era P)) v w| ≤ K)
    (he : ∀ v w : Ax, |ent G v w - ent (H (rcel2ter r C era P)) v w| ≤ η * K) (v w : Ax) :
    |ent (partD rnd sn cs f f' g G rc2i era rpom) v w - ent (gravityInertial gr H (c2t C era P) r).2 v w| ≤
      (9 * η + 221 * δ + 2 / 10 ^ 13) * K := by
  have te : t = 12 / 10 ^ 17 := rfl
  have K0 := hK.pos
  have η0 : 0 ≤ η * K := (abs_nonneg _).trans (he .x .x)
  have η1 : 0 ≤ η := nonneg_of_mul_nonneg_left η0 K0
  have m := c2t_nr hr hl f (era := era) hC hP hc hp h0 hδ
  have m' := (c2t_nr hr hl f' (era := era) hC hP hc hp h0 hδ).transpose
  have o := orth_self (Verif.Forces.c2t_orthogonal C P era hC hP)
  unfold partD gravityInertial
  simp only
  have e4 : (c2t C era P).mulVec r = rcel2ter r C era P := rfl
  rw [e4]
  generalize H (rcel2ter r C era P) = X at *
  have b := mul_left_err hr (g 0) hK m (NrS.of_ent he hH) (by linarith) (by linarith)
  have U3 : State.Unit (3 * K) := by
    unfold State.Unit at *
    exact hK.trans (by linarith)
  have c : NrS (3 * K) ((3 * η + 3003 / 1000 * (121 / 10 * δ + 1 / 10 ^ 14) + 81 / 10 * t) / 3)
      (mulD rnd (g 0) (c2tD rnd sn cs f rc2i era rpom) G) (M3.mul (c2t C era P) X) :=
    NrS.of_ent (fun v w => (b v w).trans (le_of_eq (by ring))) (mul_size o hH)
  have d := mul_right_err hr (g 1) U3 c m' (by linarith) (by rw [te]; linarith) v w
  refine d.trans ?_
  rw [← mul_assoc]
  refine mul_le_mul_of_nonneg_right ?_ K0.le
  rw [te]
  linarith

/-! ### Examples -/

/-- A constant field, computed exactly; matrices given exactly. -/
example (f f' : ℕ → ℕ → ℕ → ℕ → Bool) (w : Ax) :
    |w.of (accD rnd64 (fun x => rnd64 (sin x)) (fun x => rnd64 (cos x)) f f' (fun _ => ⟨1, 0, -1 / 2⟩) ⟨7, 8, 9⟩
      (M3.rotX 1) 2 (M3.rotZ 3)) - w.of (gravityInertial (fun _ => ⟨1, 0, -1 / 2⟩) (fun _ => M3.one)
        (c2t (M3.rotX 1) 2 (M3.rotZ 3)) ⟨7, 8, 9⟩).1| ≤ 5 / 10 ^ 14 := by
  have o1 := (M3.rotX_rotation 1).orth
  have o2 := (M3.rotZ_rotation 3).orth
  have h := acc_error rnd64_nearest (libM_rnd rnd64_nearest) f f' (era := 2) (K := 1) (η := 0) o1 o2 (orth_self o1)
    (orth_self o2) le_rfl (by norm_num) unit_one (fun _ => ⟨1, 0, -1 / 2⟩) (fun _ => ⟨1, 0, -1 / 2⟩)
    (fun _ => M3.one) (r := ⟨7, 8, 9⟩) (by intro w; cases w <;> simp only [Ax.of] <;> norm_num [abs_le])
    (by intro w; simp) w
  exact h.trans (by norm_num)

/-- A field proportional to the position, computed with an error of `1e-12`. -/
example (f f' : ℕ → ℕ → ℕ → ℕ → Bool) (w : Ax) :
    |w.of (accD rnd64 (fun x => rnd64 (sin x)) (fun x => rnd64 (cos x)) f f'
      (fun y => ⟨-y.x + 1 / 10 ^ 12, -y.y, -y.z⟩) ⟨1, 1, 1⟩ M3.one 0 M3.one) -
      w.of (gravityInertial (fun y => ⟨-y.x, -y.y, -y.z⟩) (fun _ => M3.one) (c2t M3.one 0 M3.one) ⟨1, 1, 1⟩).1| ≤
      5 / 10 ^ 12 := by
  have o : M3.one.Orthogonal := M3.mul_one _
  have e : rcel2ter ⟨1, 1, 1⟩ M3.one 0 M3.one = ⟨1, 1, 1⟩ := by
    simp [rcel2ter, c2t, M3.mul, M3.mulVec, M3.transpose, M3.one, M3.rotZ, V3.dot]
  have h := acc_error_field rnd64_nearest (libM_rnd rnd64_nearest) f f' (era := 0) (K := 1) (s := 1) (L := 1)
    (κ := 1 / 10 ^ 12) o o (orth_self o) (orth_self o) le_rfl (by norm_num) unit_one unit_one
    (fun y => ⟨-y.x + 1 / 10 ^ 12, -y.y, -y.z⟩) (fun y => ⟨-y.x, -y.y, -y.z⟩) (fun _ => M3.one) (r := ⟨1, 1, 1⟩)
    (by intro w; cases w <;> simp [Ax.of]) (by rw [e]; intro w; cases w <;> simp [Ax.of])
    (by intro y _ w; cases w <;> simp [Ax.of])
    (by
      rw [e]
      intro y d _ hd w
      have := hd w
      cases w <;> simp only [Ax.of] at this ⊢ <;> rw [one_mul, neg_sub_neg, abs_sub_comm] <;> exact this) w
  exact h.trans (by norm_num)

example (f f' g : ℕ → ℕ → ℕ → ℕ → Bool) (v w : Ax) :
    |ent (partD rnd64 (fun x => rnd64 (sin x)) (fun x => rnd64 (cos x)) f f' g M3.one (M3.rotX 1) 2 (M3.rotZ 3)) v w -
      ent (gravityInertial (fun _ => ⟨1, 0, -1 / 2⟩) (fun _ => M3.one) (c2t (M3.rotX 1) 2 (M3.rotZ 3)) ⟨7, 8, 9⟩).2 v w| ≤
      3 / 10 ^ 13 := by
  have o1 := (M3.rotX_rotation 1).orth
  have o2 := (M3.rotZ_rotation 3).orth
  have h := part_error rnd64_nearest (libM_rnd rnd64_nearest) f f' g (era := 2) (K := 1) (η := 0) o1 o2 (orth_self o1)
    (orth_self o2) le_rfl (by norm_num) unit_one (by norm_num) (G := M3.one) (fun _ => ⟨1, 0, -1 / 2⟩) (fun _ => M3.one)
    (r := ⟨7, 8, 9⟩) (by intro v w; cases v <;> cases w <;> simp [ent, Ax.of, M3.one]) (by intro v w; simp) v w
  exact h.trans (by norm_num)

end Verif.Float.Inertial
