import Verif.Pod.ObsModel
import Verif.SystemInfo.Props
import Verif.Forces.Deriv
import Mathlib.Analysis.Real.Pi.Bounds
import Mathlib.Analysis.SpecialFunctions.Trigonometric.Bounds
import Mathlib.Tactic.LinearCombination
import Mathlib.Tactic.Positivity
import Mathlib.Tactic.FieldSimp

/-
C98 (ionosphere), C99 (residual of an error-free observation), C100 (design vector), C101
(weights).
-/
namespace Verif.Pod

open Verif.Astro Verif.Filters Verif.SystemInfo Verif.Forces

/-! ### C98 -/

/-- Specification: the phases of both channels measured over the distance `rho` through the
electron content `iono` (spec of C12), the correction computed from them as in
test/rinex_pod.cpp:809-811. -/
structure Through (k : Count) (e : End) (rho iono f2 : ℝ) : Prop where
  l1 : e.L1 = carrier rho iono k.feN k.C
  corr : e.diono = carrierIonoCorrection (carrier rho iono k.feN k.C) (carrier rho iono f2 k.C)

/-- The same count without ionosphere. -/
noncomputable def Count.vacuum (k : Count) (rho rho' : ℝ) : ℝ :=
  k.C / k.feN * (k.feN - k.frT - (rho / k.C * k.feN - rho' / k.C * k.feN) / k.dt)
    + (k.cur.drel - k.prev.drel) / k.dt

theorem diono_eq {k : Count} {e : End} {rho iono f2 : ℝ} (h : Through k e rho iono f2) (hf2 : f2 ≠ 0)
    (hr : k.feN = gammaSqrt * f2) : e.diono = rho / k.C * k.feN - e.L1 := by
  have := iono_removed rho iono k.feN f2 k.C hf2 hr
  have hz : carrier rho 0 k.feN k.C = rho / k.C * k.feN := by unfold carrier; ring
  rw [h.corr, h.l1]
  linear_combination this + hz

/-- The effect of the ionosphere on the measured range rate, exactly. -/
theorem uobs_iono (k : Count) (rho iono rho' iono' f2 : ℝ) (hc : Through k k.cur rho iono f2)
    (hp : Through k k.prev rho' iono' f2) (hf2 : f2 ≠ 0) (hr : k.feN = gammaSqrt * f2) (hC : k.C ≠ 0)
    (hfe : k.feN ≠ 0) :
    k.uobs = k.vacuum rho rho' + 2 * ((iono - iono') / k.feN ^ 2 / k.dt) := by
  unfold Count.uobs Count.vacuum Count.ndopDt Count.dion
  rw [diono_eq hc hf2 hr, diono_eq hp hf2 hr, hc.l1, hp.l1]
  unfold carrier
  by_cases hd : k.dt = 0
  · simp [hd]
  · field_simp
    ring

/-- **C98** The measured range rate is not free of the ionosphere: the correction of both phases is
added where it has to be subtracted, which doubles the effect of a change of the electron content
(the effect on the uncorrected 2 GHz channel is half of it). -/
theorem uobs_iono_counterexample :
    ∃ (k : Count) (rho iono rho' iono' f2 : ℝ), Through k k.cur rho iono f2 ∧ Through k k.prev rho' iono' f2 ∧
      f2 ≠ 0 ∧ k.feN = gammaSqrt * f2 ∧ 0 < k.dt ∧ k.uobs ≠ k.vacuum rho rho' := by
  have hg : (0 : ℝ) < gammaSqrt := by unfold gammaSqrt freq1MHz freq2MHz; norm_num
  let en (iono : ℝ) : End := ⟨carrier 0 iono gammaSqrt 1,
    carrierIonoCorrection (carrier 0 iono gammaSqrt 1) (carrier 0 iono 1 1), 0, 0, 0, 0, ⟨0, 0, 0⟩⟩
  let k : Count := ⟨1, gammaSqrt, gammaSqrt, 1, en 0, en 1, M3.one⟩
  have hc : Through k k.cur 0 1 1 := ⟨rfl, rfl⟩
  have hp : Through k k.prev 0 0 1 := ⟨rfl, rfl⟩
  refine ⟨k, 0, 1, 0, 0, 1, hc, hp, one_ne_zero, (mul_one _).symm, one_pos, ?_⟩
  rw [uobs_iono k 0 1 0 0 1 hc hp one_ne_zero (mul_one _).symm one_ne_zero hg.ne']
  have : (0 : ℝ) < 2 * ((1 - 0) / gammaSqrt ^ 2 / 1) := by positivity
  show _ + 2 * ((1 - 0) / gammaSqrt ^ 2 / 1) ≠ _
  linarith

/-- **C98** (partial: only while the electron content does not change) the measured range rate is that
of the vacuum.  Missing: a change of the content, for which `uobs_iono` gives the error. -/
theorem uobs_iono_partial (k : Count) (rho rho' iono f2 : ℝ) (hc : Through k k.cur rho iono f2)
    (hp : Through k k.prev rho' iono f2) (hf2 : f2 ≠ 0) (hr : k.feN = gammaSqrt * f2) (hC : k.C ≠ 0)
    (hfe : k.feN ≠ 0) : k.uobs = k.vacuum rho rho' := by
  rw [uobs_iono k rho iono rho' iono f2 hc hp hf2 hr hC hfe]
  simp

/-- **C98** With the opposite sign of the correction the result would be free of the ionosphere. -/
theorem uobs_minus (k : Count) (rho iono rho' iono' f2 : ℝ) (hc : Through k k.cur rho iono f2)
    (hp : Through k k.prev rho' iono' f2) (hf2 : f2 ≠ 0) (hr : k.feN = gammaSqrt * f2) :
    k.uobs - 2 * k.dion = k.vacuum rho rho' := by
  unfold Count.uobs Count.vacuum Count.ndopDt Count.dion
  rw [diono_eq hc hf2 hr, diono_eq hp hf2 hr]
  by_cases hd : k.dt = 0
  · simp [hd]
  · by_cases hf : k.feN = 0
    · simp [hf]
    · field_simp
      ring

/-! ### C99 -/

/-- Specification: an error-free count in vacuum.  The receiver with frequency `frT` observes the
emitter of frequency `feN (1 + df)`, which moves away with the mean velocity `v`; the phase grows
with the distance for `sign = 1` (as in the files, and in the spec of C12) and falls for `sign = -1`
(the convention of the article the formula is taken from). -/
structure ErrorFree (k : Count) (sign df : ℝ) : Prop where
  phase : k.ndopDt = sign * (k.frT - k.feN * (1 + df) * (1 - (k.cur.s.norm - k.prev.s.norm) / k.dt / k.C))
  ion : k.cur.diono = k.prev.diono
  rel : k.cur.drel = k.prev.drel
  noTropo : ∀ lwz, k.cur.tropo lwz = k.prev.tropo lwz

/-- The mean range rate. -/
noncomputable def Count.rate (k : Count) : ℝ := (k.cur.s.norm - k.prev.s.norm) / k.dt

/-- The residual of an error-free count with growing phases. -/
theorem oc_grows (k : Count) (df lwz : ℝ) (h : ErrorFree k 1 df) (hfe : k.feN ≠ 0) (hC : k.C ≠ 0) :
    k.oc lwz df = 2 * k.C * (1 - k.frT / k.feN) * (1 + df) - k.rate * (2 + df) * df + k.C * df ^ 2 := by
  unfold Count.oc Count.uobs Count.utheo Count.dion
  rw [h.phase, h.ion, h.rel, h.noTropo]
  have hr : 1 / k.dt * (k.cur.s.norm - k.prev.s.norm) = k.rate := by unfold Count.rate; ring
  have hr' : (k.cur.s.norm - k.prev.s.norm) / k.dt = k.rate := rfl
  rw [hr, hr']
  generalize k.rate = v
  field_simp
  ring

/-- The residual of an error-free count with falling phases. -/
theorem oc_falls (k : Count) (df lwz : ℝ) (h : ErrorFree k (-1) df) (hfe : k.feN ≠ 0) (hC : k.C ≠ 0) :
    k.oc lwz df = 2 * k.rate - 2 * df * (k.C - k.rate) - df ^ 2 * (k.C - k.rate) := by
  unfold Count.oc Count.uobs Count.utheo Count.dion
  rw [h.phase, h.ion, h.rel, h.noTropo]
  have hr : 1 / k.dt * (k.cur.s.norm - k.prev.s.norm) = k.rate := by unfold Count.rate; ring
  have hr' : (k.cur.s.norm - k.prev.s.norm) / k.dt = k.rate := rfl
  rw [hr, hr']
  generalize k.rate = v
  field_simp
  ring

/-- **C99** The two formulas themselves agree with falling phases, to second order in the offset of
the emitter: the measured range rate *minus* the theoretical one.  (The program forms the sum, with
the phases as they are.) -/
theorem difference_falls (k : Count) (df lwz : ℝ) (h : ErrorFree k (-1) df) (hfe : k.feN ≠ 0) (hC : k.C ≠ 0) :
    k.uobs - k.utheo lwz df = df ^ 2 * (k.C - k.rate) := by
  unfold Count.uobs Count.utheo Count.dion
  rw [h.phase, h.ion, h.rel, h.noTropo]
  have hr : 1 / k.dt * (k.cur.s.norm - k.prev.s.norm) = k.rate := by unfold Count.rate; ring
  have hr' : (k.cur.s.norm - k.prev.s.norm) / k.dt = k.rate := rfl
  rw [hr, hr']
  generalize k.rate = v
  field_simp
  ring

/-- **C99** (partial: only for an emitter and a receiver exactly on the nominal frequency) the residual
of an error-free count with growing phases is zero.  Missing: other frequencies (see the
counterexample). -/
theorem oc_zero_partial (k : Count) (lwz : ℝ) (h : ErrorFree k 1 0) (hfe : k.feN ≠ 0) (hC : k.C ≠ 0)
    (hfr : k.frT = k.feN) : k.oc lwz 0 = 0 := by
  rw [oc_grows k 0 lwz h hfe hC, hfr, div_self hfe]
  ring

/-- **C99** The residual of an error-free count does not vanish, whichever the sign of the phases: with
phases growing with the distance a receiver off the nominal frequency leaves twice its offset (the
sign of the whole equation was changed instead of that of the count); with falling phases twice the
range rate remains. -/
theorem oc_counterexample :
    (∃ (k : Count) (lwz : ℝ), ErrorFree k 1 0 ∧ 0 < k.dt ∧ 0 < k.feN ∧ 0 < k.C ∧ k.rate = 0 ∧
      k.oc lwz 0 = 2 * k.C * (1 - k.frT / k.feN) ∧ k.oc lwz 0 ≠ 0) ∧
    (∃ (k : Count) (lwz : ℝ), ErrorFree k (-1) 0 ∧ 0 < k.dt ∧ 0 < k.feN ∧ 0 < k.C ∧ k.frT = k.feN ∧
      k.oc lwz 0 = 2 * k.rate ∧ k.oc lwz 0 ≠ 0) := by
  have hn : (⟨1, 0, 0⟩ : V3).norm = 1 := by simp [V3.norm, V3.dot]
  have hz : (⟨0, 0, 0⟩ : V3).norm = 0 := by simp [V3.norm, V3.dot]
  constructor
  · let k : Count := ⟨1, 1, 2, 1, ⟨0, 0, 0, 0, 0, 0, ⟨0, 0, 0⟩⟩, ⟨1, 0, 0, 0, 0, 0, ⟨0, 0, 0⟩⟩, M3.one⟩
    have h : ErrorFree k 1 0 := by
      refine ⟨?_, rfl, rfl, fun _ => rfl⟩
      simp only [Count.ndopDt, k, hz]
      norm_num
    have ho := oc_grows k 0 0 h (by simp [k]) (by simp [k])
    have h2 : k.oc 0 0 = 2 * k.C * (1 - k.frT / k.feN) := by rw [ho]; ring
    refine ⟨k, 0, h, by simp [k], by simp [k], by simp [k], by simp [Count.rate, k], h2, ?_⟩
    rw [h2]
    simp only [k]
    norm_num
  · let k : Count := ⟨1, 1, 1, 1, ⟨0, 0, 0, 0, 0, 0, ⟨0, 0, 0⟩⟩, ⟨-1, 0, 0, 0, 0, 0, ⟨1, 0, 0⟩⟩, M3.one⟩
    have h : ErrorFree k (-1) 0 := by
      refine ⟨?_, rfl, rfl, fun _ => rfl⟩
      simp only [Count.ndopDt, k, hz, hn]
      norm_num
    have ho := oc_falls k 0 0 h (by simp [k]) (by simp [k])
    have h2 : k.oc 0 0 = 2 * k.rate := by rw [ho]; ring
    refine ⟨k, 0, h, by simp [k], by simp [k], by simp [k], rfl, h2, ?_⟩
    rw [h2]
    simp only [Count.rate, k, hz, hn]
    norm_num

/-! ### C100 -/

/-- The count with both ends seen from the satellite displaced by `d` (terrestrial axes). -/
noncomputable def Count.shift (k : Count) (d : V3) : Count :=
  { k with cur := { k.cur with s := k.cur.s.add (k.R.mulVec d) }, prev := { k.prev with s := k.prev.s.add (k.R.mulVec d) } }

/-- Specification: what the filter predicts for the measured range rate, `-Utheo`, as a function of
all parameters `x`; `x0` are the values at which the positions were computed.  A change of the
satellite position displaces both ends of the count. -/
noncomputable def Count.predict (k : Count) (b : Nat) (el : ℝ) (x0 x : Nat → ℝ) : ℝ :=
  -((k.shift ⟨x 0 - x0 0, x 1 - x0 1, x 2 - x0 2⟩).utheo (x (tropoIndex .linear 1 b)) (rfoffLinear x b el))

/-- One parameter changed by `e`. -/
def bump (x : Nat → ℝ) (j : Nat) (e : ℝ) : Nat → ℝ := fun i => if i = j then x i + e else x i

theorem utheo_shift_deriv (k : Count) (d : V3) (l l' r r' : ℝ) (hc : k.cur.s ≠ ⟨0, 0, 0⟩) (hp : k.prev.s ≠ ⟨0, 0, 0⟩) :
    HasDerivAt (fun e => -((k.shift (d.smul e)).utheo (l + l' * e) (r + r' * e)))
      (-(k.dpos.dot d + l' * ((k.cur.mfw - k.prev.mfw) / k.dt) - k.C / k.feN * (k.ndopDt + k.frT) * r')) 0 := by
  have hid : HasDerivAt (fun e : ℝ => e) 1 0 := hasDerivAt_id 0
  have hz : (k.R.mulVec (d.smul 0)) = ⟨0, 0, 0⟩ := by
    ext <;> simp [M3.mulVec, V3.dot, V3.smul]
  have hv : ∀ s : V3, HasVel (fun e => s.add (k.R.mulVec (d.smul e))) (k.R.mulVec d) 0 := by
    intro s
    have h1 : HasVel (fun e : ℝ => d.smul e) d 0 := by
      refine ((hasVel_const d 0).smul hid).congr ?_
      ext <;> simp [V3.add, V3.smul]
    refine ((hasVel_const s 0).add (h1.mulVec k.R)).congr ?_
    ext <;> simp [V3.add]
  have hat : ∀ s : V3, s.add (k.R.mulVec (d.smul 0)) = s := by
    intro s
    rw [hz]
    ext <;> simp [V3.add]
  have hnc := (hv k.cur.s).norm (by rw [hat]; exact hc)
  have hnp := (hv k.prev.s).norm (by rw [hat]; exact hp)
  rw [hat] at hnc hnp
  have hl : HasDerivAt (fun e : ℝ => l + l' * e) l' 0 := by
    simpa using (hid.const_mul l').const_add l
  have hr : HasDerivAt (fun e : ℝ => r + r' * e) r' 0 := by
    simpa using (hid.const_mul r').const_add r
  have htro : HasDerivAt (fun e : ℝ => (k.cur.tropo (l + l' * e) - k.prev.tropo (l + l' * e)) / k.dt)
      (l' * ((k.cur.mfw - k.prev.mfw) / k.dt)) 0 := by
    have := ((((hl.mul_const k.cur.mfw).const_add (k.cur.lhz * k.cur.mfh)).sub
      ((hl.mul_const k.prev.mfw).const_add (k.prev.lhz * k.prev.mfh)))).div_const k.dt
    refine this.congr_deriv ?_
    ring
  have hall := (((hnc.sub hnp).const_mul (1 / k.dt)).add htro).sub (hr.const_mul (k.C / k.feN * (k.ndopDt + k.frT)))
  refine hall.neg.congr_deriv ?_
  have hdot : k.dpos.dot d
      = 1 / k.dt * (k.cur.s.dot (k.R.mulVec d) / k.cur.s.norm - k.prev.s.dot (k.R.mulVec d) / k.prev.s.norm) := by
    unfold Count.dpos
    simp only [V3.dot, V3.smul, V3.sub, M3.mulVec, M3.transpose]
    ring
  rw [hdot]

theorem predict_bump (k : Count) (b : Nat) (el : ℝ) (x0 : Nat → ℝ) (j : Nat) :
    (fun e => k.predict b el x0 (bump x0 j e))
      = fun e => -((k.shift ((⟨if j = 0 then 1 else 0, if j = 1 then 1 else 0, if j = 2 then 1 else 0⟩ : V3).smul e)).utheo
          (x0 (tropoIndex .linear 1 b) + (if j = tropoIndex .linear 1 b then 1 else 0) * e)
          (rfoffLinear x0 b el + ((if j = rfoffIndex .linear 1 b then 1 else 0)
            + el * (if j = rfoffIndex .linear 1 b + 1 then 1 else 0)) * e)) := by
  funext e
  unfold Count.predict
  congr 2
  · congr 1
    simp only [bump, V3.smul]
    ext <;> simp only [eq_comm (a := j)] <;> split <;> ring
  · simp only [bump, eq_comm (a := j)]
    split <;> ring
  · simp only [bump, rfoffLinear, eq_comm (a := j)]
    split <;> split <;> ring

/-- The derivative of the prediction with respect to one parameter. -/
theorem predict_deriv (k : Count) (b : Nat) (el : ℝ) (x0 : Nat → ℝ) (j : Nat) (hc : k.cur.s ≠ ⟨0, 0, 0⟩)
    (hp : k.prev.s ≠ ⟨0, 0, 0⟩) :
    HasDerivAt (fun e => k.predict b el x0 (bump x0 j e)) (if j = dragIndex then 0 else k.design b el j) 0 := by
  rw [predict_bump]
  refine (utheo_shift_deriv k _ _ _ _ _ hc hp).congr_deriv ?_
  have hti : tropoIndex .linear 1 b = 7 + b * 3 := rfl
  have hri : rfoffIndex .linear 1 b = 7 + b * 3 + 1 := rfl
  have hdi : dragIndex = 6 := rfl
  simp only [Count.design, Count.base, set, V3.dot, hti, hri, hdi]
  by_cases h0 : j = 0
  · subst h0
    simp
    split_ifs <;> first | omega | ring
  by_cases h1 : j = 1
  · subst h1
    simp
    split_ifs <;> first | omega | ring
  by_cases h2 : j = 2
  · subst h2
    simp
    split_ifs <;> first | omega | ring
  simp only [h0, h1, h2, if_false]
  by_cases h6 : j = 6
  · rw [if_pos h6]
    have a1 : ¬ j = 7 + b * 3 := by omega
    have a2 : ¬ j = 7 + b * 3 + 1 := by omega
    have a3 : ¬ j = 7 + b * 3 + 1 + 1 := by omega
    simp only [a1, a2, a3, if_false]
    ring
  rw [if_neg h6]
  by_cases h3 : j = 7 + b * 3
  · have a2 : ¬ j = 7 + b * 3 + 1 := by omega
    have a3 : ¬ j = 7 + b * 3 + 1 + 1 := by omega
    rw [if_pos h3, if_neg a2, if_neg a3, if_pos h3]
    ring
  by_cases h4 : j = 7 + b * 3 + 1
  · have a3 : ¬ j = 7 + b * 3 + 1 + 1 := by omega
    simp only [h4, if_true]
    split_ifs <;> first | omega | ring
  by_cases h5 : j = 7 + b * 3 + 1 + 1
  · simp only [h5, if_true]
    split_ifs <;> first | omega | ring
  simp only [h3, h4, h5, h6, if_false]
  ring

/-- **C100** (partial: all parameters but the drag coefficient) every entry of the design vector is the
derivative of the predicted measurement with respect to that parameter: position, velocity, wet
zenith delay, offset and drift of the beacon clock, all other beacons.  Missing: the entry of the
drag coefficient, which is wrong (see the counterexample). -/
theorem design_partial (k : Count) (b : Nat) (el : ℝ) (x0 : Nat → ℝ) (j : Nat) (hc : k.cur.s ≠ ⟨0, 0, 0⟩)
    (hp : k.prev.s ≠ ⟨0, 0, 0⟩) (hj : j ≠ dragIndex) :
    HasDerivAt (fun e => k.predict b el x0 (bump x0 j e)) (k.design b el j) 0 := by
  have := predict_deriv k b el x0 j hc hp
  rwa [if_neg hj] at this

/-- **C100** The entry of the drag coefficient is -1 for every observation, although the predicted
measurement does not depend on that parameter at all; so every residual is attributed in part to
the drag coefficient. -/
theorem design_drag_counterexample (k : Count) (b : Nat) (el : ℝ) (x0 : Nat → ℝ) :
    k.design b el dragIndex = -1 ∧ ∀ e, k.predict b el x0 (bump x0 dragIndex e) = k.predict b el x0 x0 := by
  constructor
  · have a1 : ¬ (6 : Nat) = 6 + 1 + b * 3 := by omega
    have a2 : ¬ (6 : Nat) = 6 + 1 + b * 3 + 1 := by omega
    have a3 : ¬ (6 : Nat) = 6 + 1 + b * 3 + 1 + 1 := by omega
    simp [Count.design, Count.base, set, tropoIndex, rfoffIndex, dragIndex, a1, a2, a3]
  · intro e
    have h := fun i => bump x0 dragIndex e i
    have a1 : ¬ (6 + 1 + b * 3 : Nat) = 6 := by omega
    have a2 : ¬ (6 + 1 + b * 3 + 1 : Nat) = 6 := by omega
    have a3 : ¬ (6 + 1 + b * 3 + 1 + 1 : Nat) = 6 := by omega
    simp [Count.predict, bump, rfoffLinear, tropoIndex, rfoffIndex, dragIndex, a1, a2, a3]

/-- **C100** Compiled with `RANDOM_RFO`, the entry of the beacon frequency has the wrong sign: it is
the negative of the derivative of the predicted measurement. -/
theorem design_random_counterexample (k : Count) (b : Nat) (l r : ℝ) :
    HasDerivAt (fun e => -(k.utheo l (r + e))) (-(k.designRandom b (rfoffIndex .none 1 b))) 0 := by
  have hd : k.designRandom b (rfoffIndex .none 1 b) = -(k.C / k.feN * (k.ndopDt + k.frT)) := by
    simp [Count.designRandom, set, tropoIndex, rfoffIndex]
  rw [hd]
  have hid : HasDerivAt (fun e : ℝ => e) 1 0 := hasDerivAt_id 0
  unfold Count.utheo
  refine ((((hid.const_add r).const_mul (k.C / k.feN * (k.ndopDt + k.frT))).const_sub _).neg).congr_deriv ?_
  ring

/-! ### C101 -/

/-- **C101** The standard deviation given to the filter is the configured one at the horizon and grows
with the elevation. -/
theorem sigma_grows (sigma a b : ℝ) (hs : 0 < sigma) (ha : 0 ≤ a) (hab : a < b) (hb : b < Real.pi / 2) :
    obsSigma sigma 0 = sigma ∧ obsSigma sigma a < obsSigma sigma b := by
  refine ⟨by simp [obsSigma], ?_⟩
  unfold obsSigma
  have hcb : 0 < Real.cos b := Real.cos_pos_of_mem_Ioo ⟨by linarith, hb⟩
  have hlt : Real.cos b < Real.cos a :=
    Real.cos_lt_cos_of_nonneg_of_le_pi ha (by linarith [Real.pi_pos]) hab
  exact div_lt_div_of_pos_left hs hcb hlt

/-- **C101** The configured value is documented as the standard deviation at the zenith, but near the
zenith the one used exceeds every bound: the best observations get no weight. -/
theorem sigma_counterexample (sigma B : ℝ) (hs : 0 < sigma) (hB : 0 < B) :
    ∃ el, 0 < el ∧ el < Real.pi / 2 ∧ B < obsSigma sigma el := by
  have hm : 0 < min (sigma / B / 2) 1 := lt_min (by positivity) one_pos
  refine ⟨Real.pi / 2 - min (sigma / B / 2) 1, ?_, by linarith, ?_⟩
  · have := min_le_right (sigma / B / 2) 1
    have := Real.pi_gt_three
    linarith
  · unfold obsSigma
    rw [Real.cos_pi_div_two_sub]
    have h1 : Real.sin (min (sigma / B / 2) 1) < min (sigma / B / 2) 1 := Real.sin_lt hm
    have h2 := min_le_left (sigma / B / 2) 1
    have h3 : 0 < Real.sin (min (sigma / B / 2) 1) :=
      Real.sin_pos_of_pos_of_lt_pi hm (by
        have := min_le_right (sigma / B / 2) 1
        have := Real.pi_gt_three
        linarith)
    rw [lt_div_iff₀ h3]
    have h4 : B * Real.sin (min (sigma / B / 2) 1) < B * (sigma / B) := by
      apply mul_lt_mul_of_pos_left _ hB
      have : sigma / B / 2 < sigma / B := by
        have : 0 < sigma / B := by positivity
        linarith
      linarith
    have h5 : B * (sigma / B) = sigma := by field_simp
    linarith

/-! ### Examples -/

/-- A count over ten seconds, frequencies of a beacon without shift. -/
noncomputable def sample : Count :=
  ⟨299792458, 2036250000, 2036250000, 10, ⟨0, 0, 0, 2, 3, 4, ⟨3, 4, 0⟩⟩, ⟨100, 1, 0, 2, 4, 5, ⟨0, 3, 4⟩⟩, M3.one⟩

example : sample.cur.s ≠ ⟨0, 0, 0⟩ ∧ sample.prev.s ≠ ⟨0, 0, 0⟩ ∧ sample.design 0 5 7 = -1 / 10 := by
  refine ⟨fun h => ?_, fun h => ?_, ?_⟩
  · have := congrArg V3.y h
    simp [sample] at this
  · have := congrArg V3.y h
    simp [sample] at this
  · simp [Count.design, Count.base, set, tropoIndex, rfoffIndex, dragIndex, sample]
    norm_num

example : obsSigma 1 0 = 1 ∧ obsSigma 1 0 < obsSigma 1 1 :=
  sigma_grows 1 0 1 one_pos le_rfl one_pos (by linarith [Real.pi_gt_three])

end Verif.Pod
