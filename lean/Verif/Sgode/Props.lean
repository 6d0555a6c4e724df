import Verif.Sgode.Inv
import Mathlib.Algebra.Order.Field.Rat

/-! C41: order and restoration; C43: interpolation. -/
namespace Verif.Sgode

variable {K : Type} [Field K] [LinearOrder K] [IsStrictOrderedRing K] {n : Nat}

/-! ### Histories -/

/-- The states in which blocks 1 and 2 are entered, over all histories of starts, rejections and
acceptances in the direction `d`.  Between steps the driver may change the step size (keeping its
sign) and the weights. -/
inductive AtAttempt (e : Ext K n) (d : K) : St K n → Prop
  /-- the first attempt after a (re)start -/
  | first (s : St K n) (eps round : K) (h : 0 < d * s.h) (heps : 0 < eps) :
      AtAttempt e d (initialise e eps (1 / 2 * eps) round (initCoefs s))
  /-- after a rejected attempt -/
  | retry (s : St K n) (eps : K) (ifail : Int) (hs : AtAttempt e d s) (heps : 0 < eps) :
      AtAttempt e d (reject e (1 / 2 * eps) (estimates e (attempt e s)) ifail s.x (attempt e s))
  /-- the next step after an accepted attempt -/
  | next (s : St K n) (eps h' : K) (wt : Vec K n) (hs : AtAttempt e d s) (hh : 0 < d * h') :
      AtAttempt e d (initCoefs { accept e (1 / 2 * eps) (estimates e (attempt e s)) (attempt e s) with h := h', wt := wt })

theorem AtAttempt.inv {e : Ext K n} (he : e.Ok) {d : K} {s : St K n} (h : AtAttempt e d s) : LInv d s := by
  induction h with
  | first s eps round h heps => exact initialise_inv he heps _ h
  | retry s eps ifail _ heps ih => exact reject_inv he (by linarith) ih ifail
  | next s eps h' wt _ hh ih => exact accept_inv ih h' hh wt

/-! ### C41: restoration -/

theorem phi_predicted (e : Ext K n) (s : St K n) (i : Nat) (hi : i ≠ 15) :
    (predicted e s).phi i = (predict s.g s.k 0 (shifted s)).2 i := by
  unfold predicted
  by_cases h : s.nornd
  · simp [h]
  · simp [h, put_ne _ _ hi]

/-- **C41** Through any history of accepted and rejected steps, a rejected attempt gives back the
abscissa and the divided differences it started from: in exact arithmetic. -/
theorem rejected_restores (e : Ext K n) (he : e.Ok) (d : K) (s : St K n) (hs : AtAttempt e d s)
    (p5eps : K) (ifail : Int) :
    (reject e p5eps (estimates e (attempt e s)) ifail s.x (attempt e s)).x = s.x ∧
    ∀ i, i < s.k →
      (reject e p5eps (estimates e (attempt e s)) ifail s.x (attempt e s)).phi i = s.phi i := by
  have hi := hs.inv he
  have hb := block1_block hi
  obtain ⟨a1, a2, a3, a4, a5, a6, a7⟩ := attempt_fields e s
  obtain ⟨r1, r2, r3, r4, r5, r6, r7, r8, r9⟩ :=
    reject_fields e p5eps (estimates e (attempt e s)) ifail s.x (attempt e s)
  refine ⟨r8, ?_⟩
  intro i hik
  have hk12 := hi.k12
  have hbk := (block1_fields s).1
  have hbphi := (block1_fields s).2.2.2.2.2
  rw [r9]
  simp only
  rw [if_pos (by rw [a1]; exact hik), a7]
  unfold attempt
  rw [phi_predicted e _ i (by omega), phi_predicted e _ (i + 1) (by omega),
    predict_phi _ _ _ _ i (by rw [hbk]; exact hik), add_sub_cancel_right]
  -- the shifted differences below `k` are those of phi star
  have hsh : shifted (block1 s) i = phiStar (block1 s) i := by
    unfold shifted
    rw [hbk, put_ne _ _ (by omega), put_ne _ _ (by omega)]
  rw [hsh]
  unfold phiStar
  rw [hbk, hbphi]
  by_cases hns : (block1 s).ns ≤ i
  · rw [if_pos ⟨hns, hik⟩, smul_smul, one_div_mul_cancel (hb.betaPos i hik).ne', one_smul]
  · rw [if_neg (fun hh => hns hh.1), hb.betaOne i (by omega) hik]
    simp

/-- **C41** The coefficients used in any attempt are sound: `beta` positive, so that the division
on restoring is by a number different from zero. -/
theorem beta_positive (e : Ext K n) (he : e.Ok) (d : K) (s : St K n) (hs : AtAttempt e d s) :
    ∀ i, i < s.k → 0 < (attempt e s).beta i := by
  intro i hi
  rw [(attempt_fields e s).2.2.2.2.2.2]
  exact (block1_block (hs.inv he)).betaPos i hi

/-! ### C41: order -/

/-- The order is within limits, once started. -/
def OrderOk (s : St K n) : Prop := s.start = true ∨ (1 ≤ s.k ∧ s.k ≤ 12)

theorem shrink_order (e : Ext K n) (p5eps : K) (q : Est K) (ifail : Int) :
    (shrink e p5eps q ifail).2 = 1 ∨ (ifail > 3 ∧ (shrink e p5eps q ifail).2 = q.knew) := by
  unfold shrink
  split
  · exact .inl rfl
  · split
    · exact .inl rfl
    · exact .inr ⟨by omega, rfl⟩

theorem accept_order (e : Ext K n) (p5eps : K) (s : St K n) (h1 : 1 ≤ s.k) (h12 : s.k ≤ 12) :
    1 ≤ (accept e p5eps (estimates e s) s).k ∧ (accept e p5eps (estimates e s) s).k ≤ 12 ∧
    ((accept e p5eps (estimates e s) s).k = s.k ∨ (accept e p5eps (estimates e s) s).k + 1 = s.k ∨
      (accept e p5eps (estimates e s) s).k = s.k + 1) := by
  have hk := estimates_knew e s h1
  have hcf := corrected_fields e s
  have hno := nextOrder_range e (estimates e s) (corrected e s) (by rw [hcf.1]; exact h1)
    (by rw [hcf.1]; exact h12) hk.1
  rw [(accept_fields e p5eps (estimates e s) s).2.2.2.2.2]
  rw [hcf.1] at hno
  exact hno

theorem loop_order (e : Ext K n) (eps p5eps : K) : ∀ (fuel : Nat) (ifail : Int) (s : St K n) (r : Res K n),
    1 ≤ s.k → s.k ≤ 12 → loop e eps p5eps fuel ifail s = some r → 1 ≤ r.st.k ∧ r.st.k ≤ 12
  | 0, _, _, _, _, _, h => by simp [loop] at h
  | fuel + 1, ifail, s, r, h1, h12, h => by
    have hk : (attempt e s).k = s.k := (attempt_fields e s).1
    have h1' : 1 ≤ (attempt e s).k := by rw [hk]; exact h1
    have h12' : (attempt e s).k ≤ 12 := by rw [hk]; exact h12
    have hkn := estimates_knew e (attempt e s) h1'
    have hrk : 1 ≤ (reject e p5eps (estimates e (attempt e s)) (ifail + 1) s.x (attempt e s)).k ∧
        (reject e p5eps (estimates e (attempt e s)) (ifail + 1) s.x (attempt e s)).k ≤ 12 := by
      rw [(reject_fields e p5eps (estimates e (attempt e s)) (ifail + 1) s.x (attempt e s)).2.2.2.2.2.1]
      rcases shrink_order e p5eps (estimates e (attempt e s)) (ifail + 1) with h | ⟨_, h⟩
      · omega
      · omega
    simp only [loop] at h
    split at h
    · cases h
      have := accept_order e p5eps (attempt e s) h1' h12'
      exact ⟨this.1, this.2.1⟩
    · split at h
      · exact loop_order e eps p5eps fuel (ifail + 1) _ r hrk.1 hrk.2 h
      · cases h
        exact hrk

/-- **C41** The order stays between 1 and 12: whatever the right-hand side, the tolerance, the
history (any state with the order in range), and whatever the uninitialised failure counter holds. -/
theorem order_in_range (e : Ext K n) (fuel : Nat) (garbage : Int) (s : St K n) (eps : K) (r : Res K n)
    (hs : OrderOk s) (h : step e fuel garbage s eps = some r) : OrderOk r.st := by
  unfold step at h
  split at h
  · cases h
    exact hs
  · simp only at h
    split at h
    · cases h
      exact hs
    · split at h
      · exact .inr (loop_order e _ _ fuel 0 _ r (by simp [initialise]) (by simp [initialise]) h)
      · rename_i hst
        rcases hs with hs | hs
        · exact absurd hs hst
        · exact .inr (loop_order e _ _ fuel garbage (initCoefs s) r hs.1 hs.2 h)

/-- **C41** An accepted attempt changes the order by at most one.

Partial: see `order_drop_counterexample`; a step that is first rejected may change the order by
more. -/
theorem order_change_partial (e : Ext K n) (p5eps : K) (s : St K n) (h1 : 1 ≤ s.k) (h12 : s.k ≤ 12) :
    let s' := accept e p5eps (estimates e (attempt e s)) (attempt e s)
    s'.k = s.k ∨ s'.k + 1 = s.k ∨ s'.k = s.k + 1 := by
  have hk : (attempt e s).k = s.k := (attempt_fields e s).1
  have := (accept_order e p5eps (attempt e s) (by rw [hk]; exact h1) (by rw [hk]; exact h12)).2.2
  rw [hk] at this
  exact this

/-- **C41** What a rejection does to the order: with the failure counter at most 3 it is set to
one; beyond it is kept or lowered by one. -/
theorem order_after_rejection (e : Ext K n) (p5eps : K) (ifail : Int) (s : St K n) (h1 : 1 ≤ s.k) :
    let s' := reject e p5eps (estimates e (attempt e s)) ifail s.x (attempt e s)
    s'.k = 1 ∨ (ifail > 3 ∧ (s'.k = s.k ∨ s'.k + 1 = s.k)) := by
  have hk : (attempt e s).k = s.k := (attempt_fields e s).1
  have hkn := estimates_knew e (attempt e s) (by rw [hk]; exact h1)
  rw [hk] at hkn
  simp only
  rw [(reject_fields e p5eps (estimates e (attempt e s)) ifail s.x (attempt e s)).2.2.2.2.2.1]
  rcases shrink_order e p5eps (estimates e (attempt e s)) ifail with h | ⟨h, h'⟩
  · exact .inl h
  · refine .inr ⟨h, ?_⟩
    rw [h']
    exact hkn.2

/-! ### C43: interpolation -/

/-- **C43** Interpolating at the current abscissa gives the current solution, whatever the order and
the coefficient arrays. -/
theorem intrp_current (s : St K n) : (intrp s s.x).1 = s.yy := by
  simp [intrp]

theorem intrpLoop_rho (psi : Nat → K) (kip1 : Nat) : ∀ (m j : Nat) (g w rho : Nat → K) (term : K),
    (∀ i, 1 ≤ i → rho i = 0) → 1 ≤ j → (j = 1 → term = 0) →
    ∀ i, 1 ≤ i → (intrpLoop psi 0 kip1 m j g w rho term).2 i = 0
  | 0, _, _, _, _, _, h, _, _, i, hi => h i hi
  | m + 1, j, g, w, rho, term, h, hj, ht, i, hi => by
    simp only [intrpLoop]
    refine intrpLoop_rho psi kip1 m (j + 1) _ _ _ _ ?_ (by omega) (by omega) i hi
    intro l hl
    by_cases hlj : l = j
    · rw [hlj, put_same]
      by_cases h1 : j = 1
      · rw [ht h1]; simp
      · rw [h (j - 1) (by omega)]; simp
    · rw [put_ne _ _ hlj]
      exact h l hl

theorem intrpLoop_rho0 (psi : Nat → K) (hi : K) (kip1 : Nat) : ∀ (m j : Nat) (g w rho : Nat → K) (term : K),
    1 ≤ j → (intrpLoop psi hi kip1 m j g w rho term).2 0 = rho 0
  | 0, _, _, _, _, _, _ => rfl
  | m + 1, j, g, w, rho, term, hj => by
    simp only [intrpLoop]
    rw [intrpLoop_rho0 psi hi kip1 m (j + 1) _ _ _ _ (by omega), put_ne _ _ (by omega)]

theorem sumDown_first (c : Nat → K) (phi : Nat → Vec K n) (hc : ∀ i, 1 ≤ i → c i = 0) (h0 : c 0 = 1) :
    ∀ (m : Nat) (a : Vec K n), sumDown c phi (m + 1) a = a + phi 0
  | 0, a => by simp [sumDown, h0]
  | m + 1, a => by
    simp only [sumDown]
    rw [hc (m + 1) (by omega)]
    have := sumDown_first c phi hc h0 m a
    simp only [sumDown] at this
    simpa using this

/-- **C43** The interpolated derivative at the current abscissa is the first divided difference… -/
theorem intrp_current_derivative (s : St K n) : (intrp s s.x).2 = s.phi 0 := by
  simp only [intrp, sub_self]
  rw [sumDown_first _ _ _ _ s.kold 0]
  · simp
  · intro i hi
    refine intrpLoop_rho _ _ _ 1 _ _ _ _ ?_ le_rfl (fun _ => rfl) i hi
    intro l hl
    rw [put_ne _ _ (by omega)]
  · rw [intrpLoop_rho0 _ _ _ _ _ _ _ _ _ le_rfl, put_same]

/-- **C43** …which after every accepted step is the right-hand side at the current point. -/
theorem accepted_derivative (e : Ext K n) (p5eps : K) (q : Est K) (s : St K n) (h1 : 1 ≤ s.k) (h12 : s.k ≤ 12) :
    let s' := accept e p5eps q s
    s'.phi 0 = e.f s'.x s'.yy := by
  have h0 : (0 : Nat) < s.k := by omega
  have hne : s.k ≠ 0 := by omega
  by_cases hn : s.nornd
  · simp [accept, corrected, hn, h0, put, hne.symm]
  · simp [accept, corrected, hn, h0, put, hne.symm]

/-! ### Concrete instances -/

/-- Integer square root, bit by bit. -/
def isqrt : Nat → Nat → Nat → Nat
  | 0, _, r => r
  | b + 1, m, r => isqrt b m (if (r + 2 ^ b) * (r + 2 ^ b) ≤ m then r + 2 ^ b else r)

def qsqrt (q : ℚ) : ℚ := (isqrt 40 q.num.toNat 0 : ℚ) / (isqrt 40 q.den 0 : ℚ)

/-- A right-hand side that is `x/100` up to `x = 5` and 1000 afterwards. -/
def ext : Ext ℚ 1 :=
  ⟨fun x _ => fun _ => if x ≤ 5 then x / 100 else 1000, fun v => |v 0|, qsqrt, fun a _ => a, 1 / 2 ^ 52,
    fun i => 1 / ((i : ℚ) + 2), fun _ _ _ => 0, fun _ _ _ => 0⟩

def st0 : St ℚ 1 :=
  ⟨true, false, false, 99, 77, 55, fun _ _ => 3, fun _ => 1, 0, 0, 0, 0, fun _ => 5, fun _ => 5, fun _ => 5,
    fun _ => 5, fun _ => 5, fun _ => 5, fun _ => 5, 1, 7, 0⟩

/-- `m` steps. -/
def steps (garbage : Int) : Nat → Option (St ℚ 1)
  | 0 => some st0
  | m + 1 => (steps garbage m).bind fun s => (step ext 20 garbage s (1 / 10)).map (·.st)

/-- Three accepted steps: the order rises to 3, the abscissa to 3. -/
example : (steps 0 2).map (fun s => (s.k, s.x, s.kold)) = some (3, 3, 2) := by decide +kernel

/-- The histories of the theorems: a first attempt. -/
example : AtAttempt ext 1 (initialise ext (1 / 10) (1 / 2 * (1 / 10)) 0 (initCoefs st0)) :=
  .first st0 (1 / 10) 0 (by decide +kernel) (by decide +kernel)

/-- **C41, where it fails.**  The third step is begun with order 3 and rejected once: the order is
set to 1 at the first failure (the code tests `ifail < 3` where the method has `ifail > 3`), so it
changes by two in one step. -/
theorem order_drop_counterexample :
    (steps 0 2).map (·.k) = some 3 ∧ (steps 0 3).map (·.k) = some 1 := by decide +kernel

/-- **C41, where it fails.**  The outcome of a step depends on the indeterminate failure counter. -/
theorem uninitialised_ifail_counterexample :
    (steps 0 3).map (·.h) ≠ (steps 5 3).map (·.h) := by decide +kernel

/-- The solution of `y' = x/100` is `x²/200`: reproduced at the current point and, by the
interpolation, in between. -/
example : (steps 0 2).map (fun s => ((intrp s s.x).1 0, (intrp s 2).1 0, (intrp s s.x).2 0)) =
    some (9 / 200, 4 / 200, 3 / 100) := by decide +kernel

end Verif.Sgode
