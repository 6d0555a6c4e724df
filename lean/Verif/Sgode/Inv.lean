import Verif.Sgode.Lemmas
import Mathlib.Tactic.SplitIfs

/-! The invariant of the integrator's coefficient arrays. -/
namespace Verif.Sgode

variable {K : Type} [Field K] [LinearOrder K] [IsStrictOrderedRing K] {n : Nat}

/-- What is assumed of the square root. -/
structure Ext.Ok (e : Ext K n) : Prop where
  sqrt_pos : ∀ y : K, 0 < y → 0 < e.sqrt y
  sqrt_lt : ∀ y : K, 0 < y → y < 1 / 4 → e.sqrt y < 1

/-- Entries belonging to steps of equal size: `beta` is 1, `psi` at least that many steps. -/
def Const (d hold : K) (ns kold : Nat) (psi beta : Nat → K) : Prop :=
  1 ≤ ns ∧ ∀ i : Nat, (i + 1 < ns ∨ (i + 1 = ns ∧ ns ≤ kold)) →
    beta i = 1 ∧ ((i : K) + 1) * (d * hold) ≤ d * psi i

/-- Invariant at the beginning of an attempt; `d` has the sign of the direction of integration. -/
structure LInv (d : K) (s : St K n) : Prop where
  hdir : 0 < d * s.h
  k1 : 1 ≤ s.k
  k12 : s.k ≤ 12
  kk : s.k ≤ s.kold + 1
  hold : 1 ≤ s.kold → 0 < d * s.hold
  psi : ∀ j, j < s.kold → 0 < d * s.psi j
  steps : (s.kold = 0 ∧ s.hold = 0) ∨ |s.h| < |s.hold| ∨ Const d s.hold s.ns s.kold s.psi s.beta

theorem LInv.cases {d : K} {s : St K n} (hi : LInv d s) (heq : s.h = s.hold) :
    Const d s.hold s.ns s.kold s.psi s.beta := by
  rcases hi.steps with h | h | h
  · have h1 := hi.hdir
    rw [heq, h.2] at h1
    simp at h1
  · rw [heq] at h
    exact absurd h (lt_irrefl _)
  · exact h

/-- What block 1 establishes. -/
structure Block (d : K) (s t : St K n) : Prop where
  ns1 : 1 ≤ t.ns
  reset : s.h ≠ s.hold → t.ns = 1
  betaOne : ∀ i, i < t.ns → i < s.k → t.beta i = 1
  betaPos : ∀ i, i < s.k → 0 < t.beta i
  psiPos : ∀ j, j < s.k ∨ j < s.kold → 0 < d * t.psi j
  psiNew : ∀ j, t.ns ≤ j → j < s.k → t.psi j = s.psi (j - 1) + s.h
  psi0 : t.ns = 1 → t.psi 0 = s.h
  const : Const d s.h t.ns s.k t.psi t.beta

theorem nextNs_pos (s : St K n) (h : s.h = s.hold → 1 ≤ s.ns) : 1 ≤ nextNs s := by
  unfold nextNs
  by_cases hh : s.h = s.hold
  · have := h hh
    simp only [hh, ne_eq, not_true_eq_false, if_false]
    split <;> omega
  · simp [hh]

theorem nextNs_reset (s : St K n) (h : s.h ≠ s.hold) : nextNs s = 1 := by
  simp [nextNs, h]

/-- The entries of equal steps, before block 1 computes its own. -/
theorem LInv.old {d : K} {s : St K n} (hi : LInv d s) (i : Nat) (h : i + 1 < nextNs s) :
    s.beta i = 1 ∧ ((i : K) + 1) * (d * s.h) ≤ d * s.psi i := by
  by_cases hh : s.h = s.hold
  · have hc := hi.cases hh
    rw [hh]
    apply hc.2 i
    unfold nextNs at h
    simp only [hh, ne_eq, not_true_eq_false, if_false] at h
    split at h
    · omega
    · omega
  · rw [nextNs_reset s hh] at h
    omega

theorem LInv.nextNs_pos {d : K} {s : St K n} (hi : LInv d s) : 1 ≤ nextNs s :=
  Verif.Sgode.nextNs_pos s fun h => (hi.cases h).1

theorem block1_block {d : K} {s : St K n} (hi : LInv d s) : Block d s (block1 s) := by
  have hns := hi.nextNs_pos
  have hk1 := hi.k1
  have hkk := hi.kk
  by_cases hge : s.k ≥ nextNs s
  · -- coefficients are computed
    have hpsi : ∀ j, (block1 s).psi j =
        if j + 1 < nextNs s ∨ s.k ≤ j then s.psi j
        else if j + 1 = nextNs s then s.h * (nextNs s : K) else s.psi (j - 1) + s.h := by
      intro j
      have h := coefLoop_psi s.h (s.k - nextNs s) (nextNs s)
        ⟨s.psi, put s.beta (nextNs s - 1) 1, put s.alpha (nextNs s - 1) (1 / (nextNs s : K)),
          put s.sig (nextNs s) 1, s.h * (nextNs s : K)⟩ hns j
      have e1 : nextNs s + (s.k - nextNs s) = s.k := by omega
      rw [e1] at h
      have e2 : (block1 s).psi = (coefs s (nextNs s)).psi := by simp [block1, hge]
      rw [e2]
      exact h
    have hbeta : (block1 s).beta = (coefs s (nextNs s)).beta := by simp [block1, hge]
    have hbns : (block1 s).ns = nextNs s := by simp [block1, hge]
    have hb1 : ∀ i, i < nextNs s → (block1 s).beta i = 1 := by
      intro i hilt
      rw [hbeta]
      simp only [coefs]
      rw [coefLoop_beta_other _ _ _ _ _ (.inl hilt)]
      simp only
      by_cases h : i = nextNs s - 1
      · rw [h, put_same]
      · rw [put_ne _ _ h]
        exact (hi.old i (by omega)).1
    have hcast : ∀ m : Nat, 1 ≤ m → 0 < d * (s.h * (m : K)) := by
      intro m hm
      have : (0 : K) < (m : K) := by exact_mod_cast hm
      have := mul_pos hi.hdir this
      rw [mul_assoc] at this
      exact this
    have hpos : ∀ j, j < s.k ∨ j < s.kold → 0 < d * (block1 s).psi j := by
      intro j hj
      rw [hpsi]
      split
      · rename_i h
        rcases h with h | h
        · have h1 := (hi.old j h).2
          have : 0 < ((j : K) + 1) * (d * s.h) := by
            have : (0 : K) ≤ (j : K) := Nat.cast_nonneg j
            exact mul_pos (by linarith) hi.hdir
          exact lt_of_lt_of_le this h1
        · exact hi.psi j (by omega)
      · split
        · exact hcast _ hns
        · rename_i h1 h2
          rw [mul_add]
          exact add_pos (hi.psi (j - 1) (by omega)) hi.hdir
    refine ⟨by rw [hbns]; exact hns, ?_, ?_, ?_, hpos, ?_, ?_, ?_⟩
    · intro hh
      rw [hbns, nextNs_reset s hh]
    · intro i h1 _
      rw [hbns] at h1
      exact hb1 i h1
    · intro i hik
      by_cases h1 : i < nextNs s
      · rw [hb1 i h1]; exact one_pos
      · rw [hbeta]
        simp only [coefs]
        apply coefLoop_beta_pos d s.h hi.hdir (s.k - nextNs s) (nextNs s)
        · exact hns
        · simp only
          rw [put_same]; exact one_pos
        · exact hcast _ hns
        · intro j _ hj2
          exact hi.psi j (by omega)
        · omega
        · omega
    · intro j h1 h2
      rw [hbns] at h1
      rw [hpsi, if_neg (by omega), if_neg (by omega)]
    · intro h1
      rw [hbns] at h1
      rw [hpsi, if_neg (by omega), if_pos (by omega), h1]
      simp
    · refine ⟨by rw [hbns]; exact hns, ?_⟩
      intro i hcase
      rw [hbns] at hcase
      refine ⟨hb1 i (by omega), ?_⟩
      rw [hpsi]
      rcases hcase with h | ⟨h, _⟩
      · rw [if_pos (.inl h)]
        exact (hi.old i h).2
      · rw [if_neg (by omega), if_pos h, ← h]
        push_cast
        exact le_of_eq (by ring)
  · -- nothing changes but `ns`
    have hb : block1 s = { s with ns := nextNs s } := by simp [block1, hge]
    rw [hb]
    have hlt : s.k < nextNs s := not_le.1 hge
    refine ⟨hns, fun hh => nextNs_reset s hh, ?_, ?_, ?_, ?_, ?_, ?_⟩
    · intro i _ h2
      exact (hi.old i (by omega)).1
    · intro i h2
      show 0 < s.beta i
      rw [(hi.old i (by omega)).1]; exact one_pos
    · intro j hj
      show 0 < d * s.psi j
      by_cases hjk : j < s.k
      · have h1 := (hi.old j (by omega)).2
        have : 0 < ((j : K) + 1) * (d * s.h) := by
          have : (0 : K) ≤ (j : K) := Nat.cast_nonneg j
          exact mul_pos (by linarith) hi.hdir
        exact lt_of_lt_of_le this h1
      · exact hi.psi j (by omega)
    · intro j h1 h2
      simp only at h1
      omega
    · intro h1
      simp only at h1
      omega
    · refine ⟨hns, ?_⟩
      intro i hcase
      simp only at hcase ⊢
      exact hi.old i (by omega)

theorem block1_fields (s : St K n) :
    (block1 s).k = s.k ∧ (block1 s).h = s.h ∧ (block1 s).hold = s.hold ∧ (block1 s).kold = s.kold ∧
    (block1 s).x = s.x ∧ (block1 s).phi = s.phi := by
  unfold block1
  simp only
  split <;> simp

theorem predicted_fields (e : Ext K n) (s : St K n) :
    (predicted e s).k = s.k ∧ (predicted e s).h = s.h ∧ (predicted e s).hold = s.hold ∧
    (predicted e s).kold = s.kold ∧ (predicted e s).ns = s.ns ∧ (predicted e s).psi = s.psi ∧
    (predicted e s).beta = s.beta ∧ (predicted e s).x = s.x + s.h := by
  unfold predicted
  simp

theorem attempt_fields (e : Ext K n) (s : St K n) :
    (attempt e s).k = s.k ∧ (attempt e s).h = s.h ∧ (attempt e s).hold = s.hold ∧
    (attempt e s).kold = s.kold ∧ (attempt e s).ns = (block1 s).ns ∧
    (attempt e s).psi = (block1 s).psi ∧ (attempt e s).beta = (block1 s).beta := by
  have h1 := predicted_fields e (block1 s)
  have h2 := block1_fields s
  unfold attempt
  exact ⟨h1.1.trans h2.1, h1.2.1.trans h2.2.1, h1.2.2.1.trans h2.2.2.1, h1.2.2.2.1.trans h2.2.2.2.1,
    h1.2.2.2.2.1, h1.2.2.2.2.2.1, h1.2.2.2.2.2.2.1⟩

theorem estimates_knew (e : Ext K n) (s : St K n) (h1 : 1 ≤ s.k) :
    1 ≤ (estimates e s).knew ∧ ((estimates e s).knew = s.k ∨ (estimates e s).knew + 1 = s.k) := by
  obtain ⟨r, hr⟩ : ∃ r, r = (estimates e s).knew := ⟨_, rfl⟩
  rw [← hr]
  simp only [estimates] at hr
  split_ifs at hr <;> omega

theorem nextOrder_range (e : Ext K n) (q : Est K) (s : St K n) (h1 : 1 ≤ s.k) (h12 : s.k ≤ 12)
    (hq : 1 ≤ q.knew) :
    1 ≤ (nextOrder e q s).1 ∧ (nextOrder e q s).1 ≤ 12 ∧
      ((nextOrder e q s).1 = s.k ∨ (nextOrder e q s).1 + 1 = s.k ∨ (nextOrder e q s).1 = s.k + 1) := by
  obtain ⟨r, hr⟩ : ∃ r, r = (nextOrder e q s).1 := ⟨_, rfl⟩
  rw [← hr]
  by_cases hc : q.knew = s.k - 1 ∨ s.k = 12
  · simp only [nextOrder, if_pos hc, Bool.false_eq_true, if_false, apply_ite Prod.fst] at hr
    split_ifs at hr <;> omega
  · simp only [nextOrder, if_neg hc, apply_ite Prod.fst] at hr
    have hne : s.k ≠ 12 := fun h => hc (.inr h)
    have hne' : q.knew ≠ s.k - 1 := fun h => hc (.inl h)
    split_ifs at hr <;> omega

theorem accept_fields (e : Ext K n) (p5eps : K) (q : Est K) (s : St K n) :
    (accept e p5eps q s).kold = s.k ∧ (accept e p5eps q s).hold = s.h ∧
    (accept e p5eps q s).ns = s.ns ∧ (accept e p5eps q s).psi = s.psi ∧
    (accept e p5eps q s).beta = s.beta ∧
    (accept e p5eps q s).k = (nextOrder e q (corrected e s)).1 := by
  simp [accept, corrected]

theorem corrected_fields (e : Ext K n) (s : St K n) :
    (corrected e s).k = s.k ∧ (corrected e s).h = s.h ∧ (corrected e s).x = s.x := by
  simp [corrected]

theorem nextH_dir (e : Ext K n) (p5eps erk absh d : K) (ph : Bool) (s : St K n) (hd : 0 < d * s.h)
    (ha : 0 < absh) : 0 < d * nextH e p5eps erk absh ph s := by
  unfold nextH
  split
  · rw [mul_left_comm]
    exact mul_pos two_pos hd
  · split
    · simp only
      apply copysign_sign _ hd
      have h1 : 0 < absh * max (1 / 2) (min (9 / 10) (e.pow (p5eps / erk) (1 / ((s.k : K) + 1)))) :=
        mul_pos ha (lt_of_lt_of_le (by norm_num) (le_max_left _ _))
      exact (lt_of_lt_of_le h1 (le_max_left _ _)).ne'
    · exact hd

theorem dir_ne {d h : K} (hd : 0 < d * h) : h ≠ 0 := fun hh => by simp [hh] at hd

/-- The new step size points in the same direction. -/
theorem accept_dir (e : Ext K n) (p5eps d : K) (s : St K n) (hd : 0 < d * s.h) :
    0 < d * (accept e p5eps (estimates e s) s).h := by
  unfold accept
  simp only
  refine nextH_dir e _ _ _ d _ _ ?_ ?_
  · exact hd
  · exact abs_pos.2 (dir_ne hd)

/-- After an accepted attempt the invariant holds again. -/
theorem accept_inv {e : Ext K n} {d p5eps : K} {s : St K n} (hi : LInv d s) (h' : K) (hd' : 0 < d * h')
    (wt : Vec K n) :
    LInv d (initCoefs { accept e p5eps (estimates e (attempt e s)) (attempt e s) with h := h', wt := wt }) := by
  have hb := block1_block hi
  obtain ⟨a1, a2, a3, a4, a5, a6, a7⟩ := attempt_fields e s
  obtain ⟨c1, c2, c3, c4, c5, c6⟩ := accept_fields e p5eps (estimates e (attempt e s)) (attempt e s)
  have hcf := corrected_fields e (attempt e s)
  have hk := estimates_knew e (attempt e s) (by rw [a1]; exact hi.k1)
  have hno := nextOrder_range e (estimates e (attempt e s)) (corrected e (attempt e s))
    (by rw [hcf.1, a1]; exact hi.k1) (by rw [hcf.1, a1]; exact hi.k12) hk.1
  rw [← c6] at hno
  rw [hcf.1] at hno
  generalize accept e p5eps (estimates e (attempt e s)) (attempt e s) = A at *
  have hcold : A.k ≤ A.kold + 1 := by rw [c1]; omega
  have hhold : 0 < d * A.hold := by rw [c2, a2]; exact hi.hdir
  have hpsi : ∀ j, j < A.kold → 0 < d * A.psi j := by
    intro j hj
    rw [c1, a1] at hj
    rw [c4, a6]
    exact hb.psiPos j (.inl hj)
  have hconst : Const d A.hold A.ns A.kold A.psi A.beta := by
    rw [c1, c2, c3, c4, c5, a1, a2, a5, a6, a7]
    exact hb.const
  exact ⟨hd', hno.1, hno.2.1, hcold, fun _ => hhold, hpsi, .inr (.inr hconst)⟩

theorem shrink_spec (e : Ext K n) (he : e.Ok) (p5eps : K) (hp : 0 < p5eps) (q : Est K) (ifail : Int) :
    0 < (shrink e p5eps q ifail).1 ∧ (shrink e p5eps q ifail).1 < 1 ∧
      ((shrink e p5eps q ifail).2 = 1 ∨ (shrink e p5eps q ifail).2 = q.knew) := by
  unfold shrink
  have h2 : (0 : K) < 1 / 2 := by norm_num
  have h2' : (1 / 2 : K) < 1 := by norm_num
  split
  · exact ⟨h2, h2', .inl rfl⟩
  · split
    · refine ⟨?_, ?_, .inl rfl⟩
      · split
        · rename_i h
          have hq : 0 < q.erk := by
            by_contra hcon
            have : q.erk ≤ 0 := not_lt.1 hcon
            have : 1 / 4 * q.erk ≤ 0 := mul_nonpos_of_nonneg_of_nonpos (by norm_num) this
            linarith
          exact he.sqrt_pos _ (div_pos hp hq)
        · exact h2
      · split
        · rename_i h
          have hq : 0 < q.erk := by
            by_contra hcon
            have : q.erk ≤ 0 := not_lt.1 hcon
            have : 1 / 4 * q.erk ≤ 0 := mul_nonpos_of_nonneg_of_nonpos (by norm_num) this
            linarith
          exact he.sqrt_lt _ (div_pos hp hq) ((div_lt_iff₀ hq).2 h)
        · exact h2'
    · exact ⟨h2, h2', .inr rfl⟩

theorem reject_fields (e : Ext K n) (p5eps : K) (q : Est K) (ifail : Int) (xold : K) (s : St K n) :
    (reject e p5eps q ifail xold s).kold = s.kold ∧ (reject e p5eps q ifail xold s).hold = s.hold ∧
    (reject e p5eps q ifail xold s).ns = s.ns ∧
    (reject e p5eps q ifail xold s).psi = (fun i => if i + 1 < s.k then s.psi (i + 1) - s.h else s.psi i) ∧
    (reject e p5eps q ifail xold s).beta = s.beta ∧
    (reject e p5eps q ifail xold s).k = (shrink e p5eps q ifail).2 ∧
    (reject e p5eps q ifail xold s).h = (shrink e p5eps q ifail).1 * s.h ∧
    (reject e p5eps q ifail xold s).x = xold ∧
    (reject e p5eps q ifail xold s).phi =
      (fun i => if i < s.k then (1 / s.beta i) • (s.phi i - s.phi (i + 1)) else s.phi i) := by
  simp [reject, restored]

/-- After a rejected attempt the invariant holds again. -/
theorem reject_inv {e : Ext K n} (he : e.Ok) {d p5eps : K} (hp : 0 < p5eps) {s : St K n} (hi : LInv d s)
    (ifail : Int) :
    LInv d (reject e p5eps (estimates e (attempt e s)) ifail s.x (attempt e s)) := by
  have hb := block1_block hi
  obtain ⟨a1, a2, a3, a4, a5, a6, a7⟩ := attempt_fields e s
  have hk := estimates_knew e (attempt e s) (by rw [a1]; exact hi.k1)
  obtain ⟨t1, t2, t3⟩ := shrink_spec e he p5eps hp (estimates e (attempt e s)) ifail
  obtain ⟨r1, r2, r3, r4, r5, r6, r7, r8, r9⟩ :=
    reject_fields e p5eps (estimates e (attempt e s)) ifail s.x (attempt e s)
  rw [a1] at hk r4
  rw [a2] at r7 r4
  rw [a6] at r4
  rw [a3] at r2
  rw [a4] at r1
  rw [a5] at r3
  rw [a7] at r5
  have hk1 := hi.k1
  have hk12 := hi.k12
  have hkk := hi.kk
  -- restored `psi`
  have hpsi : ∀ j, j < s.kold → 0 < d * (if j + 1 < s.k then (block1 s).psi (j + 1) - s.h else (block1 s).psi j) := by
    intro j hj
    split
    · rename_i h
      by_cases hns : (block1 s).ns ≤ j + 1
      · rw [hb.psiNew (j + 1) hns h]
        simp only [Nat.add_sub_cancel, add_sub_cancel_right]
        exact hi.psi j hj
      · have h1 := (hb.const.2 (j + 1) (by omega)).2
        push_cast at h1
        rw [mul_sub]
        have hj0 : (0 : K) ≤ (j : K) := Nat.cast_nonneg j
        have : 0 ≤ (j : K) * (d * s.h) := mul_nonneg hj0 hi.hdir.le
        have e1 : ((j : K) + 1 + 1) * (d * s.h) = (j : K) * (d * s.h) + 2 * (d * s.h) := by ring
        rw [e1] at h1
        have := hi.hdir
        linarith
    · exact hb.psiPos j (.inr hj)
  have habs : |(shrink e p5eps (estimates e (attempt e s)) ifail).1 * s.h| < |s.h| := by
    rw [abs_mul, abs_of_pos t1]
    exact mul_lt_of_lt_one_left (abs_pos.2 (dir_ne hi.hdir)) t2
  constructor
  · rw [r7, mul_left_comm]
    exact mul_pos t1 hi.hdir
  · rw [r6]
    rcases t3 with h | h
    · omega
    · omega
  · rw [r6]
    rcases t3 with h | h
    · omega
    · omega
  · rw [r6, r1]
    rcases t3 with h | h
    · omega
    · omega
  · rw [r1, r2]
    exact hi.hold
  · intro j hj
    rw [r1] at hj
    rw [r4]
    exact hpsi j hj
  · rw [r1, r2, r3, r4, r5, r7]
    by_cases hh : s.h = s.hold
    · right; left
      rw [← hh]
      exact habs
    · rcases hi.steps with h0 | h1 | h2
      · exact .inl h0
      · exact .inr (.inl (habs.trans h1))
      · by_cases hlt : |s.h| < |s.hold|
        · exact .inr (.inl (habs.trans hlt))
        · right; right
          have hns := hb.reset hh
          rw [hns]
          refine ⟨le_rfl, ?_⟩
          intro i hc
          have hi0 : i = 0 := by omega
          have hkold : 1 ≤ s.kold := by omega
          subst hi0
          refine ⟨hb.betaOne 0 (by omega) (by omega), ?_⟩
          simp only [Nat.cast_zero, zero_add, one_mul]
          split
          · rename_i hk2
            rw [hb.psiNew 1 (by omega) (by omega)]
            simp only [Nat.sub_self, add_sub_cancel_right]
            have := (h2.2 0 (by have := h2.1; omega)).2
            simpa using this
          · rw [hb.psi0 hns]
            have hle : |s.hold| ≤ |s.h| := not_lt.1 hlt
            have e1 : |d * s.hold| ≤ |d * s.h| := by
              rw [abs_mul, abs_mul]
              exact mul_le_mul_of_nonneg_left hle (abs_nonneg d)
            rw [abs_of_pos (hi.hold hkold), abs_of_pos hi.hdir] at e1
            exact e1

/-- The first attempt of a start. -/
theorem initialise_inv {e : Ext K n} (he : e.Ok) {d eps p5eps round : K} (heps : 0 < eps) (s : St K n)
    (hd : 0 < d * s.h) : LInv d (initialise e eps p5eps round s) := by
  have hh : 0 < d * (initialise e eps p5eps round s).h := by
    simp only [initialise]
    apply copysign_sign _ hd
    refine (lt_of_lt_of_le ?_ (le_max_left _ _)).ne'
    split
    · rename_i h
      have hsum : 0 < e.norm (quot (e.f s.x s.yy) s.wt) := by
        by_contra hcon
        have h1 := not_lt.1 hcon
        have h2 : 16 * e.norm (quot (e.f s.x s.yy) s.wt) * s.h * s.h ≤ 0 := by
          rw [mul_assoc]
          exact mul_nonpos_of_nonpos_of_nonneg (by linarith) (mul_self_nonneg s.h)
        linarith
      exact mul_pos (by norm_num) (he.sqrt_pos _ (div_pos heps hsum))
    · exact abs_pos.2 (dir_ne hd)
  constructor
  · exact hh
  · simp [initialise]
  · simp [initialise]
  · simp [initialise]
  · simp [initialise]
  · simp [initialise]
  · left
    simp [initialise]

end Verif.Sgode
