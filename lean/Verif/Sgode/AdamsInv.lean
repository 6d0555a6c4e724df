import Verif.Sgode.AdamsLoops
import Verif.Sgode.Props

/-! The coefficient arrays belong to the points the integrator has passed. -/
namespace Verif.Sgode

open Finset

variable {K : Type} [Field K] [LinearOrder K] [IsStrictOrderedRing K] {n : Nat}

/-- Entries that belong to steps of equal size `h`: `ns` of them, up to order `L`.  The entry `v q`
is in row `min ns (L - q)` of the table. -/
structure Same (s : St K n) (h : K) (ns L : Nat) : Prop where
  psi : ∀ i, i < ns → i < L → s.psi i = ((i : K) + 1) * h
  alpha : ∀ i, i < ns → i < L → s.alpha i = cAlpha i
  beta : ∀ i, i < ns → i < L → s.beta i = 1
  sig : ∀ i, i ≤ ns → i ≤ L → s.sig i = 1
  g : ∀ i, i ≤ ns → i ≤ L → s.g i = table cAlpha i 0
  v : ∀ q, q < L → s.v q = table cAlpha (min ns (L - q)) q

/-- Which combinations of order, number of equal steps and `L` occur before an attempt. -/
def Shape (k kold ns L : Nat) : Prop :=
  (ns = 1 ∧ (k ≤ L ∨ (k = L + 1 ∧ kold < k))) ∨
  (1 < ns ∧ ns < L ∧ kold = L ∧ L ≤ k ∧ k ≤ L + 1) ∨
  (L ≤ ns ∧ ns ≤ L + 1 ∧ k ≤ L + 1 ∧ kold ≤ L ∧ (kold = L ∨ ns = L + 1))

/-- Before an attempt: `N` points have been passed, at `X` with derivatives `D`. -/
structure AInv (d : K) (s : St K n) (N : Nat) (X : Nat → K) (D : Nat → Vec K n) : Prop where
  len : s.k ≤ N
  x : s.x = X 0
  dir : ∀ i, i + 1 < N → 0 < d * (X i - X (i + 1))
  phi : ∀ i, i < s.k → s.phi i = modDiff X D i
  psi : ∀ i, i + 1 < s.k → s.psi i = X 0 - X (i + 1)
  g0 : s.g 0 = 1
  g1 : s.g 1 = 1 / 2
  sig0 : s.sig 0 = 1
  fresh : s.kold = 0 → s.hold = 0
  last : 1 ≤ s.kold → s.hold = X 0 - X 1
  same : s.h = s.hold → 1 ≤ s.kold ∧ (∀ i, i < s.ns → X i - X (i + 1) = s.h) ∧
    ∃ L, Same s s.h s.ns L ∧ Shape s.k s.kold s.ns L

/-- Quotients of the step size and the distances of the new point. -/
def quots (X : Nat → K) (h : K) (j : Nat) : K := h / (X 0 + h - X j)

/-- After block 1. -/
structure Post (s t : St K n) (X : Nat → K) : Prop where
  psi : ∀ i, i < s.k → t.psi i = X 0 + s.h - X i
  alpha : ∀ i, i < s.k → t.alpha i = quots X s.h i
  beta : ∀ i, i < s.k → t.beta i = ∏ j ∈ range i, ((X 0 + s.h - X j) / (X 0 - X (j + 1)))
  sig : ∀ i, i ≤ s.k → t.sig i = ∏ j ∈ range i, (((j : K) + 1) * quots X s.h j)
  g : ∀ i, i ≤ s.k → t.g i = table (quots X s.h) i 0
  steps : ∀ i, i + 1 < t.ns → X i - X (i + 1) = s.h
  ns : 1 ≤ t.ns
  same : ∃ L, Same t s.h t.ns L ∧ ((t.ns = 1 ∧ L = s.k) ∨ (2 ≤ t.ns ∧ t.ns ≤ s.k ∧ L = s.k) ∨ (t.ns = L + 1 ∧ s.k ≤ L))

/-- The arrays `alpha`, `beta`, `sig` after sgode_step.cpp:98-118. -/
theorem coefs_spec (s : St K n) (X : Nat → K) (ns : Nat) (hns : 1 ≤ ns) (hk : ns ≤ s.k) (hh : s.h ≠ 0)
    (hsteps : ∀ i, i + 1 < ns → X i - X (i + 1) = s.h)
    (hpsi : ∀ i, i + 1 < s.k → s.psi i = X 0 - X (i + 1))
    (hbeta : ∀ i, i + 1 < ns → s.beta i = 1) (halpha : ∀ i, i + 1 < ns → s.alpha i = cAlpha i)
    (hsig : ∀ i, i < ns → s.sig i = 1) :
    (∀ i, i < ns → X 0 + s.h - X i = ((i : K) + 1) * s.h) ∧
    (∀ i, i < s.k → (coefs s ns).alpha i = quots X s.h i) ∧
    (∀ i, i < s.k → (coefs s ns).beta i = ∏ j ∈ range i, ((X 0 + s.h - X j) / (X 0 - X (j + 1)))) ∧
    (∀ i, i ≤ s.k → (coefs s ns).sig i = ∏ j ∈ range i, (((j : K) + 1) * quots X s.h j)) ∧
    (∀ i, i < s.k → (coefs s ns).psi i = X 0 + s.h - X i) ∧
    (∀ i, i < ns → (coefs s ns).alpha i = cAlpha i) ∧
    (∀ i, i < ns → (coefs s ns).beta i = 1) ∧ (∀ i, i ≤ ns → (coefs s ns).sig i = 1) := by
  have hT : ∀ i, i < ns → X 0 + s.h - X i = ((i : K) + 1) * s.h := by
    intro i
    induction i with
    | zero => intro _; simp
    | succ i ih =>
      intro hi
      have h1 := ih (by omega)
      have h2 := hsteps i hi
      push_cast
      linear_combination h1 + h2
  have hq : ∀ i, i < ns → quots X s.h i = cAlpha i := by
    intro i hi
    unfold quots cAlpha
    rw [hT i hi]
    have : ((i : K) + 1) ≠ 0 := by positivity
    field_simp
  have hB1 : ∀ i, i < ns → ∏ j ∈ range i, ((X 0 + s.h - X j) / (X 0 - X (j + 1))) = 1 := by
    intro i hi
    refine prod_eq_one fun j hj => ?_
    have hj := mem_range.1 hj
    have h1 := hT j (by omega)
    have h2 := hT (j + 1) (by omega)
    push_cast at h2
    have h3 : X 0 - X (j + 1) = ((j : K) + 1) * s.h := by linear_combination h2
    rw [h1, h3]
    have : ((j : K) + 1) ≠ 0 := by positivity
    exact div_self (mul_ne_zero this hh)
  have hS1 : ∀ i, i ≤ ns → ∏ j ∈ range i, (((j : K) + 1) * quots X s.h j) = 1 := by
    intro i hi
    refine prod_eq_one fun j hj => ?_
    have hj := mem_range.1 hj
    rw [hq j (by omega), cAlpha]
    have : ((j : K) + 1) ≠ 0 := by positivity
    field_simp
  have hspec := coefLoop_spec s.h (fun j => X 0 + s.h - X j)
    (fun i => ∏ j ∈ range i, ((X 0 + s.h - X j) / (X 0 - X (j + 1))))
    (fun i => ∏ j ∈ range i, (((j : K) + 1) * quots X s.h j)) (s.k - ns) ns
    ⟨s.psi, put s.beta (ns - 1) 1, put s.alpha (ns - 1) (1 / (ns : K)), put s.sig ns 1, s.h * (ns : K)⟩ hns
    (by
      simp only
      rw [hT (ns - 1) (by omega), Nat.cast_sub hns]
      push_cast
      ring)
    (by
      intro j h1 h2
      simp only
      rw [hpsi j (by omega)]
      ring)
    (by
      simp only
      rw [put_same, hB1 (ns - 1) (by omega)])
    (by
      intro j h1 h2
      simp only
      obtain ⟨l, rfl⟩ : ∃ l, j = l + 1 := ⟨j - 1, by omega⟩
      rw [Nat.add_sub_cancel, prod_range_succ, hpsi l (by omega), mul_div_assoc])
    (by
      simp only
      rw [put_same, hS1 ns le_rfl])
    (by
      intro j h1 h2
      rw [prod_range_succ, quots]
      ring)
  have ha : ∀ i, i < ns → (coefs s ns).alpha i = cAlpha i := by
    intro i hi
    simp only [coefs]
    rw [coefLoop_alpha_other _ _ _ _ _ hi]
    simp only
    by_cases h : i = ns - 1
    · rw [h, put_same, cAlpha, Nat.cast_sub hns]
      congr 1
      push_cast
      ring
    · rw [put_ne _ _ h, halpha i (by omega)]
  have hb : ∀ i, i < ns → (coefs s ns).beta i = 1 := by
    intro i hi
    simp only [coefs]
    rw [coefLoop_beta_other _ _ _ _ _ (.inl hi)]
    simp only
    by_cases h : i = ns - 1
    · rw [h, put_same]
    · rw [put_ne _ _ h, hbeta i (by omega)]
  have hs : ∀ i, i ≤ ns → (coefs s ns).sig i = 1 := by
    intro i hi
    simp only [coefs]
    rw [coefLoop_sig_other _ _ _ _ _ hi]
    simp only
    by_cases h : i = ns
    · rw [h, put_same]
    · rw [put_ne _ _ h, hsig i (by omega)]
  refine ⟨hT, ?_, ?_, ?_, ?_, ha, hb, hs⟩
  · intro i hi
    by_cases h : i < ns
    · rw [ha i h, hq i h]
    · exact (hspec i (by omega) (by omega)).2.1
  · intro i hi
    by_cases h : i < ns
    · rw [hb i h, hB1 i h]
    · exact (hspec i (by omega) (by omega)).1
  · intro i hi
    by_cases h : i ≤ ns
    · rw [hs i h, hS1 i h]
    · obtain ⟨l, rfl⟩ : ∃ l, i = l + 1 := ⟨i - 1, by omega⟩
      exact (hspec l (by omega) (by omega)).2.2
  · intro i hi
    have h := coefLoop_psi s.h (s.k - ns) ns
      ⟨s.psi, put s.beta (ns - 1) 1, put s.alpha (ns - 1) (1 / (ns : K)), put s.sig ns 1, s.h * (ns : K)⟩ hns i
    have e1 : ns + (s.k - ns) = s.k := by omega
    rw [e1] at h
    have e2 : (coefs s ns).psi i = _ := h
    rw [e2]
    simp only
    by_cases h1 : i + 1 < ns
    · rw [if_pos (.inl h1), hpsi i (by omega)]
      have := hsteps i h1
      linear_combination this
    · rw [if_neg (by omega)]
      by_cases h2 : i + 1 = ns
      · rw [if_pos h2, hT i (by omega), ← h2]
        push_cast
        ring
      · rw [if_neg h2, hpsi (i - 1) (by omega), show i - 1 + 1 = i by omega]
        ring

/-- Block 1 computes the coefficients of the points passed. -/
theorem block1_post {d : K} {s : St K n} {N : Nat} {X : Nat → K} {D : Nat → Vec K n} (hi : LInv d s)
    (ha : AInv d s N X D) : Post s (block1 s) X := by
  have hh : s.h ≠ 0 := dir_ne hi.hdir
  have hk1 := hi.k1
  by_cases heq : s.h = s.hold
  · obtain ⟨hkold, hst, L, hsame, hshape⟩ := ha.same heq
    -- the new number of equal steps
    have hns : nextNs s = if s.ns ≤ s.kold then s.ns + 1 else s.ns := by simp [nextNs, heq]
    have hns2 : 2 ≤ nextNs s ∧ nextNs s ≤ s.ns + 1 := by
      rw [hns]
      rcases hshape with h | h | h <;> split <;> omega
    have hsteps : ∀ i, i + 1 < nextNs s → X i - X (i + 1) = s.h := fun i h => hst i (by omega)
    by_cases hge : nextNs s ≤ s.k
    · -- coefficients are computed
      have hL : nextNs s ≤ L + 1 := by
        rw [hns] at hge ⊢
        rcases hshape with h | h | h <;> split at hge <;> split <;> omega
      obtain ⟨c1, c2, c3, c4, c5, c6, c7, c8⟩ := coefs_spec s X (nextNs s) (by omega) hge hh hsteps ha.psi
        (fun i h => hsame.beta i (by omega) (by omega)) (fun i h => hsame.alpha i (by omega) (by omega))
        (fun i h => hsame.sig i (by omega) (by omega))
      obtain ⟨g1, g2⟩ := gCoefs_more s (nextNs s) (coefs s (nextNs s)).alpha hns2.1 hge c6
        (fun i h => hsame.g i (by omega) (by omega))
        (by
          intro q hq hq'
          have hqL : q < L := by
            rcases hshape with h | h | h <;> by_cases hc : s.k > s.kold <;> simp only [hc, forall_const] at hq' <;>
              rw [hns] at hge <;> split at hge <;> omega
          rw [hsame.v q hqL]
          congr 1
          rw [hns] at hge ⊢
          rcases hshape with h | h | h <;> split at hge <;> split <;> split <;> omega)
      have hb : block1 s = { s with
          ns := nextNs s, psi := (coefs s (nextNs s)).psi, beta := (coefs s (nextNs s)).beta,
          alpha := (coefs s (nextNs s)).alpha, sig := (coefs s (nextNs s)).sig,
          v := (gCoefs s (nextNs s) (coefs s (nextNs s)).alpha).1,
          w := (gCoefs s (nextNs s) (coefs s (nextNs s)).alpha).2.1,
          g := (gCoefs s (nextNs s) (coefs s (nextNs s)).alpha).2.2 } := by
        simp [block1, hge]
      rw [hb]
      have htab : ∀ i, i ≤ s.k → table (coefs s (nextNs s)).alpha i 0 = table (quots X s.h) i 0 :=
        fun i h => table_congr _ _ i 0 fun j hj => c2 j (by omega)
      refine ⟨c5, c2, c3, c4, fun i h => (g2 i h).trans (htab i h), hsteps, by simp only; omega, s.k, ?_,
        .inr (.inl ⟨hns2.1, hge, rfl⟩)⟩
      refine ⟨?_, fun i h _ => c6 i h, fun i h _ => c7 i h, fun i h _ => c8 i h, ?_, g1⟩
      · intro i h1 h2
        simp only at h1 ⊢
        rw [c5 i h2, c1 i h1]
      · intro i h1 h2
        simp only at h1 ⊢
        rw [g2 i h2]
        exact table_congr _ _ i 0 fun j hj => c6 j (by omega)
    · -- nothing changes but `ns`
      have hb : block1 s = { s with ns := nextNs s } := by simp [block1, hge]
      rw [hb]
      have hT : ∀ i, i < nextNs s → X 0 + s.h - X i = ((i : K) + 1) * s.h := by
        intro i
        induction i with
        | zero => intro _; simp
        | succ i ih =>
          intro hi
          have h1 := ih (by omega)
          have h2 := hsteps i hi
          push_cast
          linear_combination h1 + h2
      -- entries up to the order
      obtain ⟨L', hL'k, hL'ns, hsame'⟩ : ∃ L', s.k ≤ L' ∧ nextNs s = L' + 1 ∧ Same s s.h (nextNs s) L' := by
        rw [hns] at hge ⊢
        rcases hshape with h | h | h
        · -- first step of this size: order one
          rw [if_pos (by omega)] at hge ⊢
          refine ⟨1, by omega, by omega, ?_⟩
          have hL1 : 1 ≤ L := by omega
          refine ⟨fun i h1 h2 => hsame.psi i (by omega) (by omega), fun i h1 h2 => hsame.alpha i (by omega) (by omega),
            fun i h1 h2 => hsame.beta i (by omega) (by omega), fun i h1 h2 => hsame.sig i (by omega) (by omega),
            fun i h1 h2 => hsame.g i (by omega) (by omega), ?_⟩
          intro q hq
          rw [hsame.v q (by omega)]
          congr 1
          omega
        · rw [if_pos (by omega)] at hge
          omega
        · have hns' : (if s.ns ≤ s.kold then s.ns + 1 else s.ns) = L + 1 := by
            split <;> omega
          rw [hns'] at hge ⊢
          refine ⟨L, by omega, rfl, ?_⟩
          refine ⟨fun i h1 h2 => hsame.psi i (by omega) (by omega), fun i h1 h2 => hsame.alpha i (by omega) (by omega),
            fun i h1 h2 => hsame.beta i (by omega) (by omega), fun i h1 h2 => hsame.sig i (by omega) (by omega),
            fun i h1 h2 => hsame.g i (by omega) (by omega), ?_⟩
          intro q hq
          rw [hsame.v q (by omega)]
          congr 1
          omega
      have hq : ∀ i, i < nextNs s → quots X s.h i = cAlpha i := by
        intro i hi
        unfold quots cAlpha
        rw [hT i hi]
        have : ((i : K) + 1) ≠ 0 := by positivity
        field_simp
      refine ⟨?_, ?_, ?_, ?_, ?_, hsteps, by simp only; omega, L', ?_, .inr (.inr ⟨hL'ns, hL'k⟩)⟩
      · intro i h
        simp only
        rw [hsame'.psi i (by omega) (by omega), hT i (by omega)]
      · intro i h
        simp only
        rw [hsame'.alpha i (by omega) (by omega), hq i (by omega)]
      · intro i h
        simp only
        rw [hsame'.beta i (by omega) (by omega)]
        symm
        refine prod_eq_one fun j hj => ?_
        have hj := mem_range.1 hj
        have h1 := hT j (by omega)
        have h2 := hT (j + 1) (by omega)
        push_cast at h2
        have h3 : X 0 - X (j + 1) = ((j : K) + 1) * s.h := by linear_combination h2
        rw [h1, h3]
        have : ((j : K) + 1) ≠ 0 := by positivity
        exact div_self (mul_ne_zero this hh)
      · intro i h
        simp only
        rw [hsame'.sig i (by omega) (by omega)]
        symm
        refine prod_eq_one fun j hj => ?_
        have hj := mem_range.1 hj
        rw [hq j (by omega), cAlpha]
        have : ((j : K) + 1) ≠ 0 := by positivity
        field_simp
      · intro i h
        simp only
        rw [hsame'.g i (by omega) (by omega)]
        exact table_congr _ _ i 0 fun j hj => (hq j (by omega)).symm
      · exact ⟨hsame'.psi, hsame'.alpha, hsame'.beta, hsame'.sig, hsame'.g, hsame'.v⟩
  · -- a new step size
    have hns : nextNs s = 1 := nextNs_reset s heq
    have hge : nextNs s ≤ s.k := by omega
    obtain ⟨c1, c2, c3, c4, c5, c6, c7, c8⟩ := coefs_spec s X 1 le_rfl hk1 hh (fun i h => by omega) ha.psi
      (fun i h => by omega) (fun i h => by omega) (fun i h => by rw [show i = 0 by omega]; exact ha.sig0)
    obtain ⟨g1, g2⟩ := gCoefs_first s (coefs s 1).alpha hk1 (by rw [c6 0 (by omega), cAlpha_zero]) ha.g0 ha.g1
    have hb : block1 s = { s with
        ns := 1, psi := (coefs s 1).psi, beta := (coefs s 1).beta,
        alpha := (coefs s 1).alpha, sig := (coefs s 1).sig,
        v := (gCoefs s 1 (coefs s 1).alpha).1,
        w := (gCoefs s 1 (coefs s 1).alpha).2.1,
        g := (gCoefs s 1 (coefs s 1).alpha).2.2 } := by
      have : s.k ≥ 1 := hk1
      simp [block1, hns, this]
    rw [hb]
    have htab : ∀ i, i ≤ s.k → table (coefs s 1).alpha i 0 = table (quots X s.h) i 0 :=
      fun i h => table_congr _ _ i 0 fun j hj => c2 j (by omega)
    refine ⟨c5, c2, c3, c4, fun i h => (g2 i h).trans (htab i h), fun i h => by simp only at h; omega, le_rfl, s.k, ?_,
      .inl ⟨rfl, rfl⟩⟩
    refine ⟨?_, fun i h _ => c6 i h, fun i h _ => c7 i h, fun i h _ => c8 i h, ?_, ?_⟩
    · intro i h1 h2
      simp only at h1 ⊢
      rw [c5 i h2, c1 i h1]
    · intro i h1 h2
      simp only at h1 ⊢
      rw [g2 i h2]
      exact table_congr _ _ i 0 fun j hj => c6 j (by omega)
    · intro q hq
      simp only
      rw [g1 q hq]
      congr 1
      omega

end Verif.Sgode
