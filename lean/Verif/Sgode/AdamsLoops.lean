import Verif.Sgode.AdamsSpec
import Verif.Sgode.Inv

/-! What the loops of block 1 compute, in terms of the table of Adams coefficients. -/
namespace Verif.Sgode

open Finset

variable {K : Type} [Field K] [LinearOrder K] [IsStrictOrderedRing K] {n : Nat}

/-- The quotients for equal steps. -/
def cAlpha (j : Nat) : K := 1 / ((j : K) + 1)

theorem coefLoop_alpha_other (h : K) : ∀ (m i : Nat) (c : Coef K) (j : Nat), j < i →
    (coefLoop h m i c).alpha j = c.alpha j
  | 0, _, _, _, _ => rfl
  | m + 1, i, c, j, hj => by
    simp only [coefLoop]
    rw [coefLoop_alpha_other h m (i + 1) _ j (by omega)]
    simp only
    rw [put_ne _ _ (by omega)]

theorem coefLoop_sig_other (h : K) : ∀ (m i : Nat) (c : Coef K) (j : Nat), j ≤ i →
    (coefLoop h m i c).sig j = c.sig j
  | 0, _, _, _, _ => rfl
  | m + 1, i, c, j, hj => by
    simp only [coefLoop]
    rw [coefLoop_sig_other h m (i + 1) _ j (by omega)]
    simp only
    rw [put_ne _ _ (by omega)]

/-- The loop of sgode_step.cpp:106-114 with the distances `T` of the new point. -/
theorem coefLoop_spec (h : K) (T B S : Nat → K) : ∀ (m i : Nat) (c : Coef K), 1 ≤ i → c.tmp1 = T (i - 1) →
    (∀ j, i ≤ j + 1 → j + 1 < i + m → c.psi j + h = T (j + 1)) →
    c.beta (i - 1) = B (i - 1) → (∀ j, i ≤ j → j < i + m → B j = B (j - 1) * T (j - 1) / c.psi (j - 1)) →
    c.sig i = S i → (∀ j, i ≤ j → j < i + m → S (j + 1) = ((j : K) + 1) * (h / T j * S j)) →
    ∀ j, i ≤ j → j < i + m → (coefLoop h m i c).beta j = B j ∧ (coefLoop h m i c).alpha j = h / T j ∧
      (coefLoop h m i c).sig (j + 1) = S (j + 1)
  | 0, _, _, _, _, _, _, _, _, _, j, h1, h2 => by omega
  | m + 1, i, c, hi, ht, hp, hb, hB, hs, hS, j, h1, h2 => by
    have hbi : c.beta (i - 1) * c.tmp1 / c.psi (i - 1) = B i := by
      rw [hb, ht, hB i le_rfl (by omega)]
    have hti : c.psi (i - 1) + h = T i := by
      have := hp (i - 1) (by omega) (by omega)
      rwa [show i - 1 + 1 = i by omega] at this
    have hsi : ((i : K) + 1) * (h / T i * c.sig i) = S (i + 1) := by
      rw [hs, hS i le_rfl (by omega)]
    simp only [coefLoop]
    rw [put_same, hbi, hti, put_same, hsi]
    by_cases hj : j = i
    · subst hj
      rw [coefLoop_beta_other _ _ _ _ _ (.inl (by omega)), coefLoop_alpha_other _ _ _ _ _ (by omega),
        coefLoop_sig_other _ _ _ _ _ le_rfl]
      simp only
      rw [put_same, put_same, put_same]
      exact ⟨rfl, rfl, rfl⟩
    · refine coefLoop_spec h T B S m (i + 1) _ (by omega) rfl ?_ ?_ ?_ ?_ ?_ j (by omega) (by omega)
      · intro l l1 l2
        simp only
        rw [put_ne _ _ (by omega)]
        exact hp l (by omega) (by omega)
      · simp only [Nat.add_sub_cancel]
        rw [put_same]
      · intro l l1 l2
        simp only
        rw [put_ne _ _ (by omega)]
        exact hB l (by omega) (by omega)
      · simp only
        rw [put_same]
      · intro l l1 l2
        exact hS l (by omega) (by omega)

/-- The loop of sgode_step.cpp:173-180. -/
theorem gLoop_spec (α : Nat → K) (kp2 : Nat) : ∀ (m i : Nat) (w g : Nat → K), 2 ≤ i → i + m ≤ kp2 →
    (∀ q, q + i ≤ kp2 → w q = table α (i - 2) q) →
    (∀ j, i ≤ j + 1 → j + 1 < i + m → (gLoop α kp2 m i w g).2 j = table α j 0) ∧
    (∀ j, j + 1 < i ∨ i + m ≤ j + 1 → (gLoop α kp2 m i w g).2 j = g j)
  | 0, i, w, g, _, _, _ => ⟨fun j h1 h2 => by omega, fun _ _ => rfl⟩
  | m + 1, i, w, g, hi, hk, hw => by
    have hw' : ∀ q, q + (i + 1) ≤ kp2 → shiftSub w (α (i - 2)) (kp2 - i) q = table α (i + 1 - 2) q := by
      intro q hq
      unfold shiftSub
      rw [if_pos (by omega), hw q (by omega), hw (q + 1) (by omega), show i + 1 - 2 = i - 2 + 1 by omega]
      rfl
    obtain ⟨r1, r2⟩ := gLoop_spec α kp2 m (i + 1) (shiftSub w (α (i - 2)) (kp2 - i))
      (put g (i - 1) (shiftSub w (α (i - 2)) (kp2 - i) 0)) (by omega) (by omega) hw'
    simp only [gLoop]
    constructor
    · intro j h1 h2
      by_cases hj : j + 1 = i
      · rw [r2 j (by omega), show i - 1 = j by omega, put_same, hw' 0 (by omega), show i + 1 - 2 = j by omega]
      · exact r1 j (by omega) (by omega)
    · intro j hj
      rw [r2 j (by omega), put_ne _ _ (by omega)]

/-- The diagonal update of sgode_step.cpp:144-151 raises entries by one row. -/
theorem diagLoop_spec (α : Nat → K) : ∀ (m i j : Nat) (v : Nat → K), m ≤ i →
    v i = table cAlpha j i → (∀ l, l < m → v (i - 1 - l) = table cAlpha (j + l) (i - 1 - l)) →
    (∀ l, l < m → α (j + l) = cAlpha (j + l)) →
    (∀ l, l < m → diagLoop α m i j v (i - 1 - l) = table cAlpha (j + l + 1) (i - 1 - l)) ∧
    (∀ q, i ≤ q ∨ q + m < i → diagLoop α m i j v q = v q)
  | 0, _, _, _, _, _, _, _ => ⟨fun l hl => by omega, fun _ _ => rfl⟩
  | m + 1, i, j, v, hm, hi, hv, hα => by
    have h0 : v (i - 1) - α j * v i = table cAlpha (j + 1) (i - 1) := by
      have a := hv 0 (by omega)
      have b := hα 0 (by omega)
      simp only [Nat.sub_zero, Nat.add_zero] at a b
      rw [a, b, hi, table, show i - 1 + 1 = i by omega]
    obtain ⟨r1, r2⟩ := diagLoop_spec α m (i - 1) (j + 1) (put v (i - 1) (v (i - 1) - α j * v i)) (by omega)
      (by rw [put_same, h0])
      (by
        intro l hl
        rw [put_ne _ _ (by omega)]
        have := hv (l + 1) (by omega)
        rw [show i - 1 - 1 - l = i - 1 - (l + 1) by omega, show j + 1 + l = j + (l + 1) by omega]
        exact this)
      (by
        intro l hl
        have := hα (l + 1) (by omega)
        rw [show j + 1 + l = j + (l + 1) by omega]
        exact this)
    simp only [diagLoop]
    constructor
    · intro l hl
      cases l with
      | zero =>
        simp only [Nat.sub_zero, Nat.add_zero]
        rw [r2 (i - 1) (by omega), put_same, h0]
      | succ l =>
        have := r1 l (by omega)
        rw [show i - 1 - (l + 1) = i - 1 - 1 - l by omega, show j + (l + 1) + 1 = j + 1 + l + 1 by omega]
        exact this
    · intro q hq
      rw [r2 q (by omega), put_ne _ _ (by omega)]

theorem table_one (α : Nat → K) (h : α 0 = 1) (q : Nat) :
    table α 1 q = 1 / (((q : K) + 1) * ((q : K) + 2)) := by
  simp only [table, h]
  have h1 : ((q : K) + 1) ≠ 0 := by positivity
  have h2 : ((q : K) + 2) ≠ 0 := by positivity
  push_cast
  field_simp
  ring

theorem cAlpha_zero : cAlpha 0 = (1 : K) := by simp [cAlpha]

/-- `v` and `g` after sgode_step.cpp:120-181 for the first step of a new size. -/
theorem gCoefs_first (s : St K n) (α : Nat → K) (hk : 1 ≤ s.k) (h0 : α 0 = 1) (g0 : s.g 0 = 1) (g1 : s.g 1 = 1 / 2) :
    (∀ q, q < s.k → (gCoefs s 1 α).1 q = table cAlpha 1 q) ∧
    (∀ i, i ≤ s.k → (gCoefs s 1 α).2.2 i = table α i 0) := by
  have hw : ∀ q, q + 3 ≤ s.k + 2 → copyTo s.w
      (fun iq => if iq < s.k then 1 / (((iq : K) + 1) * ((iq : K) + 2)) else s.v iq) s.k q = table α 1 q := by
    intro q hq
    unfold copyTo
    rw [if_pos (by omega)]
    simp only
    rw [if_pos (by omega), table_one α h0]
  constructor
  · intro q hq
    simp only [gCoefs, le_refl, if_true]
    rw [if_pos hq, table_one _ cAlpha_zero]
  · intro i hi
    simp only [gCoefs, le_refl, if_true]
    obtain ⟨r1, r2⟩ := gLoop_spec α (s.k + 2) (s.k + 1 + 1 - (1 + 2)) 3 _ s.g (by omega) (by omega) hw
    by_cases h3 : 3 ≤ i + 1
    · exact r1 i h3 (by omega)
    · rw [r2 i (by omega)]
      have : i = 0 ∨ i = 1 := by omega
      rcases this with rfl | rfl
      · rw [g0]; simp [table]
      · rw [g1, table_one α h0]; norm_num

/-- `v` and `g` after sgode_step.cpp:120-181 for a further step of the same size. -/
theorem gCoefs_more (s : St K n) (ns : Nat) (α : Nat → K) (hns : 2 ≤ ns) (hk : ns ≤ s.k)
    (hα : ∀ j, j < ns → α j = cAlpha j) (hg : ∀ i, i < ns → s.g i = table cAlpha i 0)
    (hv : ∀ q, q < s.k → (s.k > s.kold → q + 1 < s.k) →
      s.v q = table cAlpha (min (ns - 1) (if s.k > s.kold then s.k - 1 - q else s.k - q)) q) :
    (∀ q, q < s.k → (gCoefs s ns α).1 q = table cAlpha (min ns (s.k - q)) q) ∧
    (∀ i, i ≤ s.k → (gCoefs s ns α).2.2 i = table α i 0) := by
  -- after the diagonal update
  have hv1 : ∀ q, q < s.k → (if s.k > s.kold then
      diagLoop α (ns - 2) (s.k - 1) 1 (put s.v (s.k - 1) (1 / ((s.k : K) * ((s.k : K) + 1)))) else s.v) q =
      table cAlpha (min (ns - 1) (s.k - q)) q := by
    intro q hq
    by_cases hc : s.k > s.kold
    · rw [if_pos hc]
      have hlast : put s.v (s.k - 1) (1 / ((s.k : K) * ((s.k : K) + 1))) (s.k - 1) = table cAlpha 1 (s.k - 1) := by
        rw [put_same, table_one _ cAlpha_zero]
        have : ((s.k - 1 : Nat) : K) = (s.k : K) - 1 := by
          rw [Nat.cast_sub (by omega)]; simp
        rw [this]
        congr 1
        ring
      obtain ⟨r1, r2⟩ := diagLoop_spec α (ns - 2) (s.k - 1) 1 _ (by omega) hlast
        (by
          intro l hl
          rw [put_ne _ _ (by omega), hv (s.k - 1 - 1 - l) (by omega) (fun _ => by omega), if_pos hc]
          congr 1
          omega)
        (fun l hl => hα _ (by omega))
      by_cases h1 : q + (ns - 2) < s.k - 1
      · rw [r2 q (.inr h1), put_ne _ _ (by omega), hv q hq (fun _ => by omega), if_pos hc]
        congr 1
        omega
      · by_cases h2 : q = s.k - 1
        · rw [r2 q (by omega), h2, hlast]
          congr 1
          omega
        · have := r1 (s.k - 1 - 1 - q) (by omega)
          rw [show s.k - 1 - 1 - (s.k - 1 - 1 - q) = q by omega] at this
          rw [this]
          congr 1
          omega
    · rw [if_neg hc, hv q hq (fun h => absurd h hc), if_neg hc]
  generalize hV : (if s.k > s.kold then
      diagLoop α (ns - 2) (s.k - 1) 1 (put s.v (s.k - 1) (1 / ((s.k : K) * ((s.k : K) + 1)))) else s.v) = v1 at hv1
  have hv2 : ∀ q, q < s.k → shiftSub v1 (α (ns - 1)) (s.k + 1 - ns) q = table cAlpha (min ns (s.k - q)) q := by
    intro q hq
    unfold shiftSub
    by_cases hl : q < s.k + 1 - ns
    · rw [if_pos hl, hv1 q hq, hv1 (q + 1) (by omega), hα (ns - 1) (by omega),
        show min (ns - 1) (s.k - q) = ns - 1 by omega, show min (ns - 1) (s.k - (q + 1)) = ns - 1 by omega,
        show min ns (s.k - q) = ns - 1 + 1 by omega]
      rfl
    · rw [if_neg hl, hv1 q hq]
      congr 1
      omega
  have hlt : ¬ ns ≤ 1 := by omega
  have htab : ∀ q, table cAlpha ns q = table α ns q := fun q => table_congr _ _ ns q fun j hj => (hα j hj).symm
  have hw : ∀ q, q + (ns + 2) ≤ s.k + 2 →
      copyTo s.w (shiftSub v1 (α (ns - 1)) (s.k + 1 - ns)) (s.k + 1 - ns) q = table α (ns + 2 - 2) q := by
    intro q hq
    unfold copyTo
    rw [if_pos (by omega), hv2 q (by omega), show min ns (s.k - q) = ns by omega, htab]
    rfl
  constructor
  · intro q hq
    simp only [gCoefs, hlt, if_false, hV]
    exact hv2 q hq
  · intro i hi
    simp only [gCoefs, hlt, if_false, hV]
    obtain ⟨r1, r2⟩ := gLoop_spec α (s.k + 2) (s.k + 1 + 1 - (ns + 2)) (ns + 2)
      (copyTo s.w (shiftSub v1 (α (ns - 1)) (s.k + 1 - ns)) (s.k + 1 - ns))
      (put s.g ns (copyTo s.w (shiftSub v1 (α (ns - 1)) (s.k + 1 - ns)) (s.k + 1 - ns) 0)) (by omega) (by omega) hw
    by_cases h3 : ns + 2 ≤ i + 1
    · exact r1 i h3 (by omega)
    · rw [r2 i (by omega)]
      by_cases h4 : i = ns
      · rw [h4, put_same, hw 0 (by omega)]
        rfl
      · rw [put_ne _ _ h4, hg i (by omega)]
        exact table_congr _ _ i 0 fun j hj => (hα j (by omega)).symm

end Verif.Sgode
