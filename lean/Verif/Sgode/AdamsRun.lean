import Verif.Sgode.AdamsInv

/-! The invariant through attempts, rejections and acceptances. -/
namespace Verif.Sgode

open Finset

variable {K : Type} [Field K] [LinearOrder K] [IsStrictOrderedRing K] {n : Nat}

/-- The term of Newton's form at the new point. -/
def star (X : Nat → K) (D : Nat → Vec K n) (h : K) (i : Nat) : Vec K n := nodal X (X 0 + h) i • dd X D 0 i

theorem AInv.far {d : K} {s : St K n} {N : Nat} {X : Nat → K} {D : Nat → Vec K n} (ha : AInv d s N X D)
    (i : Nat) : ∀ (m : Nat), i + m + 1 < N → 0 < d * (X i - X (i + m + 1))
  | 0, h => ha.dir i h
  | m + 1, h => by
    have h1 := ha.far i m (by omega)
    have h2 := ha.dir (i + m + 1) h
    have : d * (X i - X (i + (m + 1) + 1)) = d * (X i - X (i + m + 1)) + d * (X (i + m + 1) - X (i + m + 1 + 1)) := by
      rw [show i + (m + 1) + 1 = i + m + 1 + 1 by omega]
      ring
    rw [this]
    exact add_pos h1 h2

theorem AInv.distinct {d : K} {s : St K n} {N : Nat} {X : Nat → K} {D : Nat → Vec K n} (ha : AInv d s N X D)
    (i j : Nat) (hij : i < j) (hj : j < N) : X i ≠ X j := by
  have := ha.far i (j - i - 1) (by omega)
  rw [show i + (j - i - 1) + 1 = j by omega] at this
  exact sub_ne_zero.1 (dir_ne this)

theorem AInv.new {d : K} {s : St K n} {N : Nat} {X : Nat → K} {D : Nat → Vec K n} (hi : LInv d s)
    (ha : AInv d s N X D) (j : Nat) (hj : j < N) : X 0 + s.h - X j ≠ 0 := by
  cases j with
  | zero => simpa using dir_ne hi.hdir
  | succ j =>
    have h1 := ha.far 0 j (by omega)
    have h2 := hi.hdir
    rw [Nat.zero_add] at h1
    have : 0 < d * (X 0 + s.h - X (j + 1)) := by
      have e : d * (X 0 + s.h - X (j + 1)) = d * (X 0 - X (j + 1)) + d * s.h := by ring
      rw [e]
      exact add_pos h1 h2
    exact dir_ne this

theorem phiStar_eq {d : K} {s : St K n} {N : Nat} {X : Nat → K} {D : Nat → Vec K n} (hi : LInv d s)
    (ha : AInv d s N X D) (i : Nat) (hik : i < s.k) : phiStar (block1 s) i = star X D s.h i := by
  have hb := block1_block hi
  have hp := block1_post hi ha
  have hk := (block1_fields s).1
  have hphi := (block1_fields s).2.2.2.2.2
  have h1 : phiStar (block1 s) i = (block1 s).beta i • s.phi i := by
    unfold phiStar
    rw [hk, hphi]
    by_cases h : (block1 s).ns ≤ i
    · rw [if_pos ⟨h, hik⟩]
    · rw [if_neg (fun hh => h hh.1), hb.betaOne i (by omega) hik, one_smul]
  have hlen := ha.len
  rw [h1, hp.beta i hik, ha.phi i hik, modDiff, smul_smul, ← prod_mul_distrib, star, nodal]
  congr 1
  refine prod_congr rfl fun j hj => ?_
  have hj := mem_range.1 hj
  rw [div_mul_cancel₀]
  exact sub_ne_zero.2 (ha.distinct 0 (j + 1) (by omega) (by omega))

theorem predict_fst (g : Nat → K) : ∀ (m : Nat) (p : Vec K n) (phi : Nat → Vec K n),
    (predict g m p phi).1 = p + ∑ i ∈ range m, g i • phi i
  | 0, p, phi => by simp [predict]
  | m + 1, p, phi => by
    simp only [predict]
    rw [predict_fst g m, sum_range_succ, sum_congr rfl (g := fun i => g i • phi i)]
    · abel
    · intro i hi
      rw [put_ne _ _ (by have := mem_range.1 hi; omega)]

/-- The predicted increment. -/
theorem predict_increment {d : K} {s : St K n} {N : Nat} {X : Nat → K} {D : Nat → Vec K n} (hi : LInv d s)
    (ha : AInv d s N X D) :
    (predict (block1 s).g (block1 s).k 0 (shifted (block1 s))).1 =
      ∑ i ∈ range s.k, table (quots X s.h) i 0 • star X D s.h i := by
  have hp := block1_post hi ha
  rw [predict_fst, zero_add, (block1_fields s).1]
  refine sum_congr rfl fun i hi' => ?_
  have hik := mem_range.1 hi'
  rw [hp.g i hik.le]
  congr 1
  unfold shifted
  rw [(block1_fields s).1, put_ne _ _ (by omega), put_ne _ _ (by omega), phiStar_eq hi ha i hik]

/-- The differences after the prediction. -/
theorem attempt_phi (e : Ext K n) {d : K} {s : St K n} {N : Nat} {X : Nat → K} {D : Nat → Vec K n} (hi : LInv d s)
    (ha : AInv d s N X D) : ∀ (m i : Nat), i + m = s.k → (attempt e s).phi i = ∑ j ∈ Ico i s.k, star X D s.h j
  | 0, i, him => by
    have hk := (block1_fields s).1
    have hk12 := hi.k12
    unfold attempt
    rw [phi_predicted e _ i (by omega), predict_phi_ge _ _ _ _ i (by omega), shifted, hk, put, if_pos (by omega),
      show i = s.k by omega, Ico_self, sum_empty]
  | m + 1, i, him => by
    have hk := (block1_fields s).1
    have hk12 := hi.k12
    have ih := attempt_phi e hi ha m (i + 1) (by omega)
    unfold attempt at ih ⊢
    rw [phi_predicted e _ (i + 1) (by omega)] at ih
    rw [phi_predicted e _ i (by omega), predict_phi _ _ _ _ i (by omega), ih]
    have : shifted (block1 s) i = star X D s.h i := by
      unfold shifted
      rw [hk, put_ne _ _ (by omega), put_ne _ _ (by omega), phiStar_eq hi ha i (by omega)]
    rw [this, sum_eq_sum_Ico_succ_bot (by omega : i < s.k)]

/-- The differences with the new point in front. -/
theorem modDiff_new {d : K} {s : St K n} {N : Nat} {X : Nat → K} {D : Nat → Vec K n} (hi : LInv d s)
    (ha : AInv d s N X D) (b : Vec K n) : ∀ (i : Nat), i ≤ s.k →
    modDiff (push (X 0 + s.h) X) (push b D) i = b - ∑ j ∈ range i, star X D s.h j
  | 0, _ => by simp [modDiff, dd, push]
  | i + 1, h => by
    have := ha.len
    rw [modDiff_push _ _ _ _ _ (sub_ne_zero.1 (ha.new hi i (by omega))), modDiff_new hi ha b i (by omega),
      sum_range_succ, star]
    abel

/-- The differences after an accepted step. -/
theorem accept_phi (e : Ext K n) (p5eps : K) (q : Est K) {d : K} {s : St K n} {N : Nat} {X : Nat → K} {D : Nat → Vec K n}
    (hi : LInv d s) (ha : AInv d s N X D) (i : Nat) (hik : i ≤ s.k) :
    (accept e p5eps q (attempt e s)).phi i =
      modDiff (push (X 0 + s.h) X) (push (accept e p5eps q (attempt e s)).yp D) i := by
  have hk12 := hi.k12
  have hk1 := hi.k1
  have ak : (attempt e s).k = s.k := (attempt_fields e s).1
  have h0 := attempt_phi e hi ha s.k 0 (by omega)
  rw [modDiff_new hi ha _ i hik]
  have hphi : ∀ l, l < 14 → (if (attempt e s).nornd = true then
      ((attempt e s).p + ((attempt e s).h * (attempt e s).g (attempt e s).k) • ((attempt e s).yp - (attempt e s).phi 0),
        (attempt e s).phi)
      else
        ((attempt e s).p + (((attempt e s).h * (attempt e s).g (attempt e s).k) • ((attempt e s).yp - (attempt e s).phi 0) -
            (attempt e s).phi 15),
          put (attempt e s).phi 14 ((attempt e s).p + (((attempt e s).h * (attempt e s).g (attempt e s).k) •
            ((attempt e s).yp - (attempt e s).phi 0) - (attempt e s).phi 15) - (attempt e s).p -
            (((attempt e s).h * (attempt e s).g (attempt e s).k) • ((attempt e s).yp - (attempt e s).phi 0) -
              (attempt e s).phi 15)))).2 l = (attempt e s).phi l := by
    intro l hl
    split
    · rfl
    · exact put_ne _ _ (by omega)
  simp only [accept, corrected]
  rw [ak]
  rw [ak] at hphi
  by_cases hlt : i < s.k
  · have hIco := sum_range_add_sum_Ico (star X D s.h) hlt.le
    rw [if_pos hlt, put_ne _ _ (by omega), put_ne _ _ (by omega), put_ne _ _ (by omega), put_same, hphi i (by omega),
      hphi 0 (by omega), h0, attempt_phi e hi ha (s.k - i) i (by omega), Nat.Ico_zero_eq_range, ← hIco]
    abel
  · have : i = s.k := by omega
    subst this
    rw [if_neg (lt_irrefl _), put_ne _ _ (by omega), put_same, hphi 0 (by omega), h0, Nat.Ico_zero_eq_range]

/-! ### Histories -/

/-- As `AtAttempt`, with the points passed: `N` of them, at `X` (newest first) with derivatives `D`.
Excluded are two situations in which the code keeps coefficients that do not belong to the points
(`stale_psi_counterexample`, `stale_v_counterexample`): a rejection at order one that returns to
the step size of the last accepted step, and a step of unchanged size with a lower order before
as many equal steps have been made as the order was. -/
inductive Run (e : Ext K n) (d : K) : St K n → Nat → (Nat → K) → (Nat → Vec K n) → Prop
  | first (s : St K n) (eps round : K) (h : 0 < d * s.h) (heps : 0 < eps) :
      Run e d (initialise e eps (1 / 2 * eps) round (initCoefs s)) 1 (fun _ => s.x) (fun _ => e.f s.x s.yy)
  | retry (s : St K n) (N : Nat) (X : Nat → K) (D : Nat → Vec K n) (eps : K) (ifail : Int) (hs : Run e d s N X D)
      (heps : 0 < eps)
      (hc : (reject e (1 / 2 * eps) (estimates e (attempt e s)) ifail s.x (attempt e s)).h = s.hold → 2 ≤ s.k) :
      Run e d (reject e (1 / 2 * eps) (estimates e (attempt e s)) ifail s.x (attempt e s)) N X D
  | next (s : St K n) (N : Nat) (X : Nat → K) (D : Nat → Vec K n) (eps h' : K) (wt : Vec K n) (hs : Run e d s N X D)
      (hh : 0 < d * h')
      (hc : h' = s.h → (accept e (1 / 2 * eps) (estimates e (attempt e s)) (attempt e s)).k < s.k →
        (attempt e s).ns ≤ 1 ∨ s.k ≤ (attempt e s).ns) :
      Run e d (initCoefs { accept e (1 / 2 * eps) (estimates e (attempt e s)) (attempt e s) with h := h', wt := wt })
        (N + 1) (push (s.x + s.h) X) (push (accept e (1 / 2 * eps) (estimates e (attempt e s)) (attempt e s)).yp D)

theorem Run.atAttempt {e : Ext K n} {d : K} {s : St K n} {N : Nat} {X : Nat → K} {D : Nat → Vec K n}
    (h : Run e d s N X D) : AtAttempt e d s := by
  induction h with
  | first s eps round h heps => exact .first s eps round h heps
  | retry s N X D eps ifail _ heps _ ih => exact .retry s eps ifail ih heps
  | next s N X D eps h' wt _ hh _ ih => exact .next s eps h' wt ih hh

theorem attempt_arrays (e : Ext K n) (s : St K n) :
    (attempt e s).alpha = (block1 s).alpha ∧ (attempt e s).sig = (block1 s).sig ∧
    (attempt e s).g = (block1 s).g ∧ (attempt e s).v = (block1 s).v ∧ (attempt e s).x = s.x + s.h := by
  have h2 := block1_fields s
  unfold attempt predicted
  simp only
  exact ⟨trivial, trivial, trivial, trivial, by rw [h2.2.2.2.2.1, h2.2.1]⟩

theorem initialise_ainv {e : Ext K n} {d eps p5eps round : K} (s : St K n)
    (hl : LInv d (initialise e eps p5eps round (initCoefs s))) :
    AInv d (initialise e eps p5eps round (initCoefs s)) 1 (fun _ => s.x) (fun _ => e.f s.x s.yy) := by
  have hne := dir_ne hl.hdir
  refine ⟨le_rfl, rfl, fun i h => by omega, ?_, fun i h => ?_, rfl, rfl, rfl, fun _ => rfl, fun h => ?_, fun h => ?_⟩
  · intro i h
    have hi : i = 0 := by
      have : i < 1 := h
      omega
    subst hi
    simp only [modDiff, range_zero, prod_empty, one_smul, dd, initialise]
    split <;> simp [put, initCoefs]
  · have : i + 1 < 1 := h
    omega
  · have : 1 ≤ 0 := h
    omega
  · exact absurd h hne

theorem reject_ainv {e : Ext K n} (he : e.Ok) {d eps : K} (heps : 0 < eps) {s : St K n} {N : Nat} {X : Nat → K}
    {D : Nat → Vec K n} (hat : AtAttempt e d s) (hi : LInv d s) (ha : AInv d s N X D) (ifail : Int)
    (hc : (reject e (1 / 2 * eps) (estimates e (attempt e s)) ifail s.x (attempt e s)).h = s.hold → 2 ≤ s.k) :
    AInv d (reject e (1 / 2 * eps) (estimates e (attempt e s)) ifail s.x (attempt e s)) N X D := by
  have hp := block1_post hi ha
  have hb := block1_block hi
  obtain ⟨a1, a2, a3, a4, a5, a6, a7⟩ := attempt_fields e s
  obtain ⟨b1, b2, b3, b4, b5⟩ := attempt_arrays e s
  have hk := estimates_knew e (attempt e s) (by rw [a1]; exact hi.k1)
  obtain ⟨t1, t2, t3⟩ := shrink_spec e he (1 / 2 * eps) (by linarith) (estimates e (attempt e s)) ifail
  have hres := rejected_restores e he d s hat (1 / 2 * eps) ifail
  obtain ⟨r1, r2, r3, r4, r5, r6, r7, r8, r9⟩ :=
    reject_fields e (1 / 2 * eps) (estimates e (attempt e s)) ifail s.x (attempt e s)
  have r10 : (reject e (1 / 2 * eps) (estimates e (attempt e s)) ifail s.x (attempt e s)).alpha = (block1 s).alpha :=
    b1
  have r11 : (reject e (1 / 2 * eps) (estimates e (attempt e s)) ifail s.x (attempt e s)).sig = (block1 s).sig :=
    b2
  have r12 : (reject e (1 / 2 * eps) (estimates e (attempt e s)) ifail s.x (attempt e s)).g = (block1 s).g :=
    b3
  have r13 : (reject e (1 / 2 * eps) (estimates e (attempt e s)) ifail s.x (attempt e s)).v = (block1 s).v :=
    b4
  rw [a1] at hk r4
  rw [a2] at r7 r4
  rw [a6] at r4
  rw [a3] at r2
  rw [a4] at r1
  rw [a5] at r3
  rw [a7] at r5
  have hkle : (reject e (1 / 2 * eps) (estimates e (attempt e s)) ifail s.x (attempt e s)).k ≤ s.k := by
    rw [r6]
    have := hi.k1
    rcases t3 with h | h <;> omega
  generalize reject e (1 / 2 * eps) (estimates e (attempt e s)) ifail s.x (attempt e s) = R at *
  have hlen := ha.len
  have hk1 := hi.k1
  have hh : s.h ≠ 0 := dir_ne hi.hdir
  refine ⟨by omega, by rw [r8, ha.x], ha.dir, ?_, ?_, ?_, ?_, ?_, ?_, ?_, ?_⟩
  · intro i h
    rw [hres.2 i (by omega), ha.phi i (by omega)]
  · intro i h
    rw [r4]
    simp only
    rw [if_pos (by omega), hp.psi (i + 1) (by omega)]
    ring
  · rw [r12, hp.g 0 (by omega)]
    simp [table]
  · rw [r12, hp.g 1 (by omega), table_one _ (by simp [quots, hh])]
    norm_num
  · rw [r11, hp.sig 0 (by omega)]
    simp
  · rw [r1, r2]
    exact ha.fresh
  · rw [r1, r2]
    exact ha.last
  · intro heq
    rw [r2] at heq
    have h2 := hc heq
    have hne : s.h ≠ s.hold := by
      intro hcon
      rw [r7, ← hcon] at heq
      have : ((shrink e (1 / 2 * eps) (estimates e (attempt e s)) ifail).1 - 1) * s.h = 0 := by
        linear_combination heq
      rcases mul_eq_zero.1 this with h | h
      · linarith
      · exact hh h
    have hhold : s.hold ≠ 0 := by
      rw [← heq, r7]
      exact mul_ne_zero t1.ne' hh
    have hkold : 1 ≤ s.kold := by
      by_contra hcon
      exact hhold (ha.fresh (by omega))
    have hns : R.ns = 1 := by rw [r3, hb.reset hne]
    obtain ⟨L, hsame, hshape⟩ := hp.same
    have hbn : (block1 s).ns = 1 := hb.reset hne
    have hL : L = s.k := by
      rcases hshape with h | h | h
      · exact h.2
      · omega
      · omega
    subst hL
    rw [hbn] at hsame
    refine ⟨by rw [r1]; exact hkold, ?_, s.k, ?_, ?_⟩
    · intro i h
      have : i = 0 := by omega
      subst this
      rw [heq, ha.last hkold]
    · rw [hns]
      refine ⟨?_, ?_, ?_, ?_, ?_, ?_⟩
      · intro i h1 _
        have : i = 0 := by omega
        subst this
        rw [r4]
        simp only
        rw [if_pos (by omega), hp.psi 1 (by omega), heq, ha.last hkold]
        push_cast
        ring
      · intro i h1 h3
        rw [r10]
        exact hsame.alpha i h1 h3
      · intro i h1 h3
        rw [r5]
        exact hsame.beta i h1 h3
      · intro i h1 h3
        rw [r11]
        exact hsame.sig i h1 h3
      · intro i h1 h3
        rw [r12]
        exact hsame.g i h1 h3
      · intro q h1
        rw [r13]
        exact hsame.v q h1
    · exact .inl ⟨hns, .inl hkle⟩

theorem accept_ainv {e : Ext K n} {d eps : K} {s : St K n} {N : Nat} {X : Nat → K}
    {D : Nat → Vec K n} (hi : LInv d s) (ha : AInv d s N X D) (h' : K) (wt : Vec K n)
    (hc : h' = s.h → (accept e (1 / 2 * eps) (estimates e (attempt e s)) (attempt e s)).k < s.k →
        (attempt e s).ns ≤ 1 ∨ s.k ≤ (attempt e s).ns) :
    AInv d (initCoefs { accept e (1 / 2 * eps) (estimates e (attempt e s)) (attempt e s) with h := h', wt := wt })
      (N + 1) (push (s.x + s.h) X) (push (accept e (1 / 2 * eps) (estimates e (attempt e s)) (attempt e s)).yp D) := by
  have hp := block1_post hi ha
  obtain ⟨a1, a2, a3, a4, a5, a6, a7⟩ := attempt_fields e s
  obtain ⟨b1, b2, b3, b4, b5⟩ := attempt_arrays e s
  have hphi := accept_phi e (1 / 2 * eps) (estimates e (attempt e s)) hi ha
  obtain ⟨c1, c2, c3, c4, c5, c6⟩ := accept_fields e (1 / 2 * eps) (estimates e (attempt e s)) (attempt e s)
  have c7 : (accept e (1 / 2 * eps) (estimates e (attempt e s)) (attempt e s)).alpha = (block1 s).alpha := b1
  have c8 : (accept e (1 / 2 * eps) (estimates e (attempt e s)) (attempt e s)).sig = (block1 s).sig := b2
  have c9 : (accept e (1 / 2 * eps) (estimates e (attempt e s)) (attempt e s)).g = (block1 s).g := b3
  have c10 : (accept e (1 / 2 * eps) (estimates e (attempt e s)) (attempt e s)).v = (block1 s).v := b4
  have c11 : (accept e (1 / 2 * eps) (estimates e (attempt e s)) (attempt e s)).x = s.x + s.h := b5
  have hno := accept_order e (1 / 2 * eps) (attempt e s) (by rw [a1]; exact hi.k1) (by rw [a1]; exact hi.k12)
  rw [a1] at c1 hno
  rw [a2] at c2
  rw [a5] at c3
  rw [a6] at c4
  rw [a7] at c5
  rw [a5] at hc
  have hlen := ha.len
  have hk1 := hi.k1
  have hx : X 0 + s.h = s.x + s.h := by rw [ha.x]
  rw [hx] at hphi
  generalize accept e (1 / 2 * eps) (estimates e (attempt e s)) (attempt e s) = A at *
  refine ⟨?_, c11, ?_, ?_, ?_, rfl, rfl, rfl, ?_, ?_, ?_⟩
  · show A.k ≤ N + 1
    omega
  · intro i h
    cases i with
    | zero =>
      simp only [push]
      rw [← hx]
      have : d * (X 0 + s.h - X 0) = d * s.h := by ring
      rw [this]
      exact hi.hdir
    | succ i => exact ha.dir i (by omega)
  · intro i h
    have hk : i < A.k := h
    exact hphi i (by omega)
  · intro i h
    have hk : i + 1 < A.k := h
    show A.psi i = _
    rw [c4, hp.psi i (by omega), hx]
    rfl
  · intro h
    have : A.kold = 0 := h
    omega
  · intro _
    show A.hold = _
    rw [c2]
    simp only [push]
    rw [ha.x]
    ring
  · intro heq
    have heq' : h' = A.hold := heq
    rw [c2] at heq'
    obtain ⟨L, hsame, hshape⟩ := hp.same
    refine ⟨by show 1 ≤ A.kold; omega, ?_, L, ?_, ?_⟩
    · intro i h
      have h1 : i < A.ns := h
      show _ = h'
      cases i with
      | zero =>
        simp only [push]
        rw [heq', ha.x]
        ring
      | succ i =>
        simp only [push]
        rw [heq']
        exact hp.steps i (by omega)
    · show Same _ h' A.ns L
      rw [heq', c3]
      refine ⟨?_, ?_, ?_, ?_, ?_, ?_⟩
      · intro i h1 h2
        show A.psi i = _
        rw [c4]
        exact hsame.psi i h1 h2
      · intro i h1 h2
        show A.alpha i = _
        rw [c7]
        exact hsame.alpha i h1 h2
      · intro i h1 h2
        show A.beta i = _
        rw [c5]
        exact hsame.beta i h1 h2
      · intro i h1 h2
        show put A.sig 0 1 i = _
        by_cases h0 : i = 0
        · rw [h0, put_same]
        · rw [put_ne _ _ h0, c8]
          exact hsame.sig i h1 h2
      · intro i h1 h2
        show put (put A.g 0 1) 1 (1 / 2) i = _
        by_cases h0 : i = 1
        · rw [h0, put_same, table_one _ cAlpha_zero]
          norm_num
        · by_cases h00 : i = 0
          · rw [put_ne _ _ h0, h00, put_same]
            simp [table]
          · rw [put_ne _ _ h0, put_ne _ _ h00, c9]
            exact hsame.g i h1 h2
      · intro q h1
        show A.v q = _
        rw [c10]
        exact hsame.v q h1
    · show Shape A.k A.kold A.ns L
      rw [c1, c3]
      have hcl := hc heq'
      unfold Shape
      rcases hshape with h | h | h
      · left
        omega
      · by_cases hlt : (block1 s).ns < s.k
        · right; left
          have : ¬ A.k < s.k := by
            intro hcon
            have := hcl hcon
            omega
          omega
        · right; right
          omega
      · right; right
        omega

/-- In every history the arrays belong to the points passed. -/
theorem Run.ainv {e : Ext K n} (he : e.Ok) {d : K} {s : St K n} {N : Nat} {X : Nat → K} {D : Nat → Vec K n}
    (h : Run e d s N X D) : AInv d s N X D := by
  induction h with
  | first s eps round h heps => exact initialise_ainv s (initialise_inv he heps _ h)
  | retry s N X D eps ifail hs heps hc ih =>
    exact reject_ainv he heps hs.atAttempt (hs.atAttempt.inv he) ih ifail hc
  | next s N X D eps h' wt hs hh hc ih => exact accept_ainv (hs.atAttempt.inv he) ih h' wt hc

end Verif.Sgode
