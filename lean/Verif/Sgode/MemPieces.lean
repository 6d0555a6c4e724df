import Verif.Sgode.MemLemmas

/-! The pieces of a step are memory safe. -/
namespace Verif.Sgode
open Arr Ev

/-- A conjunction of bounds and of elements known to have values. -/
macro "accesses" : tactic => `(tactic| (
  simp only [Ok, InBounds, Safely, after, true_and, and_true, or_true, and_self, or_false, false_and,
    reduceCtorEq]
  repeat' apply And.intro))

theorem coefT_safe {W : Mem} {k ns m : Int} (h1 : 1 ≤ ns) (hk : ns ≤ k) (h12 : k ≤ 12) (hns : ns ≤ m + 1)
    (hkm : k ≤ m + 1) (hpsi : Upto W psi m) (hal : Upto W alpha m) (hbe : Upto W beta m)
    (hsig : Upto W sig (m + 1)) :
    Safely W (coefT k ns) fun V => Upto V psi (max m k) ∧ Upto V alpha (max m k) ∧ Upto V beta (max m k) ∧
      Upto V sig (max m k + 1) := by
  unfold coefT
  refine Safely.append (P := fun V => Upto V psi m ∧ Upto V alpha (max m k) ∧ Upto V beta (max m k) ∧
    Upto V sig (max m k + 1)) (Safely.append (P := fun V => Upto V psi m ∧ Upto V alpha (max m ns) ∧
    Upto V beta (max m ns) ∧ Upto V sig (max m ns + 1)) ⟨?_, ?_⟩ ?_) ?_
  · accesses <;> omega
  · refine ⟨hpsi.keep _, hal.grow _ _ ?_, hbe.grow _ _ ?_, hsig.grow _ _ ?_⟩ <;>
    · intro i h2 h3 h4
      simp
      omega
  · rintro V ⟨a1, a2, a3, a4⟩
    by_cases hc : k ≥ ns + 1
    · rw [if_pos hc]
      refine Safely.weaken (for_rule (fun i V => Upto V psi m ∧ Upto V alpha (max m i) ∧ Upto V beta (max m i) ∧
        Upto V sig (max m i + 1)) _ (ns + 1 - 1) k (by omega) ?_ ?_) fun W' h => h
      · have he : ns + 1 - 1 = ns := by omega
        rw [he]
        exact ⟨a1, a2, a3, a4⟩
      · rintro i V hi1 hi2 ⟨b1, b2, b3, b4⟩
        refine ⟨?_, b1.keep _, b2.grow _ _ ?_, b3.grow _ _ ?_, b4.grow _ _ ?_⟩
        · have r1 := b1 (i - 1) (by omega) (by omega)
          have r2 := b3 (i - 1) (by omega) (by omega)
          have r3 := b4 i (by omega) (by omega)
          accesses
          all_goals first
            | omega
            | (simp [r1]; done)
            | (simp [r2]; done)
            | (simp [r3]; done)
            | simp
        all_goals
          intro j h2 h3 h4
          simp
          omega
    · rw [if_neg hc]
      have he : ns = k := by omega
      subst he
      exact ⟨trivial, a1, a2, a3, a4⟩
  · rintro V ⟨a1, a2, a3, a4⟩
    refine ⟨?_, a1.grow _ _ ?_, a2.keep _, a3.keep _, a4.keep _⟩
    · accesses <;> omega
    · intro i h2 h3 h4
      simp
      omega

theorem copyT_safe {W : Mem} {m : Int} (h0 : 0 ≤ m) (h12 : m ≤ 12) (hv : Upto W v m) :
    Safely W (copyT m) fun V => Upto V w m := by
  unfold copyT
  refine Safely.weaken (for_rule (fun i V => Upto V v m ∧ Upto V w i) _ 0 m h0 ⟨hv, fun i h1 h2 => by omega⟩ ?_)
    fun V h => h.2
  rintro i V h1 h2 ⟨b1, b2⟩
  refine ⟨?_, b1.keep _, b2.grow _ _ ?_⟩
  · have r1 := b1 i (by omega) (by omega)
    accesses
    all_goals first
      | omega
      | exact r1
  · intro j h3 h4 h5
    simp
    omega

theorem firstVT_safe {W : Mem} {k m : Int} (h1 : 1 ≤ k) (h12 : k ≤ 12) (hv : Upto W v m) :
    Safely W (firstVT k) fun V => Upto V v (max m k) ∧ Upto V w k := by
  unfold firstVT
  have hb : Ok W ((upTo 0 k).map (wr v)) := wr_range v _ fun i hi => by
    rw [mem_upTo] at hi
    simp only [InBounds]
    omega
  have hv' : Upto (after W ((upTo 0 k).map (wr v))) v (max m k) := by
    refine hv.grow _ _ fun i h2 h3 h4 => ?_
    simp only [List.mem_map, mem_upTo]
    exact ⟨i, by omega, rfl⟩
  have hc := copyT_safe (m := k) (by omega) h12 (hv'.le (by omega))
  refine ⟨(ok_append _ _ _).2 ⟨hb, hc.1⟩, ?_⟩
  rw [after_append]
  exact ⟨hv'.keep _, hc.2⟩

theorem diagT_safe {W : Mem} {k kold ns m : Int} (h2 : 2 ≤ ns) (hk : ns ≤ k) (h12 : k ≤ 12) (hkm : k ≤ m + 1)
    (hkold : kold ≤ m) (hkk : k ≤ kold + 1) (hv : Upto W v m) (hal : Upto W alpha (max m k)) :
    Safely W (diagT k kold ns) fun V => Upto V v (max m k) := by
  unfold diagT
  by_cases hc : k > kold
  · rw [if_pos hc]
    rw [← List.singleton_append]
    refine Safely.append (P := fun V => Upto V v (max m k) ∧ Upto V alpha (max m k))
      ⟨?_, hv.grow _ _ ?_, hal.keep _⟩ ?_
    · accesses <;> omega
    · intro i h3 h4 h5
      simp
      omega
    · rintro V ⟨a1, a2⟩
      by_cases hd : ns - 2 > 0
      · rw [if_pos hd]
        refine Safely.weaken (for_rule (fun i V => Upto V v (max m k) ∧ Upto V alpha (max m k)) _ 0 (ns - 2)
          (by omega) ⟨a1, a2⟩ ?_) fun V h => h.1
        rintro t V h3 h4 ⟨b1, b2⟩
        refine ⟨?_, b1.keep _, b2.keep _⟩
        have r1 := b1 (k - 1 - t - 1) (by omega) (by omega)
        have r2 := b1 (k - 1 - t) (by omega) (by omega)
        have r3 := b2 (1 + t) (by omega) (by omega)
        accesses
        all_goals first
          | omega
          | assumption
      · rw [if_neg hd]
        exact ⟨trivial, a1⟩
  · rw [if_neg hc]
    exact ⟨trivial, hv.le (by omega)⟩

theorem moreVT_safe {W : Mem} {k ns m : Int} (h2 : 2 ≤ ns) (hk : ns ≤ k) (h12 : k ≤ 12) (hkm : k ≤ m)
    (hns : ns ≤ m + 1) (hv : Upto W v m) (hal : Upto W alpha m) (hg : Upto W g ns) :
    Safely W (moreVT k ns) fun V => Upto V v m ∧ Upto V w (k + 1 - ns) ∧ Upto V g (ns + 1) := by
  unfold moreVT
  refine Safely.append (P := fun V => Upto V v m ∧ Upto V w (k + 1 - ns) ∧ Upto V g ns) (l := _ ++ _)
    (Safely.append (P := fun V => Upto V v m ∧ Upto V g ns)
    (Safely.append (l := [rd alpha (ns - 1)]) (P := fun V => Upto V v m ∧ Upto V g ns) ⟨?_, hv.keep _, hg.keep _⟩ ?_) ?_) ?_
  · have r := hal (ns - 1) (by omega) (by omega)
    accesses
    all_goals first
      | omega
      | assumption
  · rintro V ⟨a1, a2⟩
    refine for_rule (fun i V => Upto V v m ∧ Upto V g ns) _ 0 (k + 1 - ns) (by omega) ⟨a1, a2⟩ ?_
    rintro i V h3 h4 ⟨b1, b2⟩
    refine ⟨?_, b1.keep _, b2.keep _⟩
    have r1 := b1 i (by omega) (by omega)
    have r2 := b1 (i + 1) (by omega) (by omega)
    accesses
    all_goals first
      | omega
      | assumption
  · rintro V ⟨a1, a2⟩
    have h := copyT_safe (W := V) (m := k + 1 - ns) (by omega) (by omega) (a1.le (by omega))
    exact ⟨h.1, a1.keep _, h.2, a2.keep _⟩
  · rintro V ⟨a1, a2, a3⟩
    have r := a2 0 (by omega) (by omega)
    refine ⟨?_, a1.keep _, a2.keep _, a3.grow _ _ ?_⟩
    · accesses
      all_goals first
        | omega
        | assumption
    · intro i h3 h4 h5
      simp
      omega

theorem gT_safe {W : Mem} {k ns m q : Int} (h1 : 1 ≤ ns) (hk : ns ≤ k) (h12 : k ≤ 12) (hkm : k ≤ m)
    (hq : k + 1 - ns ≤ q) (hal : Upto W alpha m) (hw : Upto W w q) (hg : Upto W g (ns + 1)) :
    Safely W (gT k ns) fun V => Upto V g (k + 1) := by
  unfold gT
  by_cases hc : k + 1 ≥ ns + 2
  · rw [if_pos hc]
    refine Safely.weaken (for_rule (fun i V => Upto V alpha m ∧ Upto V w q ∧ Upto V g (i - 1)) _ (ns + 2) (k + 1 + 1)
      (by omega) ⟨hal, hw, hg.le (by omega)⟩ ?_) fun V h => h.2.2.le (by omega)
    rintro i V h3 h4 ⟨b1, b2, b3⟩
    refine Safely.append (l := [rd alpha (i - 2)] ++ _) (P := fun V => Upto V alpha m ∧ Upto V w q ∧ Upto V g (i - 1))
      (Safely.append (P := fun V => Upto V alpha m ∧ Upto V w q ∧ Upto V g (i - 1)) ⟨?_, b1.keep _, b2.keep _, b3.keep _⟩ ?_) ?_
    · have r := b1 (i - 2) (by omega) (by omega)
      accesses
      all_goals first
        | omega
        | assumption
    · rintro V ⟨c1, c2, c3⟩
      refine for_rule (fun _ V => Upto V alpha m ∧ Upto V w q ∧ Upto V g (i - 1)) _ 0 (k + 2 - i) (by omega) ⟨c1, c2, c3⟩ ?_
      rintro j V h5 h6 ⟨d1, d2, d3⟩
      refine ⟨?_, d1.keep _, d2.keep _, d3.keep _⟩
      have r1 := d2 j (by omega) (by omega)
      have r2 := d2 (j + 1) (by omega) (by omega)
      accesses
      all_goals first
        | omega
        | assumption
    · rintro V ⟨c1, c2, c3⟩
      have r := c2 0 (by omega) (by omega)
      refine ⟨?_, c1.keep _, c2.keep _, c3.grow _ _ ?_⟩
      · accesses
        all_goals first
          | omega
          | assumption
      · intro j h5 h6 h7
        simp
        omega
  · rw [if_neg hc]
    exact ⟨trivial, hg.le (by omega)⟩

/-- Block 1: safe, and the regions grow to the order of the attempt (differences excepted). -/
theorem block1T_safe {W : Mem} {k kold ns m : Int} {r : Bool} (hr : Reg m r W) (h1 : 1 ≤ ns) (hk1 : 1 ≤ k)
    (h12 : k ≤ 12) (hkk : k ≤ kold + 1) (hkold : kold ≤ m) (hns : ns ≤ m + 1) :
    Safely W (block1T k kold ns) fun V => Upto V psi (max m k) ∧ Upto V alpha (max m k) ∧ Upto V beta (max m k) ∧
      Upto V v (max m k) ∧ Upto V sig (max m k + 1) ∧ Upto V g (max m k + 1) := by
  unfold block1T
  by_cases hc : k ≥ ns
  · rw [if_pos hc]
    have hA := coefT_safe h1 hc h12 hns (by omega) hr.psi hr.alpha hr.beta hr.sig
    have hB : Safely (after W (coefT k ns)) (if ns ≤ 1 then firstVT k else diagT k kold ns ++ moreVT k ns)
        fun V => Upto V v (max m k) ∧ Upto V w (k + 1 - ns) ∧ (2 ≤ ns → Upto V g (ns + 1)) := by
      by_cases hn : ns ≤ 1
      · rw [if_pos hn]
        exact (firstVT_safe hk1 h12 (hr.v.keep _)).weaken fun V h => ⟨h.1, h.2.le (by omega), fun h => by omega⟩
      · rw [if_neg hn]
        have hd := diagT_safe (k := k) (kold := kold) (ns := ns) (by omega) hc h12 (by omega) hkold hkk
          (hr.v.keep (coefT k ns)) hA.2.2.1
        have hm := moreVT_safe (W := after (after W (coefT k ns)) (diagT k kold ns)) (k := k) (ns := ns)
          (m := max m k) (by omega) hc h12 (by omega) (by omega) hd.2 (hA.2.2.1.keep _)
          (((hr.g.le (by omega)).keep _).keep _)
        refine ⟨(ok_append _ _ _).2 ⟨hd.1, hm.1⟩, ?_⟩
        rw [after_append]
        exact ⟨hm.2.1, hm.2.2.1, fun _ => hm.2.2.2⟩
    generalize (if ns ≤ 1 then firstVT k else diagT k kold ns ++ moreVT k ns) = L at hB ⊢
    have hC : Safely (after (after W (coefT k ns)) L) (gT k ns) fun V => Upto V g (k + 1) := by
      refine gT_safe (m := max m k) h1 hc h12 (by omega) (Int.le_refl _) (hA.2.2.1.keep _) hB.2.2.1 ?_
      by_cases hn : 2 ≤ ns
      · exact hB.2.2.2 hn
      · exact ((hr.g2.keep _).keep _).le (by omega)
    refine ⟨(ok_append _ _ _).2 ⟨(ok_append _ _ _).2 ⟨hA.1, hB.1⟩, ?_⟩, ?_⟩
    · rw [after_append]
      exact hC.1
    · rw [after_append, after_append]
      refine ⟨(hA.2.1.keep _).keep _, (hA.2.2.1.keep _).keep _, (hA.2.2.2.1.keep _).keep _, hB.2.1.keep _,
        (hA.2.2.2.2.keep _).keep _, fun i h3 h4 => ?_⟩
      by_cases h5 : i < k + 1
      · exact hC.2 i h3 h5
      · exact ((hr.g.keep _).keep _).keep _ i h3 (by omega)
  · rw [if_neg hc]
    have he : max m k = m := by omega
    rw [he]
    exact ⟨trivial, hr.psi, hr.alpha, hr.beta, hr.v, hr.sig, hr.g⟩

/-- Prediction: safe, and the differences grow. -/
theorem predictT_safe {W : Mem} {k ns m : Int} {nornd : Bool} (h1 : 1 ≤ ns) (hk1 : 1 ≤ k) (h12 : k ≤ 12) (hkm : k ≤ m)
    (d : Int) (hd : k + 1 ≤ d) (hdiff : Upto W diff d) (hbeta : Upto W beta m) (hg : Upto W g (m + 1))
    (hrnd : nornd = false → W rnd 14) :
    Safely W (predictT k ns nornd) fun V => Upto V diff (max d (k + 2)) ∧ (nornd = false → V rnd 15) := by
  unfold predictT
  refine Safely.append (P := fun V => Upto V diff (max d (k + 2)) ∧ (nornd = false → V rnd 14))
    (Safely.append (P := fun V => Upto V diff (max d (k + 2)) ∧ Upto V g (m + 1) ∧ (nornd = false → V rnd 14))
    (Safely.append (P := fun V => Upto V diff d ∧ Upto V g (m + 1) ∧ (nornd = false → V rnd 14)) ?_ ?_) ?_) ?_
  · by_cases hc : k ≥ ns + 1
    · rw [if_pos hc]
      refine Safely.weaken (for_rule (fun _ V => Upto V diff d ∧ Upto V beta m ∧ Upto V g (m + 1) ∧ (nornd = false → V rnd 14))
        _ (ns + 1 - 1) k (by omega) ⟨hdiff, hbeta, hg, hrnd⟩ ?_) fun V h => ⟨h.1, h.2.2.1, h.2.2.2⟩
      rintro i V h3 h4 ⟨b1, b2, b3, b4⟩
      refine ⟨?_, b1.keep _, b2.keep _, b3.keep _, fun h => after_mono _ _ _ _ (b4 h)⟩
      have r1 := b1 i (by omega) (by omega)
      have r2 := b2 i (by omega) (by omega)
      accesses
      all_goals first
        | omega
        | assumption
    · rw [if_neg hc]
      exact ⟨trivial, hdiff, hg, hrnd⟩
  · rintro V ⟨a1, a2, a3⟩
    have r := a1 (k + 1 - 1) (by omega) (by omega)
    refine ⟨?_, a1.grow _ _ ?_, a2.keep _, fun h => after_mono _ _ _ _ (a3 h)⟩
    · accesses
      all_goals first
        | omega
        | assumption
    · intro i h2 h3 h4
      simp
      omega
  · rintro V ⟨a1, a2, a3⟩
    refine Safely.weaken (for_rule (fun _ V => Upto V diff (max d (k + 2)) ∧ Upto V g (m + 1) ∧ (nornd = false → V rnd 14))
        _ 0 k (by omega) ⟨a1, a2, a3⟩ ?_) fun V h => ⟨h.1, h.2.2⟩
    rintro t V h3 h4 ⟨b1, b2, b3⟩
    refine ⟨?_, b1.keep _, b2.keep _, fun h => after_mono _ _ _ _ (b3 h)⟩
    have r1 := b1 (k - 1 - t) (by omega) (by omega)
    have r2 := b1 (k - 1 - t + 1) (by omega) (by omega)
    have r3 := b2 (k - 1 - t) (by omega) (by omega)
    accesses
    all_goals first
      | omega
      | assumption
  · rintro V ⟨a1, a2⟩
    cases nornd
    · have r := a2 rfl
      rw [if_neg (by simp)]
      refine ⟨?_, a1.keep _, fun _ => ?_⟩
      · accesses
        all_goals first
          | omega
          | assumption
      · simp [after]
    · exact ⟨trivial, a1, fun h => by simp at h⟩

/-- The error estimates only read. -/
theorem estimateT_safe {W : Mem} {k m : Int} (hk1 : 1 ≤ k) (h12 : k ≤ 12) (hkm : k ≤ m) (hdiff : Upto W diff (m + 2))
    (hsig : Upto W sig (m + 1)) (hg : Upto W g (m + 1)) (hgstr : Upto W gstr 13) :
    Ok W (estimateT k) ∧ after W (estimateT k) = W := by
  have d0 := hdiff 0 (by omega) (by omega)
  have d1 := hdiff (k - 1) (by omega) (by omega)
  have s1 := hsig (k - 1) (by omega) (by omega)
  have s2 := hsig (k + 1 - 1) (by omega) (by omega)
  have g1 := hg (k - 1) (by omega) (by omega)
  have g2 := hg (k + 1 - 1) (by omega) (by omega)
  have c1 := hgstr (k - 1) (by omega) (by omega)
  unfold estimateT
  by_cases h2 : k - 2 = 0 ∨ k - 2 > 0
  · have c2 := hgstr (k - 1 - 1) (by omega) (by omega)
    rw [if_pos h2]
    by_cases h3 : k - 2 > 0
    · have d2 := hdiff (k - 1 - 1) (by omega) (by omega)
      have s3 := hsig (k - 1 - 1) (by omega) (by omega)
      have c3 := hgstr (k - 2 - 1) (by omega) (by omega)
      rw [if_pos h3]
      refine ⟨?_, rfl⟩
      simp only [List.cons_append, List.nil_append]
      accesses
      all_goals first
        | omega
        | assumption
    · rw [if_neg h3]
      refine ⟨?_, rfl⟩
      simp only [List.cons_append, List.nil_append]
      accesses
      all_goals first
        | omega
        | assumption
  · rw [if_neg h2, if_neg (by omega)]
    refine ⟨?_, rfl⟩
    simp only [List.cons_append, List.nil_append]
    accesses
    all_goals first
      | omega
      | assumption

/-- Restoration after a rejection. -/
theorem rejectT_safe {W : Mem} {k m : Int} (hk1 : 1 ≤ k) (h12 : k ≤ 12) (hkm : k ≤ m) (hdiff : Upto W diff (m + 2))
    (hbeta : Upto W beta m) (hpsi : Upto W psi m) : Ok W (rejectT k) := by
  unfold rejectT
  refine (Safely.append (P := fun V => Upto V psi m) (Q := fun _ => True) ?_ ?_).1
  · refine Safely.weaken (for_rule (fun _ V => Upto V diff (m + 2) ∧ Upto V beta m ∧ Upto V psi m) _ 0 k (by omega)
      ⟨hdiff, hbeta, hpsi⟩ ?_) fun V h => h.2.2
    rintro i V h3 h4 ⟨b1, b2, b3⟩
    refine ⟨?_, b1.keep _, b2.keep _, b3.keep _⟩
    have r1 := b1 i (by omega) (by omega)
    have r2 := b1 (i + 1) (by omega) (by omega)
    have r3 := b2 i (by omega) (by omega)
    accesses
    all_goals first
      | omega
      | assumption
  · intro V hV
    by_cases hc : k ≥ 2
    · rw [if_pos hc]
      refine Safely.weaken (for_rule (fun _ V => Upto V psi m) _ 1 k (by omega) hV ?_) fun V h => trivial
      intro i V h3 h4 b
      refine ⟨?_, b.keep _⟩
      have r := b i (by omega) (by omega)
      accesses
      all_goals first
        | omega
        | assumption
    · rw [if_neg hc]
      exact ⟨trivial, trivial⟩

/-- Correction after an acceptance. -/
theorem acceptT_safe {W : Mem} {k m : Int} {nornd est : Bool} (hk1 : 1 ≤ k) (h12 : k ≤ 12) (hkm : k ≤ m)
    (hdiff : Upto W diff (m + 2)) (hg : Upto W g (m + 1)) (hgstr : Upto W gstr 13) (hrnd : nornd = false → W rnd 15) :
    Ok W (acceptT k nornd est) := by
  have d0 := hdiff 0 (by omega) (by omega)
  have g0 := hg (k + 1 - 1) (by omega) (by omega)
  unfold acceptT
  refine (Safely.append (P := fun V => Upto V diff (m + 2) ∧ Upto V gstr 13) (Q := fun _ => True)
    (Safely.append (P := fun V => Upto V diff (m + 2) ∧ Upto V gstr 13)
    (Safely.append (P := fun V => Upto V diff (m + 2) ∧ Upto V gstr 13)
    (Safely.append (P := fun V => Upto V diff (m + 2) ∧ Upto V gstr 13 ∧ (nornd = false → V rnd 15))
      ⟨?_, hdiff.keep _, hgstr.keep _, fun h => after_mono _ _ _ _ (hrnd h)⟩ ?_) ?_) ?_) ?_).1
  · accesses
    all_goals first
      | omega
      | assumption
  · rintro V ⟨b1, b2, b3⟩
    refine ⟨?_, b1.keep _, b2.keep _⟩
    have r1 := b1 0 (by omega) (by omega)
    cases nornd
    · have r2 := b3 rfl
      rw [if_neg (by simp)]
      accesses
      all_goals first
        | omega
        | assumption
    · rw [if_pos rfl]
      accesses
      all_goals first
        | omega
        | assumption
  · rintro V ⟨b1, b2⟩
    refine ⟨?_, b1.keep _, b2.keep _⟩
    have r1 := b1 0 (by omega) (by omega)
    have r2 := b1 (k + 2 - 1) (by omega) (by omega)
    accesses
    all_goals first
      | omega
      | assumption
      | (left; assumption)
      | simp
  · rintro V ⟨b1, b2⟩
    refine for_rule (fun _ V => Upto V diff (m + 2) ∧ Upto V gstr 13) _ 0 k (by omega) ⟨b1, b2⟩ ?_
    rintro i V h3 h4 ⟨c1, c2⟩
    refine ⟨?_, c1.keep _, c2.keep _⟩
    have r1 := c1 i (by omega) (by omega)
    have r2 := c1 (k + 1 - 1) (by omega) (by omega)
    accesses
    all_goals first
      | omega
      | assumption
  · rintro V ⟨b1, b2⟩
    refine ⟨?_, trivial⟩
    have r1 := b1 (k + 2 - 1) (by omega) (by omega)
    have r2 := b2 (k + 1 - 1) (by omega) (by omega)
    cases est
    · rw [if_neg (by simp)]
      trivial
    · rw [if_pos rfl]
      accesses
      all_goals first
        | omega
        | assumption

/-- Interpolation. -/
theorem intrpT_safe {W : Mem} {kold m : Int} (h0 : 0 ≤ kold) (h12 : kold ≤ 12) (hkm : kold ≤ m)
    (hdiff : Upto W diff (m + 2)) (hpsi : Upto W psi m) : Ok W (intrpT kold) := by
  unfold intrpT
  refine (Safely.append (P := fun V => Upto V ig (kold + 1) ∧ Upto V irho (kold + 1) ∧ Upto V diff (m + 2)) (Q := fun _ => True)
    (Safely.append (P := fun V => Upto V ig 1 ∧ Upto V irho 1 ∧ Upto V iw (kold + 1) ∧ Upto V psi m ∧ Upto V diff (m + 2))
    (Safely.append (P := fun V => Upto V ig 1 ∧ Upto V irho 1 ∧ Upto V psi m ∧ Upto V diff (m + 2))
      ⟨?_, ?_, ?_, hpsi.keep _, hdiff.keep _⟩ ?_) ?_) ?_).1
  · accesses <;> omega
  · intro i h1 h2
    have : i = 0 := by omega
    subst this
    simp [after]
  · intro i h1 h2
    have : i = 0 := by omega
    subst this
    simp [after]
  · rintro V ⟨b1, b2, b3, b4⟩
    refine ⟨wr_range iw _ fun i hi => ?_, b1.keep _, b2.keep _, ?_, b3.keep _, b4.keep _⟩
    · rw [mem_upTo] at hi
      simp only [InBounds]
      omega
    · intro i h1 h2
      rw [after_iff]
      right
      simp only [List.mem_map, mem_upTo]
      exact ⟨i, by omega, rfl⟩
  · rintro V ⟨b1, b2, b3, b4, b5⟩
    refine Safely.weaken (for_rule (fun j V => Upto V ig j ∧ Upto V irho j ∧ Upto V iw (kold + 1) ∧ Upto V psi m ∧
      Upto V diff (m + 2)) _ 1 (kold + 1) (by omega) ⟨b1, b2, b3, b4, b5⟩ ?_) fun V h => ⟨h.1, h.2.1, h.2.2.2.2⟩
    rintro j V h1 h2 ⟨c1, c2, c3, c4, c5⟩
    refine Safely.append (l := [rd psi (j - 1)] ++ _) (P := fun V => Upto V ig j ∧ Upto V irho j ∧ Upto V iw (kold + 1) ∧
      Upto V psi m ∧ Upto V diff (m + 2)) (Safely.append (P := fun V => Upto V ig j ∧ Upto V irho j ∧
      Upto V iw (kold + 1) ∧ Upto V psi m ∧ Upto V diff (m + 2)) ⟨?_, c1.keep _, c2.keep _, c3.keep _, c4.keep _, c5.keep _⟩ ?_) ?_
    · have r := c4 (j - 1) (by omega) (by omega)
      accesses
      all_goals first
        | omega
        | assumption
    · rintro V ⟨d1, d2, d3, d4, d5⟩
      refine for_rule (fun _ V => Upto V ig j ∧ Upto V irho j ∧ Upto V iw (kold + 1) ∧
        Upto V psi m ∧ Upto V diff (m + 2)) _ 0 _ (by omega) ⟨d1, d2, d3, d4, d5⟩ ?_
      rintro i V h3 h4 ⟨e1, e2, e3, e4, e5⟩
      refine ⟨?_, e1.keep _, e2.keep _, e3.keep _, e4.keep _, e5.keep _⟩
      have r1 := e3 i (by omega) (by omega)
      have r2 := e3 (i + 1) (by omega) (by omega)
      accesses
      all_goals first
        | omega
        | assumption
    · rintro V ⟨d1, d2, d3, d4, d5⟩
      have r1 := d3 0 (by omega) (by omega)
      have r2 := d2 (j - 1) (by omega) (by omega)
      refine ⟨?_, d1.grow _ _ ?_, d2.grow _ _ ?_, d3.keep _, d4.keep _, d5.keep _⟩
      · accesses
        all_goals first
          | omega
          | assumption
          | (left; assumption)
      all_goals
        intro i h3 h4 h5
        simp
        omega
  · rintro V ⟨b1, b2, b3⟩
    refine Safely.weaken (for_rule (fun _ V => Upto V ig (kold + 1) ∧ Upto V irho (kold + 1) ∧ Upto V diff (m + 2)) _ 0 _ (by omega)
      ⟨b1, b2, b3⟩ ?_) fun V h => trivial
    rintro j V h1 h2 ⟨c1, c2, c3⟩
    refine ⟨?_, c1.keep _, c2.keep _, c3.keep _⟩
    have r1 := c1 (kold + 1 + 1 - j - 2) (by omega) (by omega)
    have r2 := c2 (kold + 1 + 1 - j - 2) (by omega) (by omega)
    have r3 := c3 (kold + 1 + 1 - j - 2) (by omega) (by omega)
    accesses
    all_goals first
      | omega
      | assumption

end Verif.Sgode
