import Verif.Atmosphere.GhpModel
import Verif.Atmosphere.MsisExamples
import Mathlib.Analysis.SpecialFunctions.Log.Base

/-
C92: the search for the altitude of a pressure.
-/
namespace Verif.Atmosphere.Msis

open Data

/-! ### Specification -/

section

variable {K : Type} [Field K] [LinearOrder K]

/-- Pressure in millibar: Boltzmann's constant, number of particles in a cubic centimetre (helium, oxygen,
nitrogen, molecular oxygen, argon, hydrogen, atomic nitrogen), temperature. -/
def Pressure (meters : Bool) (o : Out K) : K :=
  1.3806e-19 * (((([0, 1, 2, 3, 4, 6, 7] : List ℕ).map o.d).sum) * if meters then 1e-6 else 1) * o.t1

/-- The pressure of `o` is the requested one to about a thousandth. -/
def Meets (lg : K → K) (meters : Bool) (o : Out K) (press : K) : Prop :=
  |lg press - lg (Pressure meters o)| < 0.00043

theorem ghpP_eq (x : In K) (o : Out K) : ghpP x o = Pressure x.meters o := by
  unfold ghpP Pressure ghpXn bm
  cases x.meters
  · simp only [Bool.false_eq_true, if_false, List.map_cons, List.map_nil, List.sum_cons, List.sum_nil]; ring
  · simp only [if_true, List.map_cons, List.map_nil, List.sum_cons, List.sum_nil]; ring

end

variable {K : Type} [Field K] [LinearOrder K] [IsStrictOrderedRing K]

/-! ### Lemmas -/

variable {F : Fns K} {T : Tab K} {Lat Lst : Set K} {lg : K → K}

omit [IsStrictOrderedRing K] in
/-- With mass 48 all nine densities are written, and the state does not depend on the caller's structure. -/
theorem gtd7_old (tz : K) (x : In K) (old old' : Out K) (h : ∀ k, k ≥ 9 → old.d k = old'.d k) (s : St K) :
    gtd7 F T tz x 48 old s = gtd7 F T tz x 48 old' s ∧
      ∀ k, k ≥ 9 → (gtd7 F T tz x 48 old s).1.d k = old.d k := by
  have e1 : ∀ o : Out K, (fun k => if k < 9 then o.d k else old.d k) = fun k => if k < 9 then o.d k else old'.d k := by
    intro o
    funext k
    by_cases hk : k < 9
    · simp [hk]
    · simp [hk, h k (by omega)]
  have e2 : ∀ (ds : ℕ → K) (a b : K),
      gtdMix T x.alt x.meters 48 ds a b old.d = gtdMix T x.alt x.meters 48 ds a b old'.d := by
    intro ds a b
    funext k
    simp only [gtdMix, if_true]
    rcases k with _ | _ | _ | _ | _ | _ | _ | _ | _ | k <;>
      simp [put, massSum, h]
  have e3 : ∀ (ds : ℕ → K) (a b : K) (k : ℕ), k ≥ 9 → gtdMix T x.alt x.meters 48 ds a b old.d k = old.d k := by
    intro ds a b k hk
    obtain ⟨j, rfl⟩ := Nat.exists_eq_add_of_le hk
    simp only [gtdMix, if_true]
    rw [Nat.add_comm]
    simp [put]
  constructor
  · have h0 : ¬ ((48 : ℤ) = 0) := by norm_num
    simp only [gtd7, e1, e2, if_neg h0]
  · intro k hk
    have h0 : ¬ ((48 : ℤ) = 0) := by norm_num
    have hk' : ¬ k < 9 := by omega
    simp only [gtd7, bind_run, ite_run, pure_run, upd_run, rd_run, if_neg h0]
    split
    · simp [hk']
    · split <;> exact e3 _ _ _ k hk


omit [IsStrictOrderedRing K] in
theorem ghpLoop_run (tz : ℕ → K) (x : In K) (pl : K) (n l : ℕ) (z : K) (old : Out K) (s : St K) :
    ghpLoop F lg T tz x pl n l z old s =
      (let r := gtd7 F T (tz l) x 48 old s
       if |pl - lg (ghpP x r.1)| < ghpTest then ((0, r.1, z), r.2)
       else match n with
        | 0 => ((1, r.1, z), r.2)
        | n + 1 => ghpLoop F lg T tz x pl n (l + 1)
            (ghpNext F x r.1 r.2.gsurf r.2.re (l + 1) z (pl - lg (ghpP x r.1))) r.1 r.2) := by
  conv_lhs => unfold ghpLoop
  simp only [bind_run, ite_run]
  split
  · rfl
  · cases n <;> rfl

omit [IsStrictOrderedRing K] in
theorem ghpLoop_found (tz : ℕ → K) (x : In K) (press : K) (n l : ℕ) (z : K) (old : Out K) (s : St K) :
    let r := (ghpLoop F lg T tz x (lg press) n l z old s).1
    (r.1 = 0 ∨ r.1 = 1) ∧ (r.1 = 0 ↔ Meets lg x.meters r.2.1 press) ∧
      ∃ tz' old' s', r.2.1 = (gtd7 F T tz' x 48 old' s').1 := by
  induction n generalizing l z old s with
  | zero =>
    intro r
    have hr : r = (ghpLoop F lg T tz x (lg press) 0 l z old s).1 := rfl
    rw [ghpLoop_run] at hr
    dsimp only at hr
    split at hr
    · rename_i h
      rw [ghpP_eq] at h
      rw [hr]
      exact ⟨Or.inl rfl, ⟨fun _ => h, fun _ => rfl⟩, _, _, _, rfl⟩
    · rename_i h
      rw [ghpP_eq] at h
      rw [hr]
      exact ⟨Or.inr rfl, ⟨fun h' => absurd h' one_ne_zero, fun h' => absurd h' h⟩, _, _, _, rfl⟩
  | succ n ih =>
    intro r
    have hr : r = (ghpLoop F lg T tz x (lg press) (n + 1) l z old s).1 := rfl
    rw [ghpLoop_run] at hr
    dsimp only at hr
    split at hr
    · rename_i h
      rw [ghpP_eq] at h
      rw [hr]
      exact ⟨Or.inl rfl, ⟨fun _ => h, fun _ => rfl⟩, _, _, _, rfl⟩
    · rw [hr]
      exact ih _ _ _ _

/-- The loop repeats one evaluation. -/
theorem ghpLoop_same (hT : TabOk T) (hLat : Spread Lat) (hLst : Spread Lst) (x : In K) (hx : Adm Lat Lst x)
    (halt : x.alt ≠ 32.5) (hm : x.alt ≥ 72.5 ∨ |x.sw 14| > 0) (z0 : K) (s0 : St K) (h0 : Coh F T Lat Lst z0 s0)
    (old0 : Out K) (tz0 : K) (tz : ℕ → K) (pl : K) (n l : ℕ) (z : K) (old : Out K)
    (hold : ∀ k, k ≥ 9 → old.d k = old0.d k) (s : St K) (hs : Coh F T Lat Lst z0 s) :
    let o := (gtd7 F T tz0 x 48 old0 s0).1
    let r := (ghpLoop F lg T tz x pl n l z old s).1
    r.2.1 = o ∧ (r.1 = 0 ↔ |pl - lg (ghpP x o)| < ghpTest) := by
  induction n generalizing l z old s with
  | zero =>
    intro o r
    have hmix : MixSet x 48 := hm.imp id fun h => Or.inr ⟨h, Or.inr (by decide)⟩
    have e : (gtd7 F T (tz l) x 48 old s).1 = o := by
      rw [(gtd7_old (tz l) x old old0 hold s).1]
      refine gtd7_agree hT _ _ _ _ _ _ _ (hs.ready hT hLat hLst _ _ _ hx.lat hx.lst hx.doy)
        (h0.ready hT hLat hLst _ _ _ hx.lat hx.lst hx.doy) (fun a => (hs.p24 a).trans (h0.p24 a).symm) ?_ hmix
      rcases lt_or_gt_of_ne halt with h | h
      · exact Or.inr ⟨h, hs.tn3.trans h0.tn3.symm⟩
      · exact Or.inl h
    have hr : r = (ghpLoop F lg T tz x pl 0 l z old s).1 := rfl
    rw [ghpLoop_run] at hr
    dsimp only at hr
    rw [e] at hr
    split at hr <;> rename_i h <;> rw [hr] <;> simp [h]
  | succ n ih =>
    intro o r
    have hmix : MixSet x 48 := hm.imp id fun h => Or.inr ⟨h, Or.inr (by decide)⟩
    have e : (gtd7 F T (tz l) x 48 old s).1 = o := by
      rw [(gtd7_old (tz l) x old old0 hold s).1]
      refine gtd7_agree hT _ _ _ _ _ _ _ (hs.ready hT hLat hLst _ _ _ hx.lat hx.lst hx.doy)
        (h0.ready hT hLat hLst _ _ _ hx.lat hx.lst hx.doy) (fun a => (hs.p24 a).trans (h0.p24 a).symm) ?_ hmix
      rcases lt_or_gt_of_ne halt with h | h
      · exact Or.inr ⟨h, hs.tn3.trans h0.tn3.symm⟩
      · exact Or.inl h
    have hr : r = (ghpLoop F lg T tz x pl (n + 1) l z old s).1 := rfl
    rw [ghpLoop_run] at hr
    dsimp only at hr
    have hk := (gtd7_old (F := F) (T := T) (tz l) x old old0 hold s).2
    rw [e] at hr hk
    split at hr
    · rename_i h
      rw [hr]
      simp [h]
    · rw [hr]
      exact ih _ _ _ (fun k h9 => (hk k h9).trans (hold k h9)) _
        (gtd7_keeps (coh_stable hT hLat hLst) x hx (tz l) 48 old s hs)

/-! ### C92 -/

omit [IsStrictOrderedRing K] in
/-- **C92 (what holds).**  `ghp7` returns 0 or 1, and 0 exactly when the atmosphere it leaves in the caller's
structure has the requested pressure; that atmosphere is one of the model. -/
theorem ghp7_found_partial (tz : ℕ → K) (x : In K) (old : Out K) (press : K) (s : St K) :
    let r := (ghp7 F lg T tz x old press s).1
    (r.1 = 0 ∨ r.1 = 1) ∧ (r.1 = 0 ↔ Meets lg x.meters r.2 press) ∧
      ∃ alt tz' old' s', r.2 = (gtd7 F T tz' { x with alt := alt } 48 old' s').1 := by
  obtain ⟨h1, h2, tz', old', s', h3⟩ := ghpLoop_found (F := F) (T := T) (lg := lg) tz x press 11 0
    (ghpStart F x (lg press)) old s
  exact ⟨h1, h2, x.alt, tz', old', s', h3⟩

/-- **C92 (what is missing).**  The altitude is not searched: whatever the pressure asked for, `ghp7` leaves the
atmosphere at the altitude of the input, and returns 0 if the pressure there happens to be the one asked for.
Proved after any history on the instance, as for `gtd7_history_partial`. -/
theorem ghp7_not_searched_counterexample (hT : TabOk T) (hLat : Spread Lat) (hLst : Spread Lst)
    (hist : List (Call K)) (hadm : ∀ d ∈ hist, Adm Lat Lst d.x) (s : St K) (hs : Fresh T s)
    (x : In K) (hx : Adm Lat Lst x) (halt : x.alt ≠ 32.5) (hm : x.alt ≥ 72.5 ∨ |x.sw 14| > 0)
    (tz : ℕ → K) (tz0 : K) (old : Out K) (press : K) :
    let o := (gtd7 F T tz0 x 48 old (runAll F T s hist)).1
    let r := (ghp7 F lg T tz x old press (runAll F T s hist)).1
    r.2 = o ∧ (r.1 = 0 ↔ Meets lg x.meters o press) := by
  intro o r
  have hc := runAll_coh (F := F) hT hLat hLst hist s hadm hs.coh
  obtain ⟨h1, h2⟩ := ghpLoop_same (lg := lg) hT hLat hLst x hx halt hm (s.tn3 0) (runAll F T s hist) hc old tz0 tz
    (lg press) 11 0 (ghpStart F x (lg press)) old (fun _ _ => rfl) _ hc
  refine ⟨h1, ?_⟩
  rw [ghpP_eq] at h2
  exact h2

/-- For every input, at most one of the pressures of 1 and 0.1 millibar is found, although both occur in the
atmosphere. -/
theorem ghp7_two_pressures_counterexample {F : Fns ℝ} {T : Tab ℝ} {Lat Lst : Set ℝ} (hT : TabOk T)
    (hLat : Spread Lat) (hLst : Spread Lst) (s : St ℝ) (hs : Fresh T s) (x : In ℝ) (hx : Adm Lat Lst x)
    (halt : x.alt ≠ 32.5) (hm : x.alt ≥ 72.5 ∨ |x.sw 14| > 0) (tz : ℕ → ℝ) (old : Out ℝ) :
    (ghp7 F (Real.logb 10) T tz x old 1 s).1.1 = 1 ∨ (ghp7 F (Real.logb 10) T tz x old 0.1 s).1.1 = 1 := by
  have h1 := (ghp7_not_searched_counterexample (F := F) (lg := Real.logb 10) hT hLat hLst [] (by simp) s hs x hx
    halt hm tz 0 old 1).2
  have h2 := (ghp7_not_searched_counterexample (F := F) (lg := Real.logb 10) hT hLat hLst [] (by simp) s hs x hx
    halt hm tz 0 old 0.1).2
  have r1 := (ghp7_found_partial (F := F) (T := T) (lg := Real.logb 10) tz x old 1 s).1
  have r2 := (ghp7_found_partial (F := F) (T := T) (lg := Real.logb 10) tz x old 0.1 s).1
  rcases r1 with r1 | r1
  · rcases r2 with r2 | r2
    · exfalso
      have a := h1.1 r1
      have b := h2.1 r2
      unfold Meets at a b
      have e1 : Real.logb 10 1 = 0 := Real.logb_one
      have e2 : Real.logb 10 0.1 = -1 := by
        rw [show (0.1 : ℝ) = 10⁻¹ by norm_num, Real.logb_inv, Real.logb_self_eq_one (by norm_num)]
      rw [e1] at a
      rw [e2] at b
      rw [abs_lt] at a b
      linarith [a.1, a.2, b.1, b.2]
    · exact Or.inr r2
  · exact Or.inl r1

/-- The hypotheses are met at 800 km with the compiled tables. -/
example (s : St ℝ) (hs : Fresh tabR s) (tz : ℕ → ℝ) (old : Out ℝ) :
    (ghp7 realFns (Real.logb 10) tabR tz (sampleIn 10 0 800 200) old 1 s).1.1 = 1 ∨
      (ghp7 realFns (Real.logb 10) tabR tz (sampleIn 10 0 800 200) old 0.1 s).1.1 = 1 := by
  refine ghp7_two_pressures_counterexample (Lat := {0, 10, 45}) (Lst := {0, 10, 45}) tabR_ok spread_example
    spread_example s hs _ ?_ ?_ ?_ tz old
  · constructor <;> simp [sampleIn]
  · show (800 : ℝ) ≠ 32.5
    norm_num
  · left
    show (800 : ℝ) ≥ 72.5
    norm_num

end Verif.Atmosphere.Msis
