import Verif.Atmosphere.RequestProps
import Verif.Atmosphere.ProfileProps

/-!
C124: the request for atomic nitrogen, and examples of requests.
-/
namespace Verif.Atmosphere.Msis

open Data

local macro "keep" h:term : term =>
  `(⟨($h).lat, ($h).time, ($h).g14, ($h).g18, ($h).g32, ($h).g39, ($h).s14, ($h).s18, ($h).s32,
    ($h).s39⟩)

section Real

open Verif.Atmosphere.Profile (RealFns)

/-- The density of a gas above the junction is positive where the temperatures are. -/
theorem densu_pos (F : Fns ℝ) (hF : RealFns F) (T : Tab ℝ) (alt dlb t1 t2 xm xalph zlb s2 : ℝ) (s : St ℝ)
    (hz : zn1 T 0 ≤ alt) (hl : zlb ≤ alt) (hd : 0 < dlb) (h2 : 0 < t2) (h12 : t2 ≤ t1) (hs : 0 ≤ s2) (hre : 0 < s.re)
    (h0 : 0 ≤ zlb) (hx : |xm| > nearzero) : 0 < (densu F T alt dlb t1 t2 xm xalph zlb s2 s).1.1 := by
  have hzeta : 0 ≤ zeta s.re alt zlb := by
    unfold zeta
    exact div_nonneg (mul_nonneg (by linarith) (by linarith)) (by linarith)
  have he : Real.exp (-s2 * zeta s.re alt zlb) ≤ 1 := by
    rw [Real.exp_le_one_iff]
    nlinarith [mul_nonneg hs hzeta]
  have htt : 0 < t1 - (t1 - t2) * Real.exp (-s2 * zeta s.re alt zlb) := by
    nlinarith [mul_le_mul_of_nonneg_left he (sub_nonneg.2 h12)]
  unfold densu
  simp only [bind_run, rd_run, if_neg (not_lt.2 hz), if_pos hx, pure_run, max_eq_left hz, hF.exp, hF.pow]
  have cap : ∀ (c : Prop) [Decidable c] (e : ℝ), 0 < e → 0 < if c then 50 else e := by
    intro c _ e he
    split
    · norm_num
    · exact he
  exact mul_pos (mul_pos hd (Real.rpow_pos_of_pos (div_pos h2 htt) _)) (cap _ _ (Real.exp_pos _))

theorem tabR_nitrogen : tabR.ptm 1 * tabR.p (.pd 3) 0 < tabR.ptm 0 * tabR.p .pt 0 ∧ 0 < tabR.ptm 1 * tabR.p (.pd 3) 0 ∧
    0 < tabR.ptm 3 * tabR.p .ps 0 ∧ 0 < tabR.pdm 6 0 ∧ 0 < tabR.p (.pd 7) 0 ∧ 0 ≤ tabR.ptm 5 ∧ tabR.ptm 5 ≤ 450 ∧
    tabR.pdl 1 15 ≤ 450 := by
  have h : tabQ.ptm 1 * tabQ.p (.pd 3) 0 < tabQ.ptm 0 * tabQ.p .pt 0 ∧ 0 < tabQ.ptm 1 * tabQ.p (.pd 3) 0 ∧
      0 < tabQ.ptm 3 * tabQ.p .ps 0 ∧ 0 < tabQ.pdm 6 0 ∧ 0 < tabQ.p (.pd 7) 0 ∧ 0 ≤ tabQ.ptm 5 ∧ tabQ.ptm 5 ≤ 450 ∧
      tabQ.pdl 1 15 ≤ 450 := by decide +kernel
  simp only [tabR]
  exact_mod_cast h

theorem tabR_quiet : Quiet tabR := by
  have h : ∀ k ∈ [0, 1, 2, 9], tabQ.p (.pma k) 32 = 0 ∧ tabQ.p (.pma k) 45 = 0 ∧ tabQ.p (.pma k) 50 = 0 ∧
      tabQ.p (.pma k) 96 = 0 := by decide +kernel
  intro k hk
  simp only [tabR]
  exact_mod_cast h k hk

theorem glatf_pos (lat : ℝ) (s : St ℝ) : 0 < (glatf realFns lat s).2.re := by
  have h1 := Real.cos_le_one (2 * realFns.deg2rad lat)
  have h2 := Real.neg_one_le_cos (2 * realFns.deg2rad lat)
  have hc : realFns.cos (2 * realFns.deg2rad lat) = Real.cos (2 * realFns.deg2rad lat) := rfl
  show 0 < 2 * (egrav * 1e2 * (1 - 0.0026373 * realFns.cos (2 * realFns.deg2rad lat))) /
    (3.085462e-6 + 2.27e-9 * realFns.cos (2 * realFns.deg2rad lat)) * 1e-5
  rw [hc]
  generalize Real.cos (2 * realFns.deg2rad lat) = c at h1 h2
  have he : (0 : ℝ) < egrav := by unfold egrav; norm_num
  have a : (0 : ℝ) < 1 - 0.0026373 * c := by norm_num; linarith
  have b : (0 : ℝ) < 3.085462e-6 + 2.27e-9 * c := by norm_num; linarith
  have d : (0 : ℝ) < 1e2 := by norm_num
  have f : (0 : ℝ) < 1e-5 := by norm_num
  exact mul_pos (div_pos (mul_pos two_pos (mul_pos (mul_pos he d) a)) b) f

theorem gtsDens_nitrogen_pos {F : Fns ℝ} (hF : RealFns F) {T : Tab ℝ} (hT : TabOk T)
    (k : T.ptm 1 * T.p (.pd 3) 0 < T.ptm 0 * T.p .pt 0 ∧ 0 < T.ptm 1 * T.p (.pd 3) 0 ∧ 0 < T.ptm 3 * T.p .ps 0 ∧
      0 < T.pdm 6 0 ∧ 0 < T.p (.pd 7) 0 ∧ 0 ≤ T.ptm 5 ∧ T.ptm 5 ≤ 450 ∧ T.pdl 1 15 ≤ 450) (x : In ℝ)
    (ha : 450 < x.alt) (ρ : ℝ) (hre : 0 < ρ) (st : St ℝ) (rn : Radius F T x ρ st) :
    0 < (gtsDens F T x 48 (T.ptm 0 * T.p .pt 0) (T.ptm 1 * T.p (.pd 3) 0)
      (T.ptm 3 * T.p .ps 0 / (T.ptm 0 * T.p .pt 0 - T.ptm 1 * T.p (.pd 3) 0)) st).1.1 7 := by
  obtain ⟨k1, k2, k3, k4, k5, k6, k7, k8⟩ := k
  obtain ⟨r⟩ := Run.mk' (F := F) (T := T) (x := x) 48 (T.ptm 0 * T.p .pt 0) (T.ptm 1 * T.p (.pd 3) 0)
    (T.ptm 3 * T.p .ps 0 / (T.ptm 0 * T.p .pt 0 - T.ptm 1 * T.p (.pd 3) 0)) st
  have r6 := r.radius hT rn
  have hg := radius_globe7 hT ρ (.pd 7) (Or.inr (Or.inr ⟨7, by omega, rfl⟩)) _ r6
  rw [r.dens 7 (by omega)]
  show 0 < r.n
  rw [r.v6, part_pos (by decide)]
  have hl : ¬ (x.alt ≤ altl 7 ∧ |x.sw 14| > 0) := fun h => absurd h.1 (not_le.2 ha)
  unfold gtsN species
  simp only [bind_run, if_neg hl, pure_run]
  unfold den
  rw [r.hc]
  refine densu_pos F hF T x.alt _ _ _ _ _ _ _ _ ?_ (by linarith) ?_ k2 k1.le
    (div_nonneg k3.le (by linarith)) ?_ k6 ?_
  · show T.pdl 1 15 ≤ x.alt
    linarith
  · exact mul_pos (mul_pos k4 (by rw [hF.exp]; exact Real.exp_pos _)) k5
  · rw [hg.2]; exact hre
  · unfold nearzero; norm_num

theorem meters_pos (b : Bool) : (0 : ℝ) < if b then 1e6 else 1 := by
  cases b
  · rw [if_neg Bool.false_ne_true]; exact one_pos
  · rw [if_pos rfl]; norm_num

/-- The densities of `gtd7` above the second group of nodes are those of `gts7`. -/
theorem gtd7_high_d {F : Fns ℝ} {T : Tab ℝ} {x : In ℝ} (tzg : ℝ) (mass : ℤ) (old : Out ℝ) (h1 : x.alt ≥ zn2 0)
    (h2 : ¬ (x.alt < zmix ∧ mass > 0)) (s : St ℝ) (k : ℕ) (hk : k < 9) :
    (gtd7 F T tzg x mass old s).1.d k =
      (gts7 F T x mass (glatf F (if |x.sw 1| < 0 then 45 else x.glat) s).2).1.d k := by
  have hx : ({ x with alt := max x.alt (zn2 0) } : In ℝ) = x := by rw [max_eq_left h1]
  rw [gtd7_high tzg mass old h1 h2, hx]
  exact if_pos hk

theorem gts7_nitrogen_pos {F : Fns ℝ} (hF : RealFns F) {T : Tab ℝ} (hT : TabOk T)
    (k : T.ptm 1 * T.p (.pd 3) 0 < T.ptm 0 * T.p .pt 0 ∧ 0 < T.ptm 1 * T.p (.pd 3) 0 ∧ 0 < T.ptm 3 * T.p .ps 0 ∧
      0 < T.pdm 6 0 ∧ 0 < T.p (.pd 7) 0 ∧ 0 ≤ T.ptm 5 ∧ T.ptm 5 ≤ 450 ∧ T.pdl 1 15 ≤ 450) (x : In ℝ)
    (ha : 450 < x.alt) (h15 : x.sw 15 = 0) (h16 : x.sw 16 = 0) (h18 : x.sw 18 = 0)
    (s : St ℝ) (hr : Ready F T x.glat x.lst x.doy s) (hre : 0 < s.re) :
    0 < (gts7 F T x 48 s).1.d 7 := by
  obtain ⟨et, rt⟩ := temps_off hT h15 h16 h18 s hr
  have rn : Radius F T x s.re (gtsNodes F T x (gtsTemps F T x s).2).2 := by
    unfold gtsNodes
    rw [if_pos (by linarith [k.2.2.2.2.2.2.1])]
    exact ⟨keep rt.1, rt.2⟩
  have e := gtsDens_nitrogen_pos hF hT k x ha s.re hre _ rn
  have e1 : (gtsTemps F T x s).1.1 = T.ptm 0 * T.p .pt 0 := by rw [et]
  have e2 : (gtsTemps F T x s).1.2.1 = T.ptm 1 * T.p (.pd 3) 0 := by rw [et]
  have e3 : (gtsTemps F T x s).1.2.2 =
      T.ptm 3 * T.p .ps 0 / (T.ptm 0 * T.p .pt 0 - T.ptm 1 * T.p (.pd 3) 0) := by rw [et]
  rw [← e3, ← e2, ← e1] at e
  rw [gts7_dens 48 (by decide) 7 (by omega)]
  exact mul_pos e (meters_pos x.meters)

/-- **C124 (counterexample)**  The branch for atomic nitrogen is entered for every selection but the one of atomic nitrogen
itself.  Asked for its density above 450 km the model answers zero; asked for all species it gives a positive density for the
same input. -/
theorem nitrogen_request_counterexample (x : In ℝ) (ha : 450 < x.alt) (h15 : x.sw 15 = 0) (h16 : x.sw 16 = 0)
    (h18 : x.sw 18 = 0) (tzg : ℝ) (old : Out ℝ) (s : St ℝ) (hr : Ready realFns tabR x.glat x.lst x.doy s) :
    (gtd7 realFns tabR tzg x 14 old s).1.d 7 = 0 ∧ 0 < (gtd7 realFns tabR tzg x 48 old s).1.d 7 := by
  refine ⟨nitrogen_zero tzg (le_trans (by norm_num) ha.le) old s, ?_⟩
  have hz2 : (zn2 0 : ℝ) = 72.5 := rfl
  have hzm : (zmix : ℝ) = 62.5 := rfl
  rw [gtd7_high_d tzg 48 old (by rw [hz2]; linarith) (fun h => absurd h.1 (not_lt.2 (by rw [hzm]; linarith))) s 7
    (by omega)]
  exact gts7_nitrogen_pos ⟨rfl, rfl⟩ tabR_ok tabR_nitrogen x ha h15 h16 h18 _ (keep hr) (glatf_pos _ s)

/-! ### Examples -/

/-- The caches of a new object are usable. -/
theorem ready_fresh (lat lst : ℝ) (doy : ℤ) (h1 : lat ∈ ({0, 10, 45} : Set ℝ)) (h2 : lst ∈ ({0, 10, 45} : Set ℝ))
    (hd : doy ≠ -1) (s : St ℝ) (hs : Fresh tabR s) : Ready realFns tabR lat lst doy s :=
  (hs.coh (F := realFns) (Lat := {0, 10, 45}) (Lst := {0, 10, 45})).ready tabR_ok spread_example spread_example _ _ _ h1 h2 hd

/-- Helium at 800 km, from a new object in both cases. -/
example (s s' : St ℝ) (hs : Fresh tabR s) (hs' : Fresh tabR s') (old old' : Out ℝ) (tz tz' : ℝ) :
    (gtd7 realFns tabR tz (sampleIn 10 0 800 200) 4 old s).1.d 0 =
      (gtd7 realFns tabR tz' (sampleIn 10 0 800 200) 48 old' s').1.d 0 :=
  (gtd7_request_partial (x := sampleIn 10 0 800 200) tabR_ok tabR_quiet tz tz' 4 0 (by decide) (fun h => absurd h (by decide))
    (fun h => absurd h (by show ¬ (800 : ℝ) < 72.5; norm_num)) old old' s s' (ready_fresh _ _ _ (by simp [sampleIn])
    (by simp [sampleIn]) (by decide) s hs) (ready_fresh _ _ _ (by simp [sampleIn]) (by simp [sampleIn]) (by decide) s' hs')
    (fun a => by rw [hs.p24, hs'.p24]) (Or.inl (by show (800 : ℝ) > 32.5; norm_num))).1

/-- Molecular oxygen at 70 km, in the region between diffusive equilibrium and full mixing. -/
example (s s' : St ℝ) (hs : Fresh tabR s) (hs' : Fresh tabR s') (old old' : Out ℝ) (tz tz' : ℝ) :
    (gtd7 realFns tabR tz (sampleIn 10 0 70 200) 32 old s).1.d 3 =
      (gtd7 realFns tabR tz' (sampleIn 10 0 70 200) 48 old' s').1.d 3 :=
  (gtd7_request_partial (x := sampleIn 10 0 70 200) tabR_ok tabR_quiet tz tz' 32 3 (by decide) (fun h => absurd h (by decide))
    (fun _ => by show |(1 : ℝ)| > 0; norm_num) old old' s s' (ready_fresh _ _ _ (by simp [sampleIn])
    (by simp [sampleIn]) (by decide) s hs) (ready_fresh _ _ _ (by simp [sampleIn]) (by simp [sampleIn]) (by decide) s' hs')
    (fun a => by rw [hs.p24, hs'.p24]) (Or.inl (by show (70 : ℝ) > 32.5; norm_num))).1

/-- Atomic nitrogen at 800 km, with the three variations switched off. -/
example (s : St ℝ) (hs : Fresh tabR s) (old : Out ℝ) (tz : ℝ) :
    (gtd7 realFns tabR tz { sampleIn 10 0 800 200 with sw := fun _ => 0 } 14 old s).1.d 7 = 0 ∧
      0 < (gtd7 realFns tabR tz { sampleIn 10 0 800 200 with sw := fun _ => 0 } 48 old s).1.d 7 :=
  nitrogen_request_counterexample _ (by show (450 : ℝ) < 800; norm_num) rfl rfl rfl tz old s
    (ready_fresh _ _ _ (by simp [sampleIn]) (by simp [sampleIn]) (by decide) s hs)

end Real

end Verif.Atmosphere.Msis
