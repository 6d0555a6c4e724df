import Verif.Atmosphere.MsisData

/-
C64: where the output does depend on what was evaluated before.
-/
namespace Verif.Atmosphere.Msis

variable {K : Type} [Field K] [LinearOrder K] [IsStrictOrderedRing K]

variable {F : Fns K} {T : Tab K}

/-! ### The latitude cache -/

omit [IsStrictOrderedRing K] in
theorem apStep_cache (x : In K) (a : Arr) (s : St K) :
    (apStep F T x a s).2.xl = s.xl ∧ (apStep F T x a s).2.plg = s.plg ∧
      (apStep F T x a s).2.dfa = s.dfa := by
  unfold apStep
  rw [upd_run]
  dsimp only
  split_ifs <;> exact ⟨rfl, rfl, rfl⟩

omit [IsStrictOrderedRing K] in
theorem timeStep_cache (x : In K) (s : St K) :
    (timeStep F x s).2.xl = s.xl ∧ (timeStep F x s).2.plg = s.plg := by
  unfold timeStep
  rw [upd_run]
  dsimp only
  split_ifs <;> exact ⟨rfl, rfl⟩

omit [IsStrictOrderedRing K] in
/-- The latitude remembered after `globe7`. -/
theorem globe7_xl (x : In K) (a : Arr) (s : St K) :
    (globe7 F T x a s).2.xl = if |s.xl - x.glat| > nearzero then x.glat else s.xl := by
  simp only [globe7, bind_run, upd_run, rd_run]
  rw [(apStep_cache x a _).1]
  change (timeStep F x (latStep F x s).2).2.xl = _
  rw [(timeStep_cache x _).1]
  unfold latStep
  rw [upd_run]
  dsimp only
  split_ifs <;> rfl

omit [IsStrictOrderedRing K] in
/-- The Legendre functions used by `globe7`: those of the instance, whichever instance wrote the
static latitude. -/
theorem globe7_plg (x : In K) (a : Arr) (s : St K) (h : ¬ |s.xl - x.glat| > nearzero) :
    (globe7 F T x a s).2.plg = s.plg := by
  simp only [globe7, bind_run, upd_run, rd_run]
  rw [(apStep_cache x a _).2.1]
  change (timeStep F x (latStep F x s).2).2.plg = _
  rw [(timeStep_cache x _).2]
  unfold latStep
  rw [upd_run]
  dsimp only
  rw [if_neg h]

/-- After `globe7` the remembered latitude is the input's, within the tolerance. -/
theorem globe7_near (x : In K) (a : Arr) (s : St K) :
    ¬ |(globe7 F T x a s).2.xl - x.glat| > nearzero := by
  rw [globe7_xl]
  split_ifs with h
  · exact not_gt_self _
  · exact h

/-- All inputs with this latitude keep the remembered latitude near it. -/
theorem near_stable (lat : K) :
    Stable F T (fun x => x.glat = lat) (fun s => ¬ |s.xl - lat| > nearzero) where
  globe := fun x hx a _ s _ => by subst hx; exact globe7_near x a s
  globs := fun x _ a _ s h => by
    simp only [glob7s, bind_run, rd_run, seasonStepS, upd_run]
    exact h
  alt := fun _ _ h => h
  other := fun s t h1 _ _ h => by
    simp only [cachePart, Prod.mk.injEq] at h1
    rw [h1.1.1]
    exact h

/-- After an evaluation above 300 km without densities the remembered latitude is the input's, within
the tolerance. -/
theorem gtd7_near (x : In K) (tz : K) (old : Out K) (s : St K) (h300 : 300 ≤ x.alt) :
    ¬ |(gtd7 F T tz x 0 old s).2.xl - x.glat| > nearzero := by
  have h72 : x.alt ≥ zn2 0 := le_trans (by show (72.5 : K) ≤ 300; norm_num) h300
  have h300' : max x.alt (zn2 0) ≥ 300 := h300.trans (le_max_left _ _)
  have hS := near_stable (F := F) (T := T) x.glat
  generalize hx' : ({ x with alt := max x.alt (zn2 0) } : In K) = x'
  have hl : x'.glat = x.glat := by rw [← hx']
  have ha : x'.alt ≥ 300 := by rw [← hx']; exact h300'
  have temps : ∀ s, ¬ |(gtsTemps F T x' s).2.xl - x.glat| > nearzero := by
    intro s
    simp only [gtsTemps, bind_run, upd_run, rd_run, pure_run]
    rw [← hl]
    exact globe7_near x' (.pd 3) _
  have gts : ∀ s, ¬ |(gts7 F T x' 0 s).2.xl - x.glat| > nearzero := by
    intro s
    have h0 : ¬ ((0 : ℤ) ≠ 0) := by decide
    simp only [gts7, gtsCore, bind_run, pure_run, ite_run, gtsNodes, if_pos ha, if_neg h0, upd_run,
      ne_eq, show (0 : ℕ) ≠ 5 by decide, not_false_eq_true, if_true]
    refine densu_keeps hS _ _ _ _ _ _ _ _ _ ?_
    exact temps s
  simp only [gtd7, bind_run, pure_run, ite_run, if_pos h72, upd_run]
  have h0 : ¬ (x.alt < zmix ∧ (0 : ℤ) > 0) := fun h => absurd h.2 (by decide)
  rw [if_neg h0, hx']
  exact gts _

/-! ### Inputs with only the latitude terms -/

/-- Only the latitude terms of the temperature (switch 1 and its scale, switch 15). -/
def latOnly (lat alt : K) : In K where
  sw := fun k => if k = 1 ∨ k = 15 then 1 else 0
  swc := fun _ => 0
  doy := 1
  sec := 0
  alt := alt
  glat := lat
  glon := 0
  lst := 0
  f107A := 150
  f107 := 150
  ap := 4
  aparr := fun _ => 4
  meters := false

/-- The latitude terms of the exospheric temperature. -/
def latTerms (p : ℕ → K) (g : Plg K) : K :=
  p 30 + (p 1 * g.p02 + p 2 * g.p04 + p 22 * g.p06 + p 26 * g.p01)

theorem globeSum_latOnly (p : ℕ → K) (lat alt : K) (g : Plg K) (dfa : K) (c : Cds K) (τ : Trig K)
    (apdf apt0 : K) : globeSum F p (latOnly lat alt) g dfa c τ apdf apt0 = latTerms p g := by
  simp only [globeSum, latOnly, latTerms]
  norm_num

omit [IsStrictOrderedRing K] in
/-- The Legendre functions after `globe7`. -/
theorem globe7_plg' (x : In K) (a : Arr) (s : St K) :
    (globe7 F T x a s).2.plg = if |s.xl - x.glat| > nearzero then legendre F x.glat else s.plg := by
  simp only [globe7, bind_run, upd_run, rd_run]
  rw [(apStep_cache x a _).2.1]
  change (timeStep F x (latStep F x s).2).2.plg = _
  rw [(timeStep_cache x _).2]
  unfold latStep
  rw [upd_run]
  dsimp only
  split_ifs <;> rfl

/-- The exospheric temperature for such inputs. -/
theorem t0_latOnly (lat alt : K) (mass : ℤ) (old : Out K) (tz : K) (s : St K) (h72 : 72.5 ≤ alt)
    (hz : zn1 T 0 < alt) :
    (gtd7 F T tz (latOnly lat alt) mass old s).1.t0 =
      T.ptm 0 * T.p .pt 0 * (1 + latTerms (T.p .pt)
        (if |s.xl - lat| > nearzero then legendre F lat else s.plg)) := by
  have h72' : (latOnly lat alt).alt ≥ zn2 0 := h72
  have hmax : max (latOnly lat alt).alt (zn2 0) = alt := max_eq_left h72
  simp only [gtd7, bind_run, pure_run, ite_run, if_pos h72', upd_run]
  rw [hmax]
  have e : ({ latOnly lat alt with alt := alt } : In K) = latOnly lat alt := rfl
  rw [e]
  have hz' : (latOnly lat alt).alt > zn1 T 0 := hz
  simp only [gts7, gtsCore, bind_run, pure_run, gtsTemps, ite_run, if_pos hz']
  have hg : ∀ s : St K, (globe7 F T (latOnly lat alt) .pt s).1 = latTerms (T.p .pt)
      (if |s.xl - lat| > nearzero then legendre F lat else s.plg) := by
    intro s
    have h1 : (globe7 F T (latOnly lat alt) .pt s).1 =
        globeSum F (T.p .pt) (latOnly lat alt) (globe7 F T (latOnly lat alt) .pt s).2.plg
          (globe7 F T (latOnly lat alt) .pt s).2.dfa (globe7 F T (latOnly lat alt) .pt s).2.gcd
          (globe7 F T (latOnly lat alt) .pt s).2.trig (globe7 F T (latOnly lat alt) .pt s).2.apdf
          (globe7 F T (latOnly lat alt) .pt s).2.apt0 := rfl
    rw [h1, globeSum_latOnly, globe7_plg']
    rfl
  rw [hg]
  have e2 : (glatf F (if |(latOnly lat alt).sw 1| < 0 then 45 else (latOnly lat alt).glat) s).2.xl = s.xl :=
    rfl
  have e3 : (glatf F (if |(latOnly lat alt).sw 1| < 0 then 45 else (latOnly lat alt).glat) s).2.plg =
    s.plg := rfl
  rw [e2, e3]
  have e4 : (latOnly lat alt).sw 15 = 1 := by simp [latOnly]
  rw [e4, one_mul]

/-- The statics of one state with the members of another: the situation of a second instance. -/
def onInstance (statics members : St K) : St K :=
  { members with
    xl := statics.xl
    tll := statics.tll
    gdoy := statics.gdoy
    g14 := statics.g14
    g18 := statics.g18
    g32 := statics.g32
    g39 := statics.g39
    gcd := statics.gcd
    sdoy := statics.sdoy
    s14 := statics.s14
    s18 := statics.s18
    s32 := statics.s32
    s39 := statics.s39
    scd := statics.scd }

/-- **C64 is false for two instances.**  Evaluate an input on one instance and then the same input on
a second, new one: the temperature of the second evaluation is computed from the second instance's
uninitialised Legendre functions, and any value can come out. -/
theorem two_instances_counterexample (hp : T.ptm 0 ≠ 0) (hp0 : T.p .pt 0 ≠ 0) (hp1 : T.p .pt 1 ≠ 0)
    (lat alt : K) (h300 : 300 ≤ alt) (hz : zn1 T 0 < alt) (old : Out K) (tz : K) (s m : St K) (v : K) :
    ∃ m' : St K, m' = { m with plg := m'.plg } ∧
      (gtd7 F T tz (latOnly lat alt) 0 old
        (onInstance (gtd7 F T tz (latOnly lat alt) 0 old s).2 m')).1.t0 = v := by
  set g : Plg K := { m.plg with
    p02 := ((v / (T.ptm 0 * T.p .pt 0) - 1) - T.p .pt 30 -
      (T.p .pt 2 * m.plg.p04 + T.p .pt 22 * m.plg.p06 + T.p .pt 26 * m.plg.p01)) / T.p .pt 1 } with hg
  refine ⟨{ m with plg := g }, rfl, ?_⟩
  have h72 : (72.5 : K) ≤ alt := le_trans (by norm_num) h300
  have hn := gtd7_near (F := F) (T := T) (latOnly lat alt) tz old s h300
  rw [t0_latOnly lat alt 0 old tz _ h72 hz, if_neg (by exact hn)]
  show T.ptm 0 * T.p .pt 0 * (1 + latTerms (T.p .pt) g) = v
  simp only [latTerms, hg]
  field_simp
  ring

/-- Inputs at this latitude keep the remembered latitude and Legendre functions. -/
theorem lat_stable (lat : K) :
    Stable F T (fun x => x.glat = lat) (fun s => s.xl = lat ∧ s.plg = legendre F lat) where
  globe := fun x hx a _ s h => by
    subst hx
    rw [globe7_xl, globe7_plg', h.1, if_neg (not_gt_self _), if_neg (not_gt_self _)]
    exact ⟨rfl, h.2⟩
  globs := fun x _ a _ s h => by
    simp only [glob7s, bind_run, rd_run, seasonStepS, upd_run]
    exact h
  alt := fun _ _ h => h
  other := fun s t h1 _ _ h => by
    simp only [cachePart, Prod.mk.injEq] at h1
    rw [h1.1.1, h1.2.2.2.1]
    exact h

/-- The latitude cache after an evaluation above 300 km at a new latitude. -/
theorem gtd7_lat (x : In K) (tz : K) (old : Out K) (s : St K) (h300 : 300 ≤ x.alt)
    (hz : zn1 T 0 < x.alt) (hs : |s.xl - x.glat| > nearzero) :
    (gtd7 F T tz x 0 old s).2.xl = x.glat ∧ (gtd7 F T tz x 0 old s).2.plg = legendre F x.glat := by
  have h72 : x.alt ≥ zn2 0 := le_trans (by show (72.5 : K) ≤ 300; norm_num) h300
  have h300' : max x.alt (zn2 0) ≥ 300 := h300.trans (le_max_left _ _)
  have hS := lat_stable (F := F) (T := T) x.glat
  generalize hx' : ({ x with alt := max x.alt (zn2 0) } : In K) = x'
  have hl : x'.glat = x.glat := by rw [← hx']
  have ha : x'.alt ≥ 300 := by rw [← hx']; exact h300'
  have hz' : x'.alt > zn1 T 0 := by rw [← hx']; exact lt_of_lt_of_le hz (le_max_left _ _)
  have temps : ∀ s, |s.xl - x'.glat| > nearzero →
      (gtsTemps F T x' s).2.xl = x.glat ∧ (gtsTemps F T x' s).2.plg = legendre F x.glat := by
    intro s hs
    simp only [gtsTemps, bind_run, upd_run, rd_run, pure_run, ite_run, if_pos hz']
    refine hS.globe x' hl (.pd 3) (Or.inr (Or.inr ⟨3, by omega, rfl⟩)) _ ?_
    have h1 : (globe7 F T x' .pt s).2.xl = x.glat ∧ (globe7 F T x' .pt s).2.plg = legendre F x.glat := by
      rw [globe7_xl, globe7_plg', if_pos hs, if_pos hs, hl]
      exact ⟨rfl, rfl⟩
    split_ifs
    · exact hS.globe x' hl .ps (Or.inr (Or.inl rfl)) _ h1
    · exact h1
  have gts : ∀ s, |s.xl - x'.glat| > nearzero →
      (gts7 F T x' 0 s).2.xl = x.glat ∧ (gts7 F T x' 0 s).2.plg = legendre F x.glat := by
    intro s hs
    have h0 : ¬ ((0 : ℤ) ≠ 0) := by decide
    simp only [gts7, gtsCore, bind_run, pure_run, ite_run, gtsNodes, if_pos ha, if_neg h0, upd_run,
      ne_eq, show (0 : ℕ) ≠ 5 by decide, not_false_eq_true, if_true]
    refine densu_keeps hS _ _ _ _ _ _ _ _ _ ?_
    exact temps s hs
  simp only [gtd7, bind_run, pure_run, ite_run, if_pos h72, upd_run]
  have h0 : ¬ (x.alt < zmix ∧ (0 : ℤ) > 0) := fun h => absurd h.2 (by decide)
  rw [if_neg h0, hx']
  exact gts _ (by rw [hl]; exact hs)

/-- **C64 is false for latitudes closer than the tolerance.**  The second evaluation, within the
tolerance of the first, uses the Legendre functions of the first; a new instance computes another
temperature whenever the latitude terms differ. -/
theorem near_latitude_counterexample (lat d alt : K) (hd : |d| ≤ nearzero)
    (h300 : 300 ≤ alt) (hz : zn1 T 0 < alt) (old : Out K) (tz : K) (s : St K)
    (hs : |s.xl - lat| > nearzero) (hs' : |s.xl - (lat + d)| > nearzero)
    (hp : T.ptm 0 * T.p .pt 0 ≠ 0)
    (hl : latTerms (T.p .pt) (legendre F lat) ≠ latTerms (T.p .pt) (legendre F (lat + d))) :
    (gtd7 F T tz (latOnly (lat + d) alt) 0 old (gtd7 F T tz (latOnly lat alt) 0 old s).2).1.t0 ≠
      (gtd7 F T tz (latOnly (lat + d) alt) 0 old s).1.t0 := by
  have h72 : (72.5 : K) ≤ alt := le_trans (by norm_num) h300
  obtain ⟨h1, h2⟩ := gtd7_lat (F := F) (T := T) (latOnly lat alt) tz old s h300 hz hs
  rw [t0_latOnly _ _ _ _ _ _ h72 hz, t0_latOnly _ _ _ _ _ _ h72 hz, if_pos hs', h1, h2]
  have hn : ¬ |(latOnly lat alt).glat - (lat + d)| > nearzero := by
    have : (latOnly lat alt).glat - (lat + d) = -d := by show lat - (lat + d) = -d; ring
    rw [this, abs_neg]
    exact not_lt.mpr hd
  rw [if_neg hn]
  intro h
  exact hl (add_left_cancel (mul_left_cancel₀ hp h))

/-! ### The first lower node -/

/-- The radius computed by `glatf` is positive. -/
theorem radius_pos (hF : ∀ t, |F.cos t| ≤ 1) (lat : K) : 0 < radius F lat := by
  have h := abs_le.mp (hF (2 * F.deg2rad lat))
  have h1 : (0 : K) < 1 - 0.0026373 * F.cos (2 * F.deg2rad lat) := by
    have : (0.0026373 : K) * F.cos (2 * F.deg2rad lat) ≤ 0.0026373 * 1 :=
      mul_le_mul_of_nonneg_left h.2 (by norm_num)
    have h' : (0.0026373 : K) < 1 := by norm_num
    linarith
  have h2 : (0 : K) < 3.085462e-6 + 2.27e-9 * F.cos (2 * F.deg2rad lat) := by
    have : (2.27e-9 : K) * -1 ≤ 2.27e-9 * F.cos (2 * F.deg2rad lat) :=
      mul_le_mul_of_nonneg_left h.1 (by norm_num)
    have h' : (2.27e-9 : K) < 3.085462e-6 := by norm_num
    linarith
  have h3 : (0 : K) < egrav * 1e2 := by unfold egrav; norm_num
  have h5 : (0 : K) < 1e-5 := by norm_num
  exact mul_pos (div_pos (mul_pos two_pos (mul_pos h3 h1)) h2) h5

/-- Nothing writes `tn3[0]`. -/
theorem tn3_stable (hF : ∀ t, |F.cos t| ≤ 1) (v : K) :
    Stable F T (fun _ => True) (fun s => s.tn3 0 = v ∧ 0 < s.re) where
  globe := fun x _ a _ s h => by
    have h1 : (latStep F x s).2.tn3 = s.tn3 ∧ (latStep F x s).2.re = s.re := by
      unfold latStep; rw [upd_run]; dsimp only; split_ifs <;> exact ⟨rfl, rfl⟩
    have h2 : ∀ s, (timeStep F x s).2.tn3 = s.tn3 ∧ (timeStep F x s).2.re = s.re := by
      intro s; unfold timeStep; rw [upd_run]; dsimp only; split_ifs <;> exact ⟨rfl, rfl⟩
    have h4 : ∀ s, (apStep F T x a s).2.tn3 = s.tn3 ∧ (apStep F T x a s).2.re = s.re := by
      intro s; unfold apStep; rw [upd_run]; dsimp only; split_ifs <;> exact ⟨rfl, rfl⟩
    simp only [globe7, bind_run, upd_run, rd_run]
    rw [(h4 _).1, (h4 _).2]
    change (timeStep F x (latStep F x s).2).2.tn3 0 = v ∧ 0 < (timeStep F x (latStep F x s).2).2.re
    rw [(h2 _).1, (h2 _).2, h1.1, h1.2]
    exact h
  globs := fun x _ a _ s h => by
    simp only [glob7s, bind_run, rd_run, seasonStepS, upd_run]
    exact h
  alt := fun _ _ h => h
  other := fun s t _ h2 h3 h => ⟨h2.trans h.1, by
    rcases h3 with h3 | ⟨lat, h3⟩
    · rw [h3]; exact h.2
    · rw [h3]; exact radius_pos hF lat⟩

/-- The abscissae of the lower spline increase. -/
theorem lower_increasing (re : K) (hre : 0 < re) :
    Increasing (fun k => zeta re (zn3 k) 32.5 / zeta re 0 32.5) 5 := by
  have hpos : ∀ k, 0 ≤ (zn3 k : K) := by
    intro k
    unfold zn3
    split <;> norm_num
  have hlt : ∀ i, i + 1 < 5 → (zn3 (i + 1) : K) < zn3 i := by
    intro i hi
    have : i = 0 ∨ i = 1 ∨ i = 2 ∨ i = 3 := by omega
    rcases this with rfl | rfl | rfl | rfl <;> simp only [zn3] <;> norm_num
  intro i hi
  dsimp only
  have hz : zeta re 0 32.5 < 0 := by
    unfold zeta
    apply div_neg_of_neg_of_pos
    · exact mul_neg_of_neg_of_pos (by norm_num) (by linarith)
    · linarith
  rw [div_lt_div_right_of_neg hz]
  have h1 := hpos i
  have h2 := hpos (i + 1)
  have h3 := hlt i hi
  unfold zeta
  rw [div_lt_div_iff₀ (by linarith) (by linarith)]
  have : (zn3 (i + 1) - 32.5) * (re + 32.5) * (re + zn3 i) -
      (zn3 i - 32.5) * (re + 32.5) * (re + zn3 (i + 1)) =
      (re + 32.5) * ((zn3 (i + 1) - zn3 i) * (re + 32.5)) := by ring
  have h4 : (re + 32.5) * ((zn3 (i + 1) - zn3 i) * (re + 32.5)) < 0 :=
    mul_neg_of_pos_of_neg (by linarith) (mul_neg_of_neg_of_pos (by linarith) (by linarith))
  linarith

/-- At the top of the lower part the temperature is the first node. -/
theorem densmPart_top (re gsurf xm : K) (hre : 0 < re) (tn tg : ℕ → K) :
    (densmPart F 5 zn3 32.5 re gsurf xm tn tg).1 = tn 0 := by
  have hx : zeta re 32.5 (32.5 : K) / zeta re 0 32.5 =
      (fun k => zeta re (zn3 k) 32.5 / zeta re 0 32.5) 0 := rfl
  show 1 / splint _ (fun k => zeta re (zn3 k) 32.5 / zeta re 0 32.5) (fun k => 1 / tn k) _ 5
    (zeta re 32.5 32.5 / zeta re 0 32.5) = tn 0
  rw [hx, splint_node _ _ _ _ 5 (by omega) (lower_increasing re hre) 0 (by omega)]
  exact one_div_one_div _

/-- **C64 is false at 32.5 km.**  The temperature returned there is the member `tn3[0]`, which no
function writes: whatever the object's storage held when it was created. -/
theorem unset_node_counterexample (hF : ∀ t, |F.cos t| ≤ 1) (x : In K) (hx : x.alt = 32.5) (mass : ℤ)
    (old : Out K) (tz : K) (s : St K) : (gtd7 F T tz x mass old s).1.t1 = s.tn3 0 := by
  have h72 : ¬ x.alt ≥ zn2 0 := by rw [hx]; exact not_le.mpr (by show (32.5 : K) < 72.5; norm_num)
  have hlt : ¬ x.alt < zn3 0 := by rw [hx]; exact lt_irrefl (32.5 : K)
  have hS := tn3_stable (F := F) (T := T) hF (s.tn3 0)
  have dens : ∀ (d0 xm : K) (t : St K), t.tn3 0 = s.tn3 0 ∧ 0 < t.re →
      (densm F x.alt d0 xm tz t).1.2 = s.tn3 0 := by
    intro d0 xm t ht
    have h1 : (32.5 : K) ≤ zn2 0 := by show (32.5 : K) ≤ 72.5; norm_num
    have h2 : (32.5 : K) ≤ zn3 0 := le_refl (32.5 : K)
    rw [hx]
    simp only [densm, bind_run, rd_run, pure_run, ite_run, if_pos h1, if_pos h2]
    rw [densmPart_top _ _ _ ht.2]
    exact ht.1
  have h0 : ∀ lat, ((glatf F lat s).2).tn3 0 = s.tn3 0 ∧ 0 < (glatf F lat s).2.re := fun lat =>
    ⟨rfl, radius_pos hF lat⟩
  have key : ∀ (mss : ℤ) (lat : K), ∀ t, t = (gts7 F T { x with alt := max x.alt (zn2 0) } mss
      (glatf F lat s).2).2 → ∀ v, (gtdNodes2 F T x { t with dm28m := v }).2.tn3 0 = s.tn3 0 ∧
        0 < (gtdNodes2 F T x { t with dm28m := v }).2.re := by
    intro mss lat t ht v
    refine gtdNodes2_keeps hS x trivial _ (hS.other t _ rfl rfl (Or.inl rfl) ?_)
    rw [ht]
    exact gts7_keeps hS _ trivial mss _ (h0 lat)
  simp only [gtd7, bind_run, pure_run, ite_run, if_neg h72, if_neg hlt, upd_run, rd_run]
  split_ifs
  all_goals exact dens _ _ _ (key _ _ _ rfl _)

end Verif.Atmosphere.Msis
