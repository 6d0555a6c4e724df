import Verif.Atmosphere.MsisHistory

/-
Two evaluations side by side, for two inputs: if `globe7` and `glob7s` return the same values for both,
so does `gtd7`.  The state is split into the part that only `globe7` and `glob7s` write (the caches)
and the rest.
-/
namespace Verif.Atmosphere.Msis

variable {K : Type}

/-- What only `globe7` and `glob7s` write. -/
structure Cache (K : Type) where
  xl : K
  tll : K
  gdoy : ℤ
  g14 : K
  g18 : K
  g32 : K
  g39 : K
  gcd : Cds K
  sdoy : ℤ
  s14 : K
  s18 : K
  s32 : K
  s39 : K
  scd : Cds K
  p24 : Arr → K
  p99 : Arr → K
  plg : Plg K
  trig : Trig K
  dfa : K
  apdf : K
  apt0 : K

/-- Overwrite the caches. -/
def withCache (s : St K) (c : Cache K) : St K :=
  { s with
    xl := c.xl, tll := c.tll, gdoy := c.gdoy, g14 := c.g14, g18 := c.g18, g32 := c.g32, g39 := c.g39
    gcd := c.gcd, sdoy := c.sdoy, s14 := c.s14, s18 := c.s18, s32 := c.s32, s39 := c.s39, scd := c.scd
    p24 := c.p24, p99 := c.p99, plg := c.plg, trig := c.trig, dfa := c.dfa, apdf := c.apdf, apt0 := c.apt0 }

/-- The caches of a state. -/
def cacheOf (s : St K) : Cache K :=
  { xl := s.xl, tll := s.tll, gdoy := s.gdoy, g14 := s.g14, g18 := s.g18, g32 := s.g32, g39 := s.g39
    gcd := s.gcd, sdoy := s.sdoy, s14 := s.s14, s18 := s.s18, s32 := s.s32, s39 := s.s39, scd := s.scd
    p24 := s.p24, p99 := s.p99, plg := s.plg, trig := s.trig, dfa := s.dfa, apdf := s.apdf, apt0 := s.apt0 }

theorem withCache_cacheOf (s : St K) : withCache s (cacheOf s) = s := rfl

/-- From states that differ in the caches only, which are related by `C`, both computations give the same
value and again states that differ in the caches only, which are related by `D`. -/
def Sim {α : Type} (C D : Cache K → Cache K → Prop) (m m' : M K α) : Prop :=
  ∀ s c c', C c c' → ∃ v t d d', m (withCache s c) = (v, withCache t d) ∧
    m' (withCache s c') = (v, withCache t d') ∧ D d d'

variable {C D E W S : Cache K → Cache K → Prop}

theorem Sim.bind {α β : Type} {m m' : M K α} {f f' : α → M K β} (h : Sim C D m m')
    (h' : ∀ a, Sim D E (f a) (f' a)) : Sim C E (m >>= f) (m' >>= f') := by
  intro s c c' hc
  obtain ⟨v, t, d, d', e, e', hd⟩ := h s c c' hc
  rw [bind_run, bind_run, e, e']
  exact h' v t d d' hd

theorem Sim.pure {α : Type} (a : α) : Sim C C (pure a : M K α) (pure a) :=
  fun s c c' hc => ⟨a, s, c, c', rfl, rfl, hc⟩

theorem Sim.rd {α : Type} (f : St K → α) (h : ∀ s c, f (withCache s c) = f s) : Sim C C (rd f) (rd f) :=
  fun s c c' hc => ⟨f s, s, c, c', by rw [rd_run, h], by rw [rd_run, h], hc⟩

theorem Sim.upd (f : St K → St K) (h : ∀ s c, f (withCache s c) = withCache (f s) c) :
    Sim C C (upd f) (upd f) :=
  fun s c c' hc => ⟨(), f s, c, c', by rw [upd_run, h], by rw [upd_run, h], hc⟩

theorem Sim.ite {α : Type} {p : Prop} [Decidable p] {m n m' n' : M K α} (h : Sim C D m m') (h' : Sim C D n n') :
    Sim C D (if p then m else n) (if p then m' else n') := by
  split <;> assumption

variable [Field K] [LinearOrder K] {F : Fns K} {T : Tab K}

/-- The inputs agree in what `gtd7` reads apart from the calls of `globe7` and `glob7s`. -/
structure Alike (F : Fns K) (T : Tab K) (x x' : In K) : Prop where
  alt : x'.alt = x.alt
  glat : x'.glat = x.glat
  meters : x'.meters = x.meters
  sw : ∀ k, 14 ≤ k → x'.sw k = x.sw k
  zhf : x'.sw 4 * T.pdl 0 24 * F.sin (F.deg2rad x.glat) * F.cos (dr * (x'.doy - T.p .pt 13)) =
    x.sw 4 * T.pdl 0 24 * F.sin (F.deg2rad x.glat) * F.cos (dr * (x.doy - T.p .pt 13))
  flux : x'.sw 0 * T.pdl 0 23 * (x'.f107A - 150) = x.sw 0 * T.pdl 0 23 * (x.f107A - 150)

theorem densu_sim (alt dlb t1 t2 xm xalph zlb s2 : K) :
    Sim C C (densu F T alt dlb t1 t2 xm xalph zlb s2) (densu F T alt dlb t1 t2 xm xalph zlb s2) := by
  unfold densu
  refine Sim.bind (Sim.rd _ fun _ _ => rfl) fun _ => Sim.bind (Sim.rd _ fun _ _ => rfl) fun _ => Sim.ite ?_
    (Sim.ite (Sim.pure _) (Sim.pure _))
  exact Sim.bind (Sim.upd _ fun _ _ => rfl) fun _ => Sim.bind (Sim.rd _ fun _ _ => rfl) fun _ =>
    Sim.bind (Sim.rd _ fun _ _ => rfl) fun _ => Sim.ite (Sim.pure _) (Sim.pure _)

theorem den_sim (c : Ctx K) (alt dlb xm xalph : K) :
    Sim C C (den F T c alt dlb xm xalph) (den F T c alt dlb xm xalph) := densu_sim _ _ _ _ _ _ _ _

theorem setDd_sim (v : K) : Sim C C (setDd v) (setDd v) := Sim.upd _ fun _ _ => rfl

theorem densm_sim (alt d0 xm tz : K) : Sim C C (densm F alt d0 xm tz) (densm F alt d0 xm tz) := by
  unfold densm
  refine Sim.bind (Sim.rd _ fun _ _ => rfl) fun _ => Sim.bind (Sim.rd _ fun _ _ => rfl) fun _ => Sim.ite ?_ (Sim.pure _)
  refine Sim.bind (Sim.rd _ fun _ _ => rfl) fun _ => Sim.bind (Sim.rd _ fun _ _ => rfl) fun _ => Sim.ite ?_ (Sim.pure _)
  exact Sim.bind (Sim.rd _ fun _ _ => rfl) fun _ => Sim.bind (Sim.rd _ fun _ _ => rfl) fun _ => Sim.pure _

theorem glatf_sim (lat : K) : Sim C C (glatf F lat) (glatf F lat) := by
  unfold glatf
  exact Sim.upd _ fun _ _ => rfl

theorem globe7_alt (x : In K) (v : K) (a : Arr) : globe7 F T { x with alt := v } a = globe7 F T x a := rfl

theorem glob7s_alt (x : In K) (v : K) (a : Arr) : glob7s F T { x with alt := v } a = glob7s F T x a := rfl

/-- The last part of `gtd7`. -/
theorem tail_sim (tzg alt : K) (meters : Bool) (mass : ℤ) (o old : Out K) :
    Sim C C (if mass = 0 then do
        let r ← densm F alt 1 0 tzg
        setDd r.1
        pure { d := old.d, t0 := o.t0, t1 := r.2 }
      else do
        let dm28m ← rd (·.dm28m)
        let r ← densm F alt dm28m (xmm T) tzg
        pure { d := gtdMix T alt meters mass o.d dm28m r.1 old.d, t0 := o.t0, t1 := r.2 } : M K (Out K))
      (if mass = 0 then do
        let r ← densm F alt 1 0 tzg
        setDd r.1
        pure { d := old.d, t0 := o.t0, t1 := r.2 }
      else do
        let dm28m ← rd (·.dm28m)
        let r ← densm F alt dm28m (xmm T) tzg
        pure { d := gtdMix T alt meters mass o.d dm28m r.1 old.d, t0 := o.t0, t1 := r.2 } : M K (Out K)) := by
  refine Sim.ite ?_ ?_
  · exact Sim.bind (densm_sim _ _ _ _) fun _ => Sim.bind (setDd_sim _) fun _ => Sim.pure _
  · exact Sim.bind (Sim.rd _ fun _ _ => rfl) fun _ => Sim.bind (densm_sim _ _ _ _) fun _ => Sim.pure _

section

variable (x x' : In K) (ha : Alike F T x x')
  (hw : ∀ a, GArr a → Sim W W (globe7 F T x a) (globe7 F T x' a))
  (h3 : Sim W S (globe7 F T x (.pd 3)) (globe7 F T x' (.pd 3)))
  (hg : ∀ a, GArr a → Sim S S (globe7 F T x a) (globe7 F T x' a))
  (hs : ∀ a, SArr a → Sim S S (glob7s F T x a) (glob7s F T x' a))

include ha

theorem gtsN2_sim (mass : ℤ) (tinf tlb s g28 : K) :
    Sim C C (gtsN2 F T x mass tinf tlb s g28) (gtsN2 F T x' mass tinf tlb s g28) := by
  unfold gtsN2
  rw [ha.glat, ha.zhf, ha.alt, ha.sw 14 le_rfl]
  refine Sim.ite ?_ (Sim.pure _)
  refine Sim.bind (den_sim _ _ _ _ _) fun _ => Sim.bind (setDd_sim _) fun _ => Sim.bind (den_sim _ _ _ _ _) fun _ =>
    Sim.ite ?_ (Sim.pure _)
  exact Sim.bind (den_sim _ _ _ _ _) fun _ => Sim.bind (Sim.upd _ fun _ _ => rfl) fun _ =>
    Sim.bind (Sim.rd _ fun _ _ => rfl) fun _ => Sim.pure _

section

include hw h3

theorem gtsTemps_sim : Sim W S (gtsTemps F T x) (gtsTemps F T x') := by
  unfold gtsTemps
  rw [ha.alt, ha.sw 15 (by norm_num), ha.sw 16 (by norm_num), ha.sw 18 (by norm_num)]
  refine Sim.bind (Sim.ite (Sim.bind (hw _ (Or.inl rfl)) fun _ => Sim.pure _) (Sim.pure _)) fun _ => ?_
  refine Sim.bind (Sim.ite (Sim.bind (hw _ (Or.inr (Or.inl rfl))) fun _ => Sim.pure _) (Sim.pure _)) fun _ => ?_
  refine Sim.bind (Sim.upd _ fun _ _ => rfl) fun _ => Sim.bind h3 fun _ => ?_
  exact Sim.bind (Sim.upd _ fun _ _ => rfl) fun _ => Sim.bind (Sim.rd _ fun _ _ => rfl) fun _ =>
    Sim.bind (Sim.rd _ fun _ _ => rfl) fun _ => Sim.pure _

end

include hg

theorem species_sim (c : Ctx K) (k : ℕ) (a : Arr) (hA : GArr a) (m : K) (ia il : ℕ) (corr : K → K → K) :
    Sim S S (species F T x c k a m ia il corr) (species F T x' c k a m ia il corr) := by
  unfold species
  rw [ha.alt, ha.sw 14 le_rfl, ha.sw 20 (by norm_num)]
  refine Sim.bind (hg _ hA) fun _ => Sim.bind (den_sim _ _ _ _ _) fun _ => Sim.bind (setDd_sim _) fun _ =>
    Sim.ite ?_ (Sim.pure _)
  exact Sim.bind (den_sim _ _ _ _ _) fun _ => Sim.bind (den_sim _ _ _ _ _) fun _ => Sim.pure _

theorem gtsO2_sim (mass : ℤ) (c : Ctx K) : Sim S S (gtsO2 F T x mass c) (gtsO2 F T x' mass c) := by
  unfold gtsO2
  rw [ha.alt, ha.sw 14 le_rfl, ha.sw 20 (by norm_num), ha.flux]
  refine Sim.bind (hg _ (Or.inr (Or.inr ⟨4, by omega, rfl⟩))) fun _ => Sim.bind (den_sim _ _ _ _ _) fun _ => Sim.bind (Sim.upd _ fun _ _ => rfl) fun _ =>
    Sim.ite ?_ (Sim.pure _)
  refine Sim.bind (Sim.ite ?_ (Sim.pure _)) fun _ => Sim.pure _
  exact Sim.bind (den_sim _ _ _ _ _) fun _ => Sim.bind (den_sim _ _ _ _ _) fun _ => Sim.pure _

theorem gtsAnomO_sim (c : Ctx K) : Sim S S (gtsAnomO F T x c) (gtsAnomO F T x' c) := by
  unfold gtsAnomO
  rw [ha.alt, ha.sw 20 (by norm_num)]
  refine Sim.bind (hg _ (Or.inr (Or.inr ⟨8, by omega, rfl⟩))) fun _ => Sim.bind (densu_sim _ _ _ _ _ _ _ _) fun _ => Sim.bind (setDd_sim _) fun _ => ?_
  exact Sim.bind (Sim.rd _ fun _ _ => rfl) fun _ => Sim.bind (Sim.rd _ fun _ _ => rfl) fun _ => Sim.pure _

theorem gtsDens_sim (mass : ℤ) (tinf tlb s : K) :
    Sim S S (gtsDens F T x mass tinf tlb s) (gtsDens F T x' mass tinf tlb s) := by
  have pd : ∀ k, k < 9 → GArr (.pd k) := fun k h => Or.inr (Or.inr ⟨k, h, rfl⟩)
  have part : ∀ (b : Prop) [Decidable b] (m m' : M K K), Sim S S m m' → Sim S S (part b m) (part b m') :=
    fun b _ m m' h => Sim.ite h (Sim.pure _)
  unfold gtsDens
  rw [ha.sw 20 (by norm_num)]
  refine Sim.bind (hg _ (pd 2 (by omega))) fun _ => ?_
  refine Sim.bind (Sim.ite (gtsN2_sim x x' ha _ _ _ _ _) (Sim.pure _)) fun _ => ?_
  refine Sim.bind (part _ _ _ ?_) fun _ => ?_
  · unfold gtsHe
    rw [ha.alt]
    exact species_sim x x' ha hg _ _ _ (pd _ (by omega)) _ _ _ _
  refine Sim.bind (part _ _ _ ?_) fun _ => ?_
  · unfold gtsO
    rw [ha.alt, ha.flux]
    exact species_sim x x' ha hg _ _ _ (pd _ (by omega)) _ _ _ _
  refine Sim.bind (part _ _ _ (gtsO2_sim x x' ha hg _ _)) fun _ => ?_
  refine Sim.bind (part _ _ _ ?_) fun _ => ?_
  · unfold gtsAr
    rw [ha.alt]
    exact species_sim x x' ha hg _ _ _ (pd _ (by omega)) _ _ _ _
  refine Sim.bind (part _ _ _ ?_) fun _ => ?_
  · unfold gtsH
    rw [ha.alt]
    exact species_sim x x' ha hg _ _ _ (pd _ (by omega)) _ _ _ _
  refine Sim.bind (part _ _ _ ?_) fun _ => ?_
  · unfold gtsN
    rw [ha.alt]
    exact species_sim x x' ha hg _ _ _ (pd _ (by omega)) _ _ _ _
  exact Sim.bind (part _ _ _ (gtsAnomO_sim x x' ha hg _)) fun _ => Sim.pure _

omit hg

include hs

theorem gtsNodes_sim : Sim S S (gtsNodes F T x) (gtsNodes F T x') := by
  unfold gtsNodes
  rw [ha.alt, ha.sw 17 (by norm_num), ha.sw 19 (by norm_num)]
  refine Sim.ite (Sim.upd _ fun _ _ => rfl) ?_
  refine Sim.bind (hs _ (Or.inl ⟨0, by omega, rfl⟩)) fun _ => Sim.bind (Sim.upd _ fun _ _ => rfl) fun _ => ?_
  refine Sim.bind (hs _ (Or.inl ⟨1, by omega, rfl⟩)) fun _ => Sim.bind (Sim.upd _ fun _ _ => rfl) fun _ => ?_
  refine Sim.bind (hs _ (Or.inl ⟨2, by omega, rfl⟩)) fun _ => Sim.bind (Sim.upd _ fun _ _ => rfl) fun _ => ?_
  refine Sim.bind (hs _ (Or.inl ⟨3, by omega, rfl⟩)) fun _ => Sim.bind (Sim.upd _ fun _ _ => rfl) fun _ => ?_
  exact Sim.bind (hs _ (Or.inr ⟨8, by omega, rfl⟩)) fun _ => Sim.upd _ fun _ _ => rfl

theorem gtdNodes2_sim : Sim S S (gtdNodes2 F T x) (gtdNodes2 F T x') := by
  unfold gtdNodes2
  rw [ha.sw 19 (by norm_num), ha.sw 21 (by norm_num)]
  refine Sim.bind (Sim.upd _ fun _ _ => rfl) fun _ => ?_
  refine Sim.bind (hs _ (Or.inr ⟨0, by omega, rfl⟩)) fun _ => Sim.bind (Sim.upd _ fun _ _ => rfl) fun _ => ?_
  refine Sim.bind (hs _ (Or.inr ⟨1, by omega, rfl⟩)) fun _ => Sim.bind (Sim.upd _ fun _ _ => rfl) fun _ => ?_
  refine Sim.bind (hs _ (Or.inr ⟨2, by omega, rfl⟩)) fun _ => Sim.bind (Sim.upd _ fun _ _ => rfl) fun _ => ?_
  exact Sim.bind (hs _ (Or.inr ⟨9, by omega, rfl⟩)) fun _ => Sim.upd _ fun _ _ => rfl

theorem gtdNodes3_sim : Sim S S (gtdNodes3 F T x) (gtdNodes3 F T x') := by
  unfold gtdNodes3
  rw [ha.sw 21 (by norm_num)]
  refine Sim.bind (Sim.upd _ fun _ _ => rfl) fun _ => ?_
  refine Sim.bind (hs _ (Or.inr ⟨3, by omega, rfl⟩)) fun _ => Sim.bind (Sim.upd _ fun _ _ => rfl) fun _ => ?_
  refine Sim.bind (hs _ (Or.inr ⟨4, by omega, rfl⟩)) fun _ => Sim.bind (Sim.upd _ fun _ _ => rfl) fun _ => ?_
  refine Sim.bind (hs _ (Or.inr ⟨5, by omega, rfl⟩)) fun _ => Sim.bind (Sim.upd _ fun _ _ => rfl) fun _ => ?_
  refine Sim.bind (hs _ (Or.inr ⟨6, by omega, rfl⟩)) fun _ => Sim.bind (Sim.upd _ fun _ _ => rfl) fun _ => ?_
  exact Sim.bind (hs _ (Or.inr ⟨7, by omega, rfl⟩)) fun _ => Sim.upd _ fun _ _ => rfl

include hw h3 hg

theorem gts7_sim (mass : ℤ) : Sim W S (gts7 F T x mass) (gts7 F T x' mass) := by
  unfold gts7
  rw [ha.meters]
  refine Sim.bind ?_ fun _ => Sim.pure _
  unfold gtsCore
  rw [ha.alt]
  refine Sim.bind (gtsTemps_sim x x' ha hw h3) fun _ => Sim.bind (gtsNodes_sim x x' ha hs) fun _ => ?_
  refine Sim.bind (Sim.ite (gtsDens_sim x x' ha hg _ _ _ _) (Sim.pure _)) fun _ => ?_
  exact Sim.bind (Sim.ite (Sim.bind (densu_sim _ _ _ _ _ _ _ _) fun _ => Sim.pure _) (Sim.pure _)) fun _ => Sim.pure _

variable [IsStrictOrderedRing K]

theorem gtd7_sim (tzg : K) (mass : ℤ) (old : Out K) :
    Sim W S (gtd7 F T tzg x mass old) (gtd7 F T tzg x' mass old) := by
  obtain ⟨sw', swc', doy', sec', alt', glat', glon', lst', f107A', f107', ap', aparr', meters'⟩ := x'
  obtain rfl : alt' = x.alt := ha.alt
  obtain rfl : glat' = x.glat := ha.glat
  obtain rfl : meters' = x.meters := ha.meters
  have h1 : ∀ v : K, ¬ |v| < 0 := fun v => not_lt.mpr (abs_nonneg v)
  have ha' : Alike F T { x with alt := max x.alt (zn2 0) } (⟨sw', swc', doy', sec', max x.alt (zn2 0), x.glat, glon', lst', f107A', f107', ap', aparr', x.meters⟩ : In K) :=
    ⟨rfl, ha.glat, ha.meters, ha.sw, ha.zhf, ha.flux⟩
  have eg : ∀ a, globe7 F T (⟨sw', swc', doy', sec', max x.alt (zn2 0), x.glat, glon', lst', f107A', f107', ap', aparr', x.meters⟩ : In K) a = globe7 F T (⟨sw', swc', doy', sec', x.alt, x.glat, glon', lst', f107A', f107', ap', aparr', x.meters⟩ : In K) a := fun _ => rfl
  have es : ∀ a, glob7s F T (⟨sw', swc', doy', sec', max x.alt (zn2 0), x.glat, glon', lst', f107A', f107', ap', aparr', x.meters⟩ : In K) a = glob7s F T (⟨sw', swc', doy', sec', x.alt, x.glat, glon', lst', f107A', f107', ap', aparr', x.meters⟩ : In K) a := fun _ => rfl
  unfold gtd7
  rw [if_neg (h1 _), if_neg (h1 _)]
  dsimp only
  refine Sim.bind (glatf_sim _) fun _ => ?_
  refine Sim.bind (gts7_sim _ _ ha' (fun a h => by rw [globe7_alt, eg]; exact hw a h)
    (by rw [globe7_alt, eg]; exact h3) (fun a h => by rw [globe7_alt, eg]; exact hg a h)
    (fun a h => by rw [glob7s_alt, es]; exact hs a h) _) fun o => ?_
  refine Sim.bind (Sim.upd _ fun _ _ => rfl) fun _ => Sim.ite (Sim.pure _) ?_
  refine Sim.bind (gtdNodes2_sim x _ ha hs) fun _ => ?_
  refine Sim.ite (Sim.bind (gtdNodes3_sim x _ ha hs) fun _ => ?_) ?_
  · exact tail_sim _ _ _ _ _ _
  · exact tail_sim _ _ _ _ _ _

/-- The output of `gtd7` for both inputs from the same state. -/
theorem gtd7_same (hC : ∀ c, W c c) (tzg : K) (mass : ℤ) (old : Out K) (s : St K) :
    (gtd7 F T tzg x mass old s).1 = (gtd7 F T tzg x' mass old s).1 := by
  obtain ⟨v, t, d, d', e, e', -⟩ := gtd7_sim x x' ha hw h3 hg hs tzg mass old s (cacheOf s) (cacheOf s) (hC _)
  rw [withCache_cacheOf] at e e'
  rw [e, e']

end

end Verif.Atmosphere.Msis
