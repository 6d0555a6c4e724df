import Verif.Atmosphere.MsisHistory
import Mathlib.Data.Set.Basic

/-
C64: any sequence of evaluations on one instance.
-/
namespace Verif.Atmosphere.Msis

variable {K : Type} [Field K] [LinearOrder K] [IsStrictOrderedRing K]

/-- Values that the caches can tell apart: any two of them are equal or further apart than the
tolerance, and none is near the initial value 1000. -/
structure Spread (S : Set K) : Prop where
  apart : ∀ u ∈ S, ∀ v ∈ S, Apart u v
  init : ∀ u ∈ S, |1000 - u| > nearzero

/-- What holds between evaluations. `z` is the (never written) first lower node temperature. -/
structure Coh (F : Fns K) (T : Tab K) (Lat Lst : Set K) (z : K) (s : St K) : Prop where
  lat : s.xl = 1000 ∨ (s.xl ∈ Lat ∧ s.plg = legendre F s.xl)
  time : s.tll = 1000 ∨ (s.tll ∈ Lst ∧ s.trig = trigOf F s.tll)
  g : s.gdoy = -1 ∨ ∃ a, GArr a ∧ s.gcd = freshCds F T s.gdoy a ∧ s.g14 = T.p a 13 ∧
    s.g18 = T.p a 17 ∧ s.g32 = T.p a 31 ∧ s.g39 = T.p a 38
  sc : s.sdoy = -1 ∨ ∃ a c, SArr a ∧ s.scd = { freshCds F T s.sdoy a with cd39 := c } ∧
    s.s14 = T.p a 13 ∧ s.s18 = T.p a 17 ∧ s.s32 = T.p a 31 ∧ s.s39 = T.p a 39
  p24 : ∀ a, clamp24 (s.p24 a) = clamp24 (T.p a 24)
  tn3 : s.tn3 0 = z

variable {F : Fns K} {T : Tab K} {Lat Lst : Set K} {z : K}

omit [IsStrictOrderedRing K] in
/-- Between evaluations the caches are usable for every admissible input. -/
theorem Coh.ready (hT : TabOk T) (hLat : Spread Lat) (hLst : Spread Lst) {s : St K}
    (h : Coh F T Lat Lst z s) (lat lst : K) (doy : ℤ) (h1 : lat ∈ Lat) (h2 : lst ∈ Lst)
    (h3 : doy ≠ -1) : Ready F T lat lst doy s where
  lat := by
    rcases h.lat with h | ⟨h, h'⟩
    · rw [h]; exact Or.inl (hLat.init lat h1)
    · rcases hLat.apart _ h _ h1 with h4 | h4
      · rw [← h4]; exact Or.inr h'
      · exact Or.inl h4
  time := by
    rcases h.time with h | ⟨h, h'⟩
    · rw [h]; exact Or.inl (hLst.init lst h2)
    · rcases hLst.apart _ h _ h2 with h4 | h4
      · rw [← h4]; exact Or.inr h'
      · exact Or.inl h4
  g14 := fun hd b hb => by
    rcases h.g with h | ⟨a, ha, h1, h2, -⟩
    · exact absurd (hd.symm.trans h) h3
    · rw [h1, h2, ← hd]
      exact GArr_apart T hT ha hb (by decide) (f := fun y => F.cos (dr * (s.gdoy - y)))
  g18 := fun hd b hb => by
    rcases h.g with h | ⟨a, ha, h1, -, h2, -⟩
    · exact absurd (hd.symm.trans h) h3
    · rw [h1, h2, ← hd]
      exact GArr_apart T hT ha hb (by decide) (f := fun y => F.cos (2 * dr * (s.gdoy - y)))
  g32 := fun hd b hb => by
    rcases h.g with h | ⟨a, ha, h1, -, -, h2, -⟩
    · exact absurd (hd.symm.trans h) h3
    · rw [h1, h2, ← hd]
      exact GArr_apart T hT ha hb (by decide) (f := fun y => F.cos (dr * (s.gdoy - y)))
  g39 := fun hd b hb => by
    rcases h.g with h | ⟨a, ha, h1, -, -, -, h2⟩
    · exact absurd (hd.symm.trans h) h3
    · rw [h1, h2, ← hd]
      exact GArr_apart T hT ha hb (by decide) (f := fun y => F.cos (2 * dr * (s.gdoy - y)))
  s14 := fun hd b hb => by
    rcases h.sc with h | ⟨a, c, ha, h1, h2, -⟩
    · exact absurd (hd.symm.trans h) h3
    · rw [h1, h2, ← hd]
      exact SArr_apart T hT ha hb (by decide) (f := fun y => F.cos (dr * (s.sdoy - y)))
  s18 := fun hd b hb => by
    rcases h.sc with h | ⟨a, c, ha, h1, -, h2, -⟩
    · exact absurd (hd.symm.trans h) h3
    · rw [h1, h2, ← hd]
      exact SArr_apart T hT ha hb (by decide) (f := fun y => F.cos (2 * dr * (s.sdoy - y)))
  s32 := fun hd b hb => by
    rcases h.sc with h | ⟨a, c, ha, h1, -, -, h2, -⟩
    · exact absurd (hd.symm.trans h) h3
    · rw [h1, h2, ← hd]
      exact SArr_apart T hT ha hb (by decide) (f := fun y => F.cos (dr * (s.sdoy - y)))
  s39 := fun hd b hb => by
    rcases h.sc with h | ⟨a, c, ha, h1, -, -, -, h2⟩
    · exact absurd (hd.symm.trans h) h3
    · rw [h2]; exact hT.s39 b a hb ha

/-! ### Preservation -/

/-- `m` keeps the property `P` of states. -/
def Keeps {α : Type} (P : St K → Prop) (m : M K α) : Prop := ∀ s, P s → P (m s).2

omit [Field K] [LinearOrder K] [IsStrictOrderedRing K] in
theorem Keeps.bind {α β : Type} {P : St K → Prop} {m : M K α} {f : α → M K β} (h1 : Keeps P m)
    (h2 : ∀ a, Keeps P (f a)) : Keeps P (m >>= f) := fun s hs => by
  rw [bind_run]; exact h2 _ _ (h1 s hs)

omit [Field K] [LinearOrder K] [IsStrictOrderedRing K] in
theorem Keeps.pure {α : Type} {P : St K → Prop} (a : α) : Keeps P (pure a : M K α) :=
  fun _ h => h

omit [Field K] [LinearOrder K] [IsStrictOrderedRing K] in
theorem Keeps.rd {α : Type} {P : St K → Prop} (f : St K → α) : Keeps P (rd f) :=
  fun _ h => h

omit [Field K] [LinearOrder K] [IsStrictOrderedRing K] in
theorem Keeps.ite {α : Type} {P : St K → Prop} {c : Prop} [Decidable c] {m m' : M K α}
    (h1 : Keeps P m) (h2 : Keeps P m') : Keeps P (if c then m else m') := by
  split <;> assumption

/-- The input is admissible. -/
structure Adm (Lat Lst : Set K) (x : In K) : Prop where
  lat : x.glat ∈ Lat
  lst : x.lst ∈ Lst
  doy : x.doy ≠ -1

theorem globe7_keeps (hT : TabOk T) (hLat : Spread Lat) (hLst : Spread Lst) (x : In K)
    (hx : Adm Lat Lst x) (a : Arr) (ha : GArr a) :
    Keeps (Coh F T Lat Lst z) (globe7 F T x a) := by
  intro s h
  obtain ⟨v, w, τ, q, hv, hw, -, -, hq, e, -⟩ :=
    globe7_eq F T x a ha s (h.ready hT hLat hLst _ _ _ hx.lat hx.lst hx.doy)
  rw [e]
  refine ⟨?_, ?_, Or.inr ⟨a, ha, rfl, rfl, rfl, rfl, rfl⟩, h.sc, fun b => (hq b).trans (h.p24 b), h.tn3⟩
  · rcases hv with rfl | ⟨hv, hn⟩
    · exact Or.inr ⟨hx.lat, rfl⟩
    · have hv : v = x.glat := by
        rw [hv]
        rcases h.lat with h' | ⟨h', -⟩
        · rw [h'] at hn; exact absurd (hLat.init _ hx.lat) hn
        · exact (hLat.apart _ h' _ hx.lat).resolve_right hn
      subst hv
      exact Or.inr ⟨hx.lat, rfl⟩
  · rcases hw with ⟨rfl, rfl⟩ | ⟨rfl, rfl⟩
    · exact Or.inr ⟨hx.lst, rfl⟩
    · exact h.time

omit [IsStrictOrderedRing K] in
theorem glob7s_keeps (hT : TabOk T) (hLat : Spread Lat) (hLst : Spread Lst) (x : In K)
    (hx : Adm Lat Lst x) (a : Arr) (ha : SArr a) :
    Keeps (Coh F T Lat Lst z) (glob7s F T x a) := by
  intro s h
  obtain ⟨q, c39, -, e⟩ :=
    seasonStepS_eq F T x a ha s (h.ready hT hLat hLst _ _ _ hx.lat hx.lst hx.doy)
  simp only [glob7s, bind_run, rd_run]
  rw [e]
  exact ⟨h.lat, h.time, h.g, Or.inr ⟨a, c39, ha, rfl, rfl, rfl, rfl, rfl⟩, h.p24, h.tn3⟩

/-! ### Preservation, generically -/

/-- The part of the state that only `globe7` and `glob7s` write. -/
def cachePart (s : St K) : (K × K × ℤ × K × K × K × K × Cds K) × (ℤ × K × K × K × K × Cds K) ×
    (Arr → K) × Plg K × Trig K :=
  ((s.xl, s.tll, s.gdoy, s.g14, s.g18, s.g32, s.g39, s.gcd),
    (s.sdoy, s.s14, s.s18, s.s32, s.s39, s.scd), s.p24, s.plg, s.trig)

/-- The radius that `glatf` computes (src/atmosphere/nrlmsise00_glatf.cpp:7-11). -/
def radius (F : Fns K) (lat : K) : K :=
  2 * (egrav * 1e2 * (1 - 0.0026373 * F.cos (2 * F.deg2rad lat))) /
    (3.085462e-6 + 2.27e-9 * F.cos (2 * F.deg2rad lat)) * 1e-5

/-- A property of states about the caches, `tn3[0]` and the Earth radius which `globe7` and `glob7s`
keep for inputs in `I`. -/
structure Stable (F : Fns K) (T : Tab K) (I : In K → Prop) (P : St K → Prop) : Prop where
  globe : ∀ x, I x → ∀ a, GArr a → Keeps P (globe7 F T x a)
  globs : ∀ x, I x → ∀ a, SArr a → Keeps P (glob7s F T x a)
  alt : ∀ x v, I x → I { x with alt := v }
  other : ∀ s t, cachePart t = cachePart s → t.tn3 0 = s.tn3 0 →
    (t.re = s.re ∨ ∃ lat, t.re = radius F lat) → P s → P t

omit [IsStrictOrderedRing K] in
theorem Stable.set {I : In K → Prop} {P : St K → Prop} (hP : Stable F T I P) (f : St K → St K)
    (h1 : ∀ s, cachePart (f s) = cachePart s) (h2 : ∀ s, (f s).tn3 0 = s.tn3 0)
    (h3 : ∀ s, (f s).re = s.re := by intro; rfl) : Keeps P (upd f) :=
  fun s h => hP.other s _ (h1 s) (h2 s) (Or.inl (h3 s)) h

theorem coh_stable (hT : TabOk T) (hLat : Spread Lat) (hLst : Spread Lst) :
    Stable F T (Adm Lat Lst) (Coh F T Lat Lst z) where
  globe := fun x hx a ha => globe7_keeps hT hLat hLst x hx a ha
  globs := fun x hx a ha => glob7s_keeps hT hLat hLst x hx a ha
  alt := fun x v hx => ⟨hx.lat, hx.lst, hx.doy⟩
  other := fun s t h1 h2 _ h => by
    simp only [cachePart, Prod.mk.injEq] at h1
    obtain ⟨⟨e1, e2, e3, e4, e5, e6, e7, e8⟩, ⟨e9, e10, e11, e12, e13, e14⟩, e15, e16, e17⟩ := h1
    refine ⟨?_, ?_, ?_, ?_, ?_, h2.trans h.tn3⟩
    · rw [e1, e16]; exact h.lat
    · rw [e2, e17]; exact h.time
    · rw [e3, e4, e5, e6, e7, e8]; exact h.g
    · rw [e9, e10, e11, e12, e13, e14]; exact h.sc
    · rw [e15]; exact h.p24

section

variable {I : In K → Prop} {P : St K → Prop} (hP : Stable F T I P)

include hP

omit [IsStrictOrderedRing K]

theorem densu_keeps (alt dlb t1 t2 xm xalph zlb s2 : K) :
    Keeps (P) (densu F T alt dlb t1 t2 xm xalph zlb s2) := by
  unfold densu
  refine Keeps.bind (Keeps.rd _) fun _ => Keeps.bind (Keeps.rd _) fun _ => Keeps.ite ?_
    (Keeps.ite (Keeps.pure _) (Keeps.pure _))
  refine Keeps.bind (hP.set _ (fun _ => rfl) (fun _ => rfl)) fun _ => Keeps.bind (Keeps.rd _) fun _ => Keeps.bind (Keeps.rd _) fun _ =>
    Keeps.ite (Keeps.pure _) (Keeps.pure _)

theorem den_keeps (c : Ctx K) (alt dlb xm xalph : K) :
    Keeps (P) (den F T c alt dlb xm xalph) := densu_keeps hP _ _ _ _ _ _ _ _

theorem setDd_keeps (v : K) : Keeps (P) (setDd v) := hP.set _ (fun _ => rfl) (fun _ => rfl)

theorem densm_keeps (alt d0 xm tz : K) : Keeps (P) (densm F alt d0 xm tz) := by
  unfold densm
  refine Keeps.bind (Keeps.rd _) fun _ => Keeps.bind (Keeps.rd _) fun _ => Keeps.ite ?_ (Keeps.pure _)
  refine Keeps.bind (Keeps.rd _) fun _ => Keeps.bind (Keeps.rd _) fun _ => Keeps.ite ?_ (Keeps.pure _)
  exact Keeps.bind (Keeps.rd _) fun _ => Keeps.bind (Keeps.rd _) fun _ => Keeps.pure _

theorem gtsN2_keeps (x : In K) (mass : ℤ) (tinf tlb s g28 : K) :
    Keeps (P) (gtsN2 F T x mass tinf tlb s g28) := by
  unfold gtsN2
  refine Keeps.ite ?_ (Keeps.pure _)
  refine Keeps.bind (den_keeps hP _ _ _ _ _) fun _ => Keeps.bind (setDd_keeps hP _) fun _ =>
    Keeps.bind (den_keeps hP _ _ _ _ _) fun _ => Keeps.ite ?_ (Keeps.pure _)
  exact Keeps.bind (den_keeps hP _ _ _ _ _) fun _ => Keeps.bind (hP.set _ (fun _ => rfl) (fun _ => rfl)) fun _ =>
    Keeps.bind (Keeps.rd _) fun _ => Keeps.pure _

theorem glatf_keeps (lat : K) : Keeps (P) (glatf F lat) := by
  intro s h
  unfold glatf
  rw [upd_run]
  exact hP.other s _ rfl rfl (Or.inr ⟨lat, rfl⟩) h

section

variable (x : In K) (hx : I x)

include hx

theorem gtsTemps_keeps : Keeps (P) (gtsTemps F T x) := by
  unfold gtsTemps
  refine Keeps.bind (Keeps.ite (Keeps.bind (hP.globe x hx _ (Or.inl rfl)) fun _ =>
    Keeps.pure _) (Keeps.pure _)) fun _ => ?_
  refine Keeps.bind (Keeps.ite (Keeps.bind (hP.globe x hx _ (Or.inr (Or.inl rfl)))
    fun _ => Keeps.pure _) (Keeps.pure _)) fun _ => ?_
  refine Keeps.bind (hP.set _ (fun _ => rfl) (fun _ => rfl)) fun _ => ?_
  refine Keeps.bind (hP.globe x hx _ (Or.inr (Or.inr ⟨3, by omega, rfl⟩))) fun _ => ?_
  exact Keeps.bind (hP.set _ (fun _ => rfl) (fun _ => rfl)) fun _ => Keeps.bind (Keeps.rd _) fun _ => Keeps.bind (Keeps.rd _) fun _ =>
    Keeps.pure _

theorem gtsNodes_keeps : Keeps (P) (gtsNodes F T x) := by
  have ptl : ∀ k < 4, Keeps (P) (glob7s F T x (.ptl k)) := fun k hk =>
    hP.globs x hx _ (Or.inl ⟨k, hk, rfl⟩)
  unfold gtsNodes
  refine Keeps.ite (hP.set _ (fun _ => rfl) (fun _ => rfl)) ?_
  refine Keeps.bind (ptl 0 (by omega)) fun _ => Keeps.bind (hP.set _ (fun _ => rfl) (fun _ => rfl)) fun _ => ?_
  refine Keeps.bind (ptl 1 (by omega)) fun _ => Keeps.bind (hP.set _ (fun _ => rfl) (fun _ => rfl)) fun _ => ?_
  refine Keeps.bind (ptl 2 (by omega)) fun _ => Keeps.bind (hP.set _ (fun _ => rfl) (fun _ => rfl)) fun _ => ?_
  refine Keeps.bind (ptl 3 (by omega)) fun _ => Keeps.bind (hP.set _ (fun _ => rfl) (fun _ => rfl)) fun _ => ?_
  exact Keeps.bind (hP.globs x hx _ (Or.inr ⟨8, by omega, rfl⟩)) fun _ => hP.set _ (fun _ => rfl) (fun _ => rfl)

theorem species_keeps (c : Ctx K) (k : ℕ) (a : Arr) (ha : GArr a) (m : K) (ia il : ℕ)
    (corr : K → K → K) : Keeps (P) (species F T x c k a m ia il corr) := by
  unfold species
  refine Keeps.bind (hP.globe x hx _ ha) fun _ => ?_
  refine Keeps.bind (den_keeps hP _ _ _ _ _) fun _ => Keeps.bind (setDd_keeps hP _) fun _ =>
    Keeps.ite ?_ (Keeps.pure _)
  exact Keeps.bind (den_keeps hP _ _ _ _ _) fun _ => Keeps.bind (den_keeps hP _ _ _ _ _) fun _ =>
    Keeps.pure _

theorem gtsO2_keeps (mass : ℤ) (c : Ctx K) : Keeps (P) (gtsO2 F T x mass c) := by
  unfold gtsO2
  refine Keeps.bind (hP.globe x hx _ (Or.inr (Or.inr ⟨4, by omega, rfl⟩))) fun _ => ?_
  refine Keeps.bind (den_keeps hP _ _ _ _ _) fun _ => Keeps.bind (hP.set _ (fun _ => rfl) (fun _ => rfl)) fun _ =>
    Keeps.ite ?_ (Keeps.pure _)
  refine Keeps.bind (Keeps.ite ?_ (Keeps.pure _)) fun _ => Keeps.pure _
  exact Keeps.bind (den_keeps hP _ _ _ _ _) fun _ => Keeps.bind (den_keeps hP _ _ _ _ _) fun _ =>
    Keeps.pure _

theorem gtsAnomO_keeps (c : Ctx K) : Keeps (P) (gtsAnomO F T x c) := by
  unfold gtsAnomO
  refine Keeps.bind (hP.globe x hx _ (Or.inr (Or.inr ⟨8, by omega, rfl⟩))) fun _ => ?_
  exact Keeps.bind (densu_keeps hP _ _ _ _ _ _ _ _) fun _ => Keeps.bind (setDd_keeps hP _) fun _ =>
    Keeps.bind (Keeps.rd _) fun _ => Keeps.bind (Keeps.rd _) fun _ => Keeps.pure _

theorem gts7_keeps (mass : ℤ) : Keeps (P) (gts7 F T x mass) := by
  have pd : ∀ k < 9, GArr (.pd k) := fun k hk => Or.inr (Or.inr ⟨k, hk, rfl⟩)
  have part : ∀ (b : Prop) [Decidable b] (m : M K K), Keeps (P) m →
      Keeps (P) (part b m) := fun b _ m h => Keeps.ite h (Keeps.pure _)
  unfold gts7
  refine Keeps.bind ?_ fun _ => Keeps.pure _
  unfold gtsCore
  refine Keeps.bind (gtsTemps_keeps hP x hx) fun _ => ?_
  refine Keeps.bind (gtsNodes_keeps hP x hx) fun _ => ?_
  refine Keeps.bind (Keeps.ite ?_ (Keeps.pure _)) fun _ => ?_
  · unfold gtsDens
    refine Keeps.bind (hP.globe x hx _ (pd 2 (by omega))) fun _ => ?_
    refine Keeps.bind (Keeps.ite (gtsN2_keeps hP _ _ _ _ _ _) (Keeps.pure _)) fun _ => ?_
    refine Keeps.bind (part _ _ (species_keeps hP x hx _ _ _ (pd 0 (by omega)) _ _ _ _)) fun _ => ?_
    refine Keeps.bind (part _ _ (species_keeps hP x hx _ _ _ (pd 1 (by omega)) _ _ _ _)) fun _ => ?_
    refine Keeps.bind (part _ _ (gtsO2_keeps hP x hx _ _)) fun _ => ?_
    refine Keeps.bind (part _ _ (species_keeps hP x hx _ _ _ (pd 5 (by omega)) _ _ _ _)) fun _ => ?_
    refine Keeps.bind (part _ _ (species_keeps hP x hx _ _ _ (pd 6 (by omega)) _ _ _ _)) fun _ => ?_
    refine Keeps.bind (part _ _ (species_keeps hP x hx _ _ _ (pd 7 (by omega)) _ _ _ _)) fun _ => ?_
    exact Keeps.bind (part _ _ (gtsAnomO_keeps hP x hx _)) fun _ => Keeps.pure _
  · exact Keeps.bind (Keeps.ite (Keeps.bind (densu_keeps hP _ _ _ _ _ _ _ _) fun _ => Keeps.pure _)
      (Keeps.pure _)) fun _ => Keeps.pure _

theorem gtdNodes2_keeps : Keeps (P) (gtdNodes2 F T x) := by
  have pma : ∀ k < 10, Keeps (P) (glob7s F T x (.pma k)) := fun k hk =>
    hP.globs x hx _ (Or.inr ⟨k, hk, rfl⟩)
  unfold gtdNodes2
  refine Keeps.bind (hP.set _ (fun _ => rfl) (fun _ => rfl)) fun _ => ?_
  refine Keeps.bind (pma 0 (by omega)) fun _ => Keeps.bind (hP.set _ (fun _ => rfl) (fun _ => rfl)) fun _ => ?_
  refine Keeps.bind (pma 1 (by omega)) fun _ => Keeps.bind (hP.set _ (fun _ => rfl) (fun _ => rfl)) fun _ => ?_
  refine Keeps.bind (pma 2 (by omega)) fun _ => Keeps.bind (hP.set _ (fun _ => rfl) (fun _ => rfl)) fun _ => ?_
  exact Keeps.bind (pma 9 (by omega)) fun _ => hP.set _ (fun _ => rfl) (fun _ => rfl)

theorem gtdNodes3_keeps : Keeps (P) (gtdNodes3 F T x) := by
  have pma : ∀ k < 10, Keeps (P) (glob7s F T x (.pma k)) := fun k hk =>
    hP.globs x hx _ (Or.inr ⟨k, hk, rfl⟩)
  have tn3 : ∀ i ≠ 0, ∀ v : K, Keeps (P) (upd fun s => { s with tn3 := put s.tn3 i v }) :=
    fun i hi v s h => hP.other s _ rfl (by
      show put s.tn3 i v 0 = s.tn3 0
      rw [put, if_neg (Ne.symm hi)]) (Or.inl rfl) h
  unfold gtdNodes3
  refine Keeps.bind (hP.set _ (fun _ => rfl) (fun _ => rfl)) fun _ => ?_
  refine Keeps.bind (pma 3 (by omega)) fun _ => Keeps.bind (tn3 _ (by decide) _) fun _ => ?_
  refine Keeps.bind (pma 4 (by omega)) fun _ => Keeps.bind (tn3 _ (by decide) _) fun _ => ?_
  refine Keeps.bind (pma 5 (by omega)) fun _ => Keeps.bind (tn3 _ (by decide) _) fun _ => ?_
  refine Keeps.bind (pma 6 (by omega)) fun _ => Keeps.bind (tn3 _ (by decide) _) fun _ => ?_
  exact Keeps.bind (pma 7 (by omega)) fun _ => hP.set _ (fun _ => rfl) (fun _ => rfl)

theorem gtd7_keeps (tzg : K) (mass : ℤ) (old : Out K) :
    Keeps (P) (gtd7 F T tzg x mass old) := by
  have hx' : I { x with alt := max x.alt (zn2 0) } := hP.alt x _ hx
  unfold gtd7
  refine Keeps.bind (glatf_keeps hP _) fun _ => ?_
  refine Keeps.bind (gts7_keeps hP _ hx' _) fun _ => ?_
  refine Keeps.bind (hP.set _ (fun _ => rfl) (fun _ => rfl)) fun _ => Keeps.ite (Keeps.pure _) ?_
  refine Keeps.bind (gtdNodes2_keeps hP x hx) fun _ => ?_
  extract_lets jp
  have hjp : ∀ u, Keeps (P) (jp u) := by
    intro u
    refine Keeps.ite ?_ ?_
    · exact Keeps.bind (densm_keeps hP _ _ _ _) fun _ => Keeps.bind (setDd_keeps hP _) fun _ => Keeps.pure _
    · exact Keeps.bind (Keeps.rd _) fun _ => Keeps.bind (densm_keeps hP _ _ _ _) fun _ => Keeps.pure _
  exact Keeps.ite (Keeps.bind (gtdNodes3_keeps hP x hx) hjp) (hjp ())

end

end

/-! ### The property -/

/-- One evaluation: the input, the requested mass, the caller's output structure and the indeterminate
local. -/
structure Call (K : Type) where
  x : In K
  mass : ℤ
  old : Out K
  tz : K

/-- The state after a list of evaluations on one instance. -/
def runAll (F : Fns K) (T : Tab K) (s : St K) : List (Call K) → St K
  | [] => s
  | c :: cs => runAll F T (gtd7 F T c.tz c.x c.mass c.old s).2 cs

/-- A new instance in a new process: initial values of the statics
(src/atmosphere/nrlmsise00_globe7.cpp:22-32, nrlmsise00_glob7s.cpp:17-25) and the tables as compiled;
all other members hold arbitrary values. -/
structure Fresh (T : Tab K) (s : St K) : Prop where
  xl : s.xl = 1000
  tll : s.tll = 1000
  gdoy : s.gdoy = -1
  sdoy : s.sdoy = -1
  p24 : ∀ a, s.p24 a = T.p a 24

omit [IsStrictOrderedRing K] in
theorem Fresh.coh {s : St K} (h : Fresh T s) : Coh F T Lat Lst (s.tn3 0) s :=
  ⟨Or.inl h.xl, Or.inl h.tll, Or.inl h.gdoy, Or.inl h.sdoy, fun a => by rw [h.p24], rfl⟩

theorem runAll_coh (hT : TabOk T) (hLat : Spread Lat) (hLst : Spread Lst) :
    ∀ (hist : List (Call K)) (s : St K), (∀ c ∈ hist, Adm Lat Lst c.x) →
      Coh F T Lat Lst z s → Coh F T Lat Lst z (runAll F T s hist)
  | [], _, _, h => h
  | c :: cs, s, hc, h => runAll_coh hT hLat hLst cs _ (fun d hd => hc d (List.mem_cons_of_mem _ hd))
      (gtd7_keeps (coh_stable hT hLat hLst) c.x (hc c List.mem_cons_self) c.tz c.mass c.old s h)

/-- **C64.**  After any sequence of evaluations on an instance (any altitudes, masses, switches, solar
data), an evaluation gives the output it gives on a new instance.  The latitudes and local times
occurring must be tellable apart by the caches, and the days of year must not be -1; below 32.5 km the
two instances must hold the same value in the member `tn3[0]`, which nothing ever writes; below
72.5 km the mixed density must be recomputed (`MixSet`). -/
theorem gtd7_history_partial (hT : TabOk T) (hLat : Spread Lat) (hLst : Spread Lst)
    (hist : List (Call K)) (c : Call K) (hadm : ∀ d ∈ c :: hist, Adm Lat Lst d.x) (s s' : St K)
    (hs : Fresh T s) (hs' : Fresh T s')
    (halt : c.x.alt > 32.5 ∨ (c.x.alt < 32.5 ∧ s.tn3 0 = s'.tn3 0)) (hm : MixSet c.x c.mass) (tz' : K) :
    (gtd7 F T c.tz c.x c.mass c.old (runAll F T s hist)).1 = (gtd7 F T tz' c.x c.mass c.old s').1 := by
  have hc := hadm c List.mem_cons_self
  have h1 := runAll_coh (F := F) hT hLat hLst hist s
    (fun d hd => hadm d (List.mem_cons_of_mem _ hd)) hs.coh
  have h2 : Coh F T Lat Lst (s'.tn3 0) s' := hs'.coh
  refine gtd7_agree hT _ _ _ _ _ _ _ (h1.ready hT hLat hLst _ _ _ hc.lat hc.lst hc.doy)
    (h2.ready hT hLat hLst _ _ _ hc.lat hc.lst hc.doy) (fun a => (h1.p24 a).trans (h2.p24 a).symm)
    ?_ hm
  exact halt.imp id fun h => ⟨h.1, h1.tn3.trans h.2⟩

end Verif.Atmosphere.Msis
