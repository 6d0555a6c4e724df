import Verif.Atmosphere.MsisUnits
import Verif.Atmosphere.SplineProps
import Mathlib.Algebra.Order.Field.Basic
import Mathlib.Tactic.Linarith

/-
C64: dependence of the atmosphere model on earlier evaluations.
-/
namespace Verif.Atmosphere.Msis

variable {K : Type} [Field K] [LinearOrder K] [IsStrictOrderedRing K]

/-! ### Conditions on tables and inputs -/

/-- The arrays passed to `globe7`. -/
def GArr (a : Arr) : Prop := a = .pt ∨ a = .ps ∨ ∃ k < 9, a = .pd k

/-- The arrays passed to `glob7s`. -/
def SArr (a : Arr) : Prop := (∃ k < 4, a = .ptl k) ∨ ∃ k < 10, a = .pma k

/-- Equal, or further apart than the tolerance of the caches. -/
def Apart (u v : K) : Prop := u = v ∨ |u - v| > nearzero

/-- What the tables must satisfy (proved for the actual tables in `MsisData.lean`). -/
structure TabOk (T : Tab K) : Prop where
  g : ∀ a b, GArr a → GArr b → ∀ c ∈ [13, 17, 31, 38], Apart (T.p a c) (T.p b c)
  s : ∀ a b, SArr a → SArr b → ∀ c ∈ [13, 17, 31], Apart (T.p a c) (T.p b c)
  s39 : ∀ a b, SArr a → SArr b → T.p a 37 = 0 ∨ |T.p b 39 - T.p a 38| > nearzero
  p51 : ∀ a, GArr a → T.p a 51 = 0 ∨ |T.p a 51| > nearzero
  pd3 : |T.p (.pd 3) 51| > nearzero

/-! ### States whose caches are usable for an input -/

/-- The caches are usable for latitude `lat`, local time `lst` and day `doy`: each is either going to
be recomputed or holds the right value. -/
structure Ready (F : Fns K) (T : Tab K) (lat lst : K) (doy : ℤ) (s : St K) : Prop where
  lat : |s.xl - lat| > nearzero ∨ s.plg = legendre F lat
  time : |s.tll - lst| > nearzero ∨ s.trig = trigOf F lst
  g14 : s.gdoy = doy → ∀ a, GArr a → |T.p a 13 - s.g14| > nearzero ∨
    s.gcd.cd14 = F.cos (dr * (doy - T.p a 13))
  g18 : s.gdoy = doy → ∀ a, GArr a → |T.p a 17 - s.g18| > nearzero ∨
    s.gcd.cd18 = F.cos (2 * dr * (doy - T.p a 17))
  g32 : s.gdoy = doy → ∀ a, GArr a → |T.p a 31 - s.g32| > nearzero ∨
    s.gcd.cd32 = F.cos (dr * (doy - T.p a 31))
  g39 : s.gdoy = doy → ∀ a, GArr a → |T.p a 38 - s.g39| > nearzero ∨
    s.gcd.cd39 = F.cos (2 * dr * (doy - T.p a 38))
  s14 : s.sdoy = doy → ∀ a, SArr a → |s.s14 - T.p a 13| > nearzero ∨
    s.scd.cd14 = F.cos (dr * (doy - T.p a 13))
  s18 : s.sdoy = doy → ∀ a, SArr a → |s.s18 - T.p a 17| > nearzero ∨
    s.scd.cd18 = F.cos (2 * dr * (doy - T.p a 17))
  s32 : s.sdoy = doy → ∀ a, SArr a → |s.s32 - T.p a 31| > nearzero ∨
    s.scd.cd32 = F.cos (dr * (doy - T.p a 31))
  s39 : s.sdoy = doy → ∀ a, SArr a → T.p a 37 = 0 ∨ |s.s39 - T.p a 38| > nearzero

/-- How far an evaluation has gone: which members are known to agree. -/
structure Fl where
  /-- results of `globe7` -/
  g : Prop
  /-- mixed nitrogen density -/
  m : Prop
  /-- temperature gradient -/
  y : Prop
  /-- mixed nitrogen density in output units -/
  mm : Prop
  /-- entries of `tn1` -/
  n1 : ℕ → Prop
  /-- entries of `tgn1` -/
  t1 : ℕ → Prop
  /-- entries of `tn2` -/
  n2 : ℕ → Prop
  /-- entries of `tgn2` -/
  t2 : ℕ → Prop
  /-- entries of `tn3` -/
  n3 : ℕ → Prop
  /-- entries of `tgn3` -/
  t3 : ℕ → Prop

/-- What is known to agree between two states, depending on how far the evaluation has gone. -/
structure Agree (F : Fns K) (T : Tab K) (lat lst : K) (doy : ℤ) (sw : ℕ → K) (f : Fl)
    (s s' : St K) : Prop where
  ready : Ready F T lat lst doy s
  ready' : Ready F T lat lst doy s'
  p24 : ∀ a, clamp24 (s.p24 a) = clamp24 (s'.p24 a)
  re : s.re = s'.re
  gsurf : s.gsurf = s'.gsurf
  plg : f.g → s.plg = s'.plg
  trig : f.g → (|sw 6| > 0 ∨ |sw 7| > 0 ∨ |sw 13| ≠ 0) → s.trig = s'.trig
  dfa : f.g → s.dfa = s'.dfa
  apdf : f.g → ¬ sw 8 < 0 → s.apdf = s'.apdf
  apt0 : f.g → sw 8 < 0 → s.apt0 = s'.apt0
  tn1 : ∀ k, f.n1 k → s.tn1 k = s'.tn1 k
  tgn1 : ∀ k, f.t1 k → s.tgn1 k = s'.tgn1 k
  tn2 : ∀ k, f.n2 k → s.tn2 k = s'.tn2 k
  tgn2 : ∀ k, f.t2 k → s.tgn2 k = s'.tgn2 k
  tn3 : ∀ k, f.n3 k → s.tn3 k = s'.tn3 k
  tgn3 : ∀ k, f.t3 k → s.tgn3 k = s'.tgn3 k
  dm28 : f.m → s.dm28 = s'.dm28
  xg0 : f.y → s.xg0 = s'.xg0
  dm28m : f.mm → s.dm28m = s'.dm28m

/-- Two runs of a computation: equal results, and the relation `P` between the states becomes `Q`. -/
def Rel {α : Type} (P : St K → St K → Prop) (m : M K α) (Q : α → St K → St K → Prop) : Prop :=
  ∀ s s', P s s' → (m s).1 = (m s').1 ∧ Q (m s).1 (m s).2 (m s').2

omit [Field K] [LinearOrder K] [IsStrictOrderedRing K] in
theorem Rel.bind {α β : Type} {P : St K → St K → Prop} {m : M K α} {Q : α → St K → St K → Prop}
    {f : α → M K β} {R : β → St K → St K → Prop} (h1 : Rel P m Q) (h2 : ∀ a, Rel (Q a) (f a) R) :
    Rel P (m >>= f) R := by
  intro s s' h
  obtain ⟨e, q⟩ := h1 s s' h
  have := h2 (m s).1 _ _ q
  rw [bind_run, bind_run, ← e]
  exact this

omit [Field K] [LinearOrder K] [IsStrictOrderedRing K] in
theorem Rel.pure {α : Type} {P : St K → St K → Prop} {Q : α → St K → St K → Prop} (a : α)
    (h : ∀ s s', P s s' → Q a s s') : Rel P (pure a : M K α) Q :=
  fun s s' hp => ⟨rfl, h s s' hp⟩

omit [Field K] [LinearOrder K] [IsStrictOrderedRing K] in
theorem Rel.rd {α : Type} {P : St K → St K → Prop} {f : St K → α}
    (h : ∀ s s', P s s' → f s = f s') : Rel P (rd f) (fun _ => P) :=
  fun s s' hp => ⟨h s s' hp, hp⟩

omit [Field K] [LinearOrder K] [IsStrictOrderedRing K] in
theorem Rel.upd {P Q : St K → St K → Prop} {f : St K → St K}
    (h : ∀ s s', P s s' → Q (f s) (f s')) : Rel P (upd f) (fun _ => Q) :=
  fun s s' hp => ⟨rfl, h s s' hp⟩

omit [Field K] [LinearOrder K] [IsStrictOrderedRing K] in
theorem Rel.ite {α : Type} {P : St K → St K → Prop} {c : Prop} [Decidable c] {m m' : M K α}
    {Q : α → St K → St K → Prop} (h1 : c → Rel P m Q) (h2 : ¬ c → Rel P m' Q) :
    Rel P (if c then m else m') Q := by
  split
  · exact h1 ‹_›
  · exact h2 ‹_›

omit [Field K] [LinearOrder K] [IsStrictOrderedRing K] in
theorem Rel.weaken {α : Type} {P P' : St K → St K → Prop} {m : M K α}
    {Q Q' : α → St K → St K → Prop} (h : Rel P' m Q') (h1 : ∀ s s', P s s' → P' s s')
    (h2 : ∀ a s s', Q' a s s' → Q a s s') : Rel P m Q :=
  fun s s' hp => ⟨(h s s' (h1 s s' hp)).1, h2 _ _ _ (h s s' (h1 s s' hp)).2⟩

omit [IsStrictOrderedRing K] in
theorem Agree.mono {F : Fns K} {T : Tab K} {lat lst : K} {doy : ℤ} {sw : ℕ → K}
    {f f' : Fl} {s s' : St K} (h : Agree F T lat lst doy sw f s s')
    (hg : f'.g → f.g) (hm : f'.m → f.m) (hy : f'.y → f.y)
    (h1 : ∀ k, f'.n1 k → f.n1 k) (k1 : ∀ k, f'.t1 k → f.t1 k)
    (h2 : ∀ k, f'.n2 k → f.n2 k) (k2 : ∀ k, f'.t2 k → f.t2 k)
    (h3 : ∀ k, f'.n3 k → f.n3 k) (k3 : ∀ k, f'.t3 k → f.t3 k)
    (hmm : f'.mm → f.mm := by exact id) :
    Agree F T lat lst doy sw f' s s' :=
  { h with
    plg := fun x => h.plg (hg x)
    trig := fun x => h.trig (hg x)
    dfa := fun x => h.dfa (hg x)
    apdf := fun x => h.apdf (hg x)
    apt0 := fun x => h.apt0 (hg x)
    tn1 := fun k x => h.tn1 k (h1 k x)
    tgn1 := fun k x => h.tgn1 k (k1 k x)
    tn2 := fun k x => h.tn2 k (h2 k x)
    tgn2 := fun k x => h.tgn2 k (k2 k x)
    tn3 := fun k x => h.tn3 k (h3 k x)
    tgn3 := fun k x => h.tgn3 k (k3 k x)
    dm28 := fun x => h.dm28 (hm x)
    xg0 := fun x => h.xg0 (hy x)
    dm28m := fun x => h.dm28m (hmm x) }

/-! ### globe7 -/

theorem nearzero_pos : (0 : K) < nearzero := by unfold nearzero; norm_num

theorem not_gt_self (u : K) : ¬ |u - u| > nearzero := by
  rw [sub_self, abs_zero, gt_iff_lt, not_lt]; exact nearzero_pos.le

/-- The value a cache holds after its step. -/
theorem cache_step {lhs : K} {P : Prop} [Decidable P] {old new : K} (h : P ∨ old = new)
    (hl : lhs = if P then new else old) : lhs = new := by
  rw [hl]; split
  · rfl
  · exact h.resolve_left ‹_›

variable (F : Fns K) (T : Tab K)

/-- The seasonal terms of day `doy` for array `a`. -/
def freshCds (F : Fns K) (T : Tab K) (doy : ℤ) (a : Arr) : Cds K :=
  ⟨F.cos (dr * (doy - T.p a 13)), F.cos (2 * dr * (doy - T.p a 17)),
    F.cos (dr * (doy - T.p a 31)), F.cos (2 * dr * (doy - T.p a 38))⟩

omit [IsStrictOrderedRing K] in
theorem sw9_neg (x : In K) (h : x.sw 8 < 0) : sw9 x = -1 := by simp [sw9, h]

omit [IsStrictOrderedRing K] in
theorem sw9_nonneg (x : In K) (h : ¬ x.sw 8 < 0) : sw9 x = 0 := by simp [sw9, h]

theorem sw9_test (x : In K) : |sw9 x + 1| > nearzero ↔ ¬ x.sw 8 < 0 := by
  by_cases h : x.sw 8 < 0
  · rw [sw9_neg x h]
    simp only [neg_add_cancel, abs_zero, h, not_true, iff_false, gt_iff_lt, not_lt]
    exact nearzero_pos.le
  · rw [sw9_nonneg x h]
    simp only [h, not_false_iff, iff_true, zero_add, abs_one]
    unfold nearzero; norm_num

omit [IsStrictOrderedRing K] in
theorem latStep_eq (x : In K) (s : St K) (h : |s.xl - x.glat| > nearzero ∨ s.plg = legendre F x.glat) :
    ∃ v, (v = x.glat ∨ v = s.xl ∧ ¬ |s.xl - x.glat| > nearzero) ∧
      (latStep F x s).2 = { s with plg := legendre F x.glat, xl := v } := by
  unfold latStep
  rw [upd_run]
  by_cases hc : |s.xl - x.glat| > nearzero
  · exact ⟨x.glat, Or.inl rfl, by simp only [if_pos hc]⟩
  · refine ⟨s.xl, Or.inr ⟨rfl, hc⟩, ?_⟩
    simp only [if_neg hc]
    rw [← h.resolve_left hc]

theorem timeStep_eq (x : In K) (s : St K) (h : |s.tll - x.lst| > nearzero ∨ s.trig = trigOf F x.lst) :
    ∃ v τ, (timeStep F x s).2 = { s with trig := τ, tll := v } ∧
      (dailyOn x → τ = trigOf F x.lst) ∧ (|v - x.lst| > nearzero ∨ τ = trigOf F x.lst) ∧
      (v = x.lst ∧ τ = trigOf F x.lst ∨ v = s.tll ∧ τ = s.trig) := by
  unfold timeStep
  rw [upd_run]
  by_cases hc : |s.tll - x.lst| > nearzero ∧ dailyOn x
  · exact ⟨x.lst, trigOf F x.lst, by simp only [if_pos hc], fun _ => rfl, Or.inr rfl,
      Or.inl ⟨rfl, rfl⟩⟩
  · refine ⟨s.tll, s.trig, by simp only [if_neg hc], fun hd => ?_, h, Or.inr ⟨rfl, rfl⟩⟩
    exact h.resolve_left fun h' => hc ⟨h', hd⟩

omit [IsStrictOrderedRing K] in
theorem seasonStep_eq (x : In K) (a : Arr) (s : St K)
    (h14 : s.gdoy = x.doy → |T.p a 13 - s.g14| > nearzero ∨ s.gcd.cd14 = F.cos (dr * (x.doy - T.p a 13)))
    (h18 : s.gdoy = x.doy → |T.p a 17 - s.g18| > nearzero ∨ s.gcd.cd18 = F.cos (2 * dr * (x.doy - T.p a 17)))
    (h32 : s.gdoy = x.doy → |T.p a 31 - s.g32| > nearzero ∨ s.gcd.cd32 = F.cos (dr * (x.doy - T.p a 31)))
    (h39 : s.gdoy = x.doy → |T.p a 38 - s.g39| > nearzero ∨ s.gcd.cd39 = F.cos (2 * dr * (x.doy - T.p a 38))) :
    (seasonStep F T x a s).2 = { s with
      gcd := freshCds F T x.doy a
      gdoy := x.doy
      g14 := T.p a 13
      g18 := T.p a 17
      g32 := T.p a 31
      g39 := T.p a 38 } := by
  have key : ∀ (q old new : K), (s.gdoy = x.doy → |q| > nearzero ∨ old = new) →
      (if s.gdoy - x.doy ≠ 0 ∨ |q| > nearzero then new else old) = new := by
    intro q old new h
    split
    · rfl
    · next hc =>
      simp only [not_or, not_not] at hc
      exact (h (by omega)).resolve_left hc.2
  unfold seasonStep
  rw [upd_run]
  dsimp only
  rw [key _ _ _ h14, key _ _ _ h18, key _ _ _ h32, key _ _ _ h39]
  rfl

/-- The members written by the magnetic activity step. -/
theorem apStep_eq (x : In K) (a : Arr) (s : St K) :
    ∃ q, (apStep F T x a s).2 = { s with
      apdf := if x.sw 8 < 0 then s.apdf else apdfOf F (T.p a) x
      apt0 := if x.sw 8 < 0 ∧ |T.p a 51| > nearzero then
        sg0 F (exp1Of F (T.p a) x) (T.p a 25) (clamp24 (s.p24 a)) x.aparr else s.apt0
      p24 := q } ∧ ∀ b, clamp24 (q b) = clamp24 (s.p24 b) := by
  unfold apStep
  rw [upd_run]
  by_cases h8 : x.sw 8 < 0
  · have h9 : ¬ |sw9 x + 1| > nearzero := fun h => (sw9_test x).mp h h8
    simp only [if_neg h9, h8, true_and]
    by_cases h51 : |T.p a 51| > nearzero
    · simp only [if_pos h51]
      refine ⟨_, rfl, fun b => ?_⟩
      split
      · next h =>
        subst h
        unfold clamp24
        split
        · simp
        · rfl
      · rfl
    · simp only [if_neg h51]
      exact ⟨s.p24, rfl, fun b => rfl⟩
  · have h9 : |sw9 x + 1| > nearzero := (sw9_test x).mpr h8
    simp only [if_pos h9, h8, false_and, if_false]
    exact ⟨s.p24, rfl, fun b => rfl⟩

/-- `globe7` on a usable state. -/
theorem globe7_eq (x : In K) (a : Arr) (ha : GArr a) (s : St K)
    (hr : Ready F T x.glat x.lst x.doy s) :
    ∃ v w τ q,
      (v = x.glat ∨ v = s.xl ∧ ¬ |s.xl - x.glat| > nearzero) ∧
      (w = x.lst ∧ τ = trigOf F x.lst ∨ w = s.tll ∧ τ = s.trig) ∧
      (dailyOn x → τ = trigOf F x.lst) ∧ (|w - x.lst| > nearzero ∨ τ = trigOf F x.lst) ∧
      (∀ b, clamp24 (q b) = clamp24 (s.p24 b)) ∧
      (globe7 F T x a s).2 = { s with
        plg := legendre F x.glat
        xl := v
        trig := τ
        tll := w
        gcd := freshCds F T x.doy a
        gdoy := x.doy
        g14 := T.p a 13
        g18 := T.p a 17
        g32 := T.p a 31
        g39 := T.p a 38
        dfa := x.f107A - 150
        apdf := if x.sw 8 < 0 then s.apdf else apdfOf F (T.p a) x
        apt0 := if x.sw 8 < 0 ∧ |T.p a 51| > nearzero then
          sg0 F (exp1Of F (T.p a) x) (T.p a 25) (clamp24 (s.p24 a)) x.aparr else s.apt0
        p24 := q } ∧
      (globe7 F T x a s).1 = globeSum F (T.p a) x (legendre F x.glat) (x.f107A - 150)
        (freshCds F T x.doy a) τ (if x.sw 8 < 0 then s.apdf else apdfOf F (T.p a) x)
        (if x.sw 8 < 0 ∧ |T.p a 51| > nearzero then
          sg0 F (exp1Of F (T.p a) x) (T.p a 25) (clamp24 (s.p24 a)) x.aparr else s.apt0) := by
  obtain ⟨v, hv, h1⟩ := latStep_eq F x s hr.lat
  obtain ⟨w, τ, h2, h2a, h2b, h2c⟩ := timeStep_eq F x (latStep F x s).2 (by rw [h1]; exact hr.time)
  have h3 := seasonStep_eq F T x a (timeStep F x (latStep F x s).2).2
    (by rw [h2, h1]; exact fun h => hr.g14 h a ha) (by rw [h2, h1]; exact fun h => hr.g18 h a ha)
    (by rw [h2, h1]; exact fun h => hr.g32 h a ha) (by rw [h2, h1]; exact fun h => hr.g39 h a ha)
  obtain ⟨q, h4, h4a⟩ := apStep_eq F T x a
    { (seasonStep F T x a (timeStep F x (latStep F x s).2).2).2 with dfa := x.f107A - 150 }
  rw [h3, h2, h1] at h4 h4a
  rw [h1] at h2c
  refine ⟨v, w, τ, q, hv, h2c, h2a, h2b, h4a, ?_, ?_⟩
  · simp only [globe7, bind_run, upd_run, rd_run]
    rw [h3, h2, h1]
    exact h4
  · simp only [globe7, bind_run, upd_run, rd_run]
    rw [h3, h2, h1, h4]

omit [IsStrictOrderedRing K] in
theorem GArr_apart (hT : TabOk T) {a b : Arr} (ha : GArr a) (hb : GArr b) {c : ℕ}
    (hc : c ∈ [13, 17, 31, 38]) {f : K → K} :
    |T.p b c - T.p a c| > nearzero ∨ f (T.p a c) = f (T.p b c) := by
  rcases hT.g b a hb ha c hc with h | h
  · rw [h]; exact Or.inr rfl
  · exact Or.inl h

/-- Usability is kept by `globe7`. -/
theorem globe7_ready (hT : TabOk T) (x : In K) (a : Arr) (ha : GArr a) (s : St K)
    (hr : Ready F T x.glat x.lst x.doy s) : Ready F T x.glat x.lst x.doy (globe7 F T x a s).2 := by
  obtain ⟨v, w, τ, q, -, -, -, h2, -, h4, -⟩ := globe7_eq F T x a ha s hr
  rw [h4]
  exact
    { lat := Or.inr rfl
      time := h2
      g14 := fun _ b hb => GArr_apart T hT ha hb (by decide) (f := fun y => F.cos (dr * (x.doy - y)))
      g18 := fun _ b hb => GArr_apart T hT ha hb (by decide) (f := fun y => F.cos (2 * dr * (x.doy - y)))
      g32 := fun _ b hb => GArr_apart T hT ha hb (by decide) (f := fun y => F.cos (dr * (x.doy - y)))
      g39 := fun _ b hb => GArr_apart T hT ha hb (by decide) (f := fun y => F.cos (2 * dr * (x.doy - y)))
      s14 := hr.s14
      s18 := hr.s18
      s32 := hr.s32
      s39 := hr.s39 }

omit [IsStrictOrderedRing K] in
theorem globeSum_congr_trig (p : ℕ → K) (x : In K) (g : Plg K) (dfa : K) (c : Cds K) (τ τ' : Trig K)
    (apdf apt0 : K) (h : dailyOn x → τ = τ') :
    globeSum F p x g dfa c τ apdf apt0 = globeSum F p x g dfa c τ' apdf apt0 := by
  by_cases hd : dailyOn x
  · rw [h hd]
  · have h6 : ¬ |x.sw 6| > 0 := fun h' => hd (Or.inl h')
    have h7 : ¬ |x.sw 7| > 0 := fun h' => hd (Or.inr (Or.inl h'))
    have h13 : ¬ |x.sw 13| > 0 := fun h' => hd (Or.inr (Or.inr h'.ne'))
    simp only [globeSum, gT6, gT7, gT13, if_neg h6, if_neg h7, if_neg h13]

theorem globeSum_congr_apdf (p : ℕ → K) (x : In K) (g : Plg K) (dfa : K) (c : Cds K) (τ : Trig K)
    (apdf apdf' apt0 : K) (h : ¬ x.sw 8 < 0 → apdf = apdf') :
    globeSum F p x g dfa c τ apdf apt0 = globeSum F p x g dfa c τ apdf' apt0 := by
  by_cases h8 : x.sw 8 < 0
  · have h9 : ¬ |sw9 x + 1| > nearzero := fun h => (sw9_test x).mp h h8
    simp only [globeSum, gT8, gT12, if_neg h9]
  · rw [h h8]

theorem globeSum_congr_apt0 (p : ℕ → K) (x : In K) (g : Plg K) (dfa : K) (c : Cds K) (τ : Trig K)
    (apdf apt0 apt0' : K) (h : x.sw 8 < 0 → p 51 ≠ 0 → apt0 = apt0') :
    globeSum F p x g dfa c τ apdf apt0 = globeSum F p x g dfa c τ apdf apt0' := by
  by_cases h8 : x.sw 8 < 0
  · by_cases h51 : p 51 = 0
    · have h9 : ¬ |sw9 x + 1| > nearzero := fun h => (sw9_test x).mp h h8
      have h51' : ¬ |p 51| > nearzero := by rw [h51, abs_zero, gt_iff_lt, not_lt]; exact nearzero_pos.le
      have h51'' : ¬ p 51 ≠ 0 := fun h => h h51
      simp only [globeSum, gT8, gT12, if_neg h9, if_neg h51', if_neg h51'']
    · rw [h h8 h51]
  · have h9 : |sw9 x + 1| > nearzero := (sw9_test x).mpr h8
    simp only [globeSum, gT8, gT12, if_pos h9]

/-- Two runs of `globe7` on usable states: same value, and the relation is kept.  After the call for
`pd[3]` the members set by `globe7` agree. -/
theorem globe7_rel (hT : TabOk T) (x : In K) (a : Arr) (ha : GArr a) (f : Fl) :
    Rel (Agree F T x.glat x.lst x.doy x.sw f) (globe7 F T x a)
      (fun _ => Agree F T x.glat x.lst x.doy x.sw { f with g := f.g ∨ a = .pd 3 }) := by
  intro s s' h
  have r1 := globe7_ready F T hT x a ha s h.ready
  have r2 := globe7_ready F T hT x a ha s' h.ready'
  obtain ⟨v, w, τ, q, -, -, t1, -, q1, e1, v1⟩ := globe7_eq F T x a ha s h.ready
  obtain ⟨v', w', τ', q', -, -, t2, -, q2, e2, v2⟩ := globe7_eq F T x a ha s' h.ready'
  have hp : clamp24 (s.p24 a) = clamp24 (s'.p24 a) := h.p24 a
  refine ⟨?_, ?_⟩
  · rw [v1, v2, hp, globeSum_congr_trig F _ x _ _ _ τ τ' _ _ (fun hd => (t1 hd).trans (t2 hd).symm),
      globeSum_congr_apdf F _ x _ _ _ _ _ (if x.sw 8 < 0 then s'.apdf else apdfOf F (T.p a) x)]
    · apply globeSum_congr_apt0
      intro h8 h51
      have h51' := (hT.p51 a ha).resolve_left h51
      rw [if_pos ⟨h8, h51'⟩, if_pos ⟨h8, h51'⟩]
    · intro h8; rw [if_neg h8, if_neg h8]
  · rw [e1] at r1 ⊢
    rw [e2] at r2 ⊢
    exact
      { ready := r1
        ready' := r2
        p24 := fun b => (q1 b).trans ((h.p24 b).trans (q2 b).symm)
        re := h.re
        gsurf := h.gsurf
        plg := fun _ => rfl
        trig := fun _ hd => (t1 hd).trans (t2 hd).symm
        dfa := fun _ => rfl
        apdf := fun hg h8 => by show (if _ then _ else _) = (if _ then _ else _); rw [if_neg h8, if_neg h8]
        apt0 := fun hg h8 => by
          show (if _ then _ else _) = (if _ then _ else _)
          rw [hp]
          rcases hg with hg | rfl
          · split
            · rfl
            · exact h.apt0 hg h8
          · rw [if_pos ⟨h8, hT.pd3⟩, if_pos ⟨h8, hT.pd3⟩]
        tn1 := h.tn1
        tgn1 := h.tgn1
        tn2 := h.tn2
        tgn2 := h.tgn2
        tn3 := h.tn3
        tgn3 := h.tgn3
        dm28 := h.dm28
        xg0 := h.xg0
        dm28m := h.dm28m }

/-! ### glob7s -/

omit [IsStrictOrderedRing K] in
theorem seasonStepS_eq (x : In K) (a : Arr) (ha : SArr a) (s : St K)
    (hr : Ready F T x.glat x.lst x.doy s) :
    ∃ q c39, (T.p a 37 = 0 ∨ c39 = (freshCds F T x.doy a).cd39) ∧
      (seasonStepS F T x a s).2 = { s with
        p99 := q
        scd := { freshCds F T x.doy a with cd39 := c39 }
        sdoy := x.doy
        s14 := T.p a 13
        s18 := T.p a 17
        s32 := T.p a 31
        s39 := T.p a 39 } := by
  have key : ∀ (q old new : K), (s.sdoy = x.doy → |q| > nearzero ∨ old = new) →
      (if x.doy - s.sdoy ≠ 0 ∨ |q| > nearzero then new else old) = new := by
    intro q old new h
    split
    · rfl
    · next hc =>
      simp only [not_or, not_not] at hc
      exact (h (by omega)).resolve_left hc.2
  refine ⟨fun b => if b = a then (if |s.p99 a| < nearzero then 2 else s.p99 a) else s.p99 b,
    if x.doy - s.sdoy ≠ 0 ∨ |s.s39 - T.p a 38| > nearzero then F.cos (2 * dr * (x.doy - T.p a 38))
      else s.scd.cd39, ?_, ?_⟩
  · by_cases h : s.sdoy = x.doy
    · rcases hr.s39 h a ha with h' | h'
      · exact Or.inl h'
      · exact Or.inr (if_pos (Or.inr h'))
    · exact Or.inr (if_pos (Or.inl (by omega)))
  · unfold seasonStepS
    rw [upd_run]
    dsimp only
    rw [key _ _ _ (fun h => hr.s14 h a ha), key _ _ _ (fun h => hr.s18 h a ha),
      key _ _ _ (fun h => hr.s32 h a ha)]
    rfl

omit [IsStrictOrderedRing K] in
theorem SArr_apart (hT : TabOk T) {a b : Arr} (ha : SArr a) (hb : SArr b) {c : ℕ}
    (hc : c ∈ [13, 17, 31]) {f : K → K} :
    |T.p a c - T.p b c| > nearzero ∨ f (T.p a c) = f (T.p b c) := by
  rcases hT.s a b ha hb c hc with h | h
  · rw [h]; exact Or.inr rfl
  · exact Or.inl h

omit [IsStrictOrderedRing K] in
theorem glob7s_ready (hT : TabOk T) (x : In K) (a : Arr) (ha : SArr a) (s : St K)
    (hr : Ready F T x.glat x.lst x.doy s) : Ready F T x.glat x.lst x.doy (glob7s F T x a s).2 := by
  obtain ⟨q, c39, -, h⟩ := seasonStepS_eq F T x a ha s hr
  simp only [glob7s, bind_run, rd_run]
  rw [h]
  exact
    { lat := hr.lat
      time := hr.time
      g14 := hr.g14
      g18 := hr.g18
      g32 := hr.g32
      g39 := hr.g39
      s14 := fun _ b hb => SArr_apart T hT ha hb (by decide) (f := fun y => F.cos (dr * (x.doy - y)))
      s18 := fun _ b hb => SArr_apart T hT ha hb (by decide) (f := fun y => F.cos (2 * dr * (x.doy - y)))
      s32 := fun _ b hb => SArr_apart T hT ha hb (by decide) (f := fun y => F.cos (dr * (x.doy - y)))
      s39 := fun _ b hb => hT.s39 b a hb ha }

omit [IsStrictOrderedRing K] in
theorem globsSum_congr (p : ℕ → K) (x : In K) (g : Plg K) (dfa : K) (c : Cds K) (u v : K)
    (τ τ' : Trig K) (apdf apdf' apt0 apt0' : K) (hc : p 37 = 0 ∨ u = v)
    (ht : dailyOn x → τ = τ') (ha : ¬ x.sw 8 < 0 → apdf = apdf') (hb : x.sw 8 < 0 → apt0 = apt0') :
    globsSum F p x g dfa { c with cd39 := u } τ apdf apt0 =
      globsSum F p x g dfa { c with cd39 := v } τ' apdf' apt0' := by
  have e5 : p 37 * g.p01 * u = p 37 * g.p01 * v := by
    rcases hc with h | h
    · rw [h]; ring
    · rw [h]
  have e6 : sT6 p x g { c with cd39 := u } τ = sT6 p x g { c with cd39 := v } τ' := by
    unfold sT6
    split
    · rw [ht (Or.inl ‹_›)]
    · rfl
  have e7 : sT7 p x g { c with cd39 := u } τ = sT7 p x g { c with cd39 := v } τ' := by
    unfold sT7
    split
    · rw [ht (Or.inr (Or.inl ‹_›))]
    · rfl
  have e13 : sT13 p x g τ = sT13 p x g τ' := by
    unfold sT13
    split
    · next h => rw [ht (Or.inr (Or.inr (ne_of_gt h)))]
    · rfl
  have e8 : sT8 p x g apdf apt0 = sT8 p x g apdf' apt0' := by
    unfold sT8
    split
    · split
      · next h => rw [hb h]
      · next h => rw [ha h]
    · rfl
  simp only [globsSum, e5, e6, e7, e8, e13]

omit [IsStrictOrderedRing K] in
theorem glob7s_rel (hT : TabOk T) (x : In K) (a : Arr) (ha : SArr a) (f : Fl) (hg : f.g) :
    Rel (Agree F T x.glat x.lst x.doy x.sw f) (glob7s F T x a)
      (fun _ => Agree F T x.glat x.lst x.doy x.sw f) := by
  intro s s' h
  have r1 := glob7s_ready F T hT x a ha s h.ready
  have r2 := glob7s_ready F T hT x a ha s' h.ready'
  obtain ⟨q, u, c1, e1⟩ := seasonStepS_eq F T x a ha s h.ready
  obtain ⟨q', u', c2, e2⟩ := seasonStepS_eq F T x a ha s' h.ready'
  simp only [glob7s, bind_run, rd_run] at r1 r2 ⊢
  rw [e1] at r1 ⊢
  rw [e2] at r2 ⊢
  refine ⟨?_, ?_⟩
  · dsimp only
    rw [h.plg hg, h.dfa hg]
    refine globsSum_congr F _ x _ _ _ _ _ _ _ _ _ _ _ ?_ (h.trig hg) (h.apdf hg) (h.apt0 hg)
    rcases c1 with c1 | c1
    · exact Or.inl c1
    · exact c2.imp id fun c2 => c1.trans c2.symm
  · exact
      { ready := r1
        ready' := r2
        p24 := h.p24
        re := h.re
        gsurf := h.gsurf
        plg := h.plg
        trig := h.trig
        dfa := h.dfa
        apdf := h.apdf
        apt0 := h.apt0
        tn1 := h.tn1
        tgn1 := h.tgn1
        tn2 := h.tn2
        tgn2 := h.tgn2
        tn3 := h.tn3
        tgn3 := h.tgn3
        dm28 := h.dm28
        xg0 := h.xg0
        dm28m := h.dm28m }

/-! ### The functions in between -/

/-- A state that differs in other members only is usable too. -/
local macro "keep" h:term : term =>
  `(⟨($h).lat, ($h).time, ($h).g14, ($h).g18, ($h).g32, ($h).g39, ($h).s14, ($h).s18, ($h).s32,
    ($h).s39⟩)

omit [Field K] [LinearOrder K] [IsStrictOrderedRing K] in
theorem put_congr (a b : ℕ → K) (i : ℕ) (v w : K) (P : ℕ → Prop) (h : ∀ k, P k → a k = b k)
    (hv : v = w) (k : ℕ) (hk : P k ∨ k = i) : put a i v k = put b i w k := by
  subst hv
  by_cases hi : k = i
  · simp only [put, if_pos hi]
  · simp only [put, if_neg hi]
    exact h k (hk.resolve_right hi)

section

variable {F T} {lat lst : K} {doy : ℤ} {sw : ℕ → K} {f : Fl}

omit [IsStrictOrderedRing K] in
theorem setTn1_rel (i : ℕ) (v : K) : Rel (Agree F T lat lst doy sw f)
    (upd fun s => { s with tn1 := put s.tn1 i v })
    (fun _ => Agree F T lat lst doy sw { f with n1 := fun k => f.n1 k ∨ k = i }) :=
  Rel.upd fun _ _ h => { h with
    ready := keep h.ready, ready' := keep h.ready', tn1 := put_congr _ _ _ _ _ _ h.tn1 rfl }

omit [IsStrictOrderedRing K] in
theorem setTn2_rel (i : ℕ) (v : K) : Rel (Agree F T lat lst doy sw f)
    (upd fun s => { s with tn2 := put s.tn2 i v })
    (fun _ => Agree F T lat lst doy sw { f with n2 := fun k => f.n2 k ∨ k = i }) :=
  Rel.upd fun _ _ h => { h with
    ready := keep h.ready, ready' := keep h.ready', tn2 := put_congr _ _ _ _ _ _ h.tn2 rfl }

omit [IsStrictOrderedRing K] in
theorem setTn3_rel (i : ℕ) (v : K) : Rel (Agree F T lat lst doy sw f)
    (upd fun s => { s with tn3 := put s.tn3 i v })
    (fun _ => Agree F T lat lst doy sw { f with n3 := fun k => f.n3 k ∨ k = i }) :=
  Rel.upd fun _ _ h => { h with
    ready := keep h.ready, ready' := keep h.ready', tn3 := put_congr _ _ _ _ _ _ h.tn3 rfl }

omit [IsStrictOrderedRing K] in
theorem setDd_rel (v : K) : Rel (Agree F T lat lst doy sw f) (setDd v)
    (fun _ => Agree F T lat lst doy sw f) :=
  Rel.upd fun _ _ h => { h with ready := keep h.ready, ready' := keep h.ready' }

omit [IsStrictOrderedRing K] in
theorem densu_rel (alt dlb t1 t2 xm xalph zlb s2 : K) (hn : ∀ k, 1 ≤ k → k ≤ 4 → f.n1 k)
    (ht : f.t1 1) : Rel (Agree F T lat lst doy sw f) (densu F T alt dlb t1 t2 xm xalph zlb s2)
      (fun _ => Agree F T lat lst doy sw f) := by
  unfold densu
  refine Rel.bind (Rel.rd fun _ _ h => h.re) fun re => ?_
  refine Rel.bind (Rel.rd fun _ _ h => h.gsurf) fun gsurf => ?_
  refine Rel.ite (fun _ => ?_) (fun _ => Rel.ite (fun _ => Rel.pure _ fun _ _ h => h)
    (fun _ => Rel.pure _ fun _ _ h => h))
  refine Rel.bind (Q := fun _ => Agree F T lat lst doy sw
    { f with n1 := fun k => f.n1 k ∨ k = 0, t1 := fun k => f.t1 k ∨ k = 0 })
    (Rel.upd fun s s' h => ?_) fun _ => ?_
  · exact { h with
      ready := keep h.ready
      ready' := keep h.ready'
      tn1 := put_congr _ _ _ _ _ _ h.tn1 rfl
      tgn1 := put_congr _ _ _ _ _ _ h.tgn1 rfl }
  · refine Rel.bind (Rel.rd fun s s' h => ?_) fun tn => ?_
    · rw [h.tn1 0 (Or.inr rfl), h.tn1 1 (Or.inl (hn 1 (by omega) (by omega))),
        h.tn1 2 (Or.inl (hn 2 (by omega) (by omega))), h.tn1 3 (Or.inl (hn 3 (by omega) (by omega))),
        h.tn1 4 (Or.inl (hn 4 (by omega) (by omega)))]
    refine Rel.bind (Rel.rd fun s s' h => ?_) fun tg => ?_
    · rw [h.tgn1 0 (Or.inr rfl), h.tgn1 1 (Or.inl ht)]
    have back : ∀ s s', Agree F T lat lst doy sw
        { f with n1 := fun k => f.n1 k ∨ k = 0, t1 := fun k => f.t1 k ∨ k = 0 } s s' →
        Agree F T lat lst doy sw f s s' := fun _ _ h =>
      h.mono id id id (fun _ => Or.inl) (fun _ => Or.inl) (fun _ => id) (fun _ => id) (fun _ => id)
        (fun _ => id)
    exact Rel.ite (fun _ => Rel.pure _ back) (fun _ => Rel.pure _ back)

omit [IsStrictOrderedRing K] in
theorem den_rel (c : Ctx K) (alt dlb xm xalph : K) (hn : ∀ k, 1 ≤ k → k ≤ 4 → f.n1 k)
    (ht : f.t1 1) : Rel (Agree F T lat lst doy sw f) (den F T c alt dlb xm xalph)
      (fun _ => Agree F T lat lst doy sw f) := densu_rel _ _ _ _ _ _ _ _ hn ht

end

section

variable {F T} {f : Fl}

/-- `globe7` keeps whatever is known. -/
theorem globe7_rel' (hT : TabOk T) (x : In K) (a : Arr) (ha : GArr a) :
    Rel (Agree F T x.glat x.lst x.doy x.sw f) (globe7 F T x a)
      (fun _ => Agree F T x.glat x.lst x.doy x.sw f) :=
  Rel.weaken (globe7_rel F T hT x a ha f) (fun _ _ h => h) fun _ _ _ h =>
    h.mono Or.inl id id (fun _ => id) (fun _ => id) (fun _ => id) (fun _ => id) (fun _ => id)
      (fun _ => id)

theorem gtsTemps_rel (hT : TabOk T) (x : In K) :
    Rel (Agree F T x.glat x.lst x.doy x.sw f) (gtsTemps F T x)
      (fun _ => Agree F T x.glat x.lst x.doy x.sw { f with g := True, y := True }) := by
  unfold gtsTemps
  refine Rel.bind (Q := fun _ => Agree F T x.glat x.lst x.doy x.sw f) (Rel.ite (fun _ => ?_)
    (fun _ => Rel.pure _ fun _ _ h => h)) fun tinf => ?_
  · exact Rel.bind (globe7_rel' hT x .pt (Or.inl rfl)) fun g => Rel.pure _ fun _ _ h => h
  refine Rel.bind (Q := fun _ => Agree F T x.glat x.lst x.doy x.sw f) (Rel.ite (fun _ => ?_)
    (fun _ => Rel.pure _ fun _ _ h => h)) fun xg => ?_
  · exact Rel.bind (globe7_rel' hT x .ps (Or.inr (Or.inl rfl))) fun g => Rel.pure _ fun _ _ h => h
  refine Rel.bind (Q := fun _ => Agree F T x.glat x.lst x.doy x.sw { f with y := True })
    (Rel.upd fun s s' h => { h with
      ready := keep h.ready, ready' := keep h.ready', xg0 := fun _ => rfl }) fun _ => ?_
  refine Rel.bind (globe7_rel F T hT x (.pd 3) (Or.inr (Or.inr ⟨3, by omega, rfl⟩)) _) fun g => ?_
  refine Rel.bind (Q := fun _ s s' => Agree F T x.glat x.lst x.doy x.sw
      { f with g := True, y := True } s s' ∧ s.tlb = s'.tlb)
    (Rel.upd fun s s' h => ⟨?_, rfl⟩) fun _ => ?_
  · have h : Agree F T x.glat x.lst x.doy x.sw { f with g := True, y := True } s s' :=
      h.mono (fun _ => Or.inr rfl) id id (fun _ => id) (fun _ => id) (fun _ => id) (fun _ => id)
        (fun _ => id) (fun _ => id)
    exact { h with ready := keep h.ready, ready' := keep h.ready' }
  refine Rel.bind (Rel.rd fun s s' h => h.1.xg0 trivial) fun xg0 => ?_
  refine Rel.bind (Rel.rd fun s s' h => h.2) fun tlb => ?_
  exact Rel.pure _ fun s s' h => h.1

omit [IsStrictOrderedRing K] in
theorem gtsNodes_rel (hT : TabOk T) (x : In K) (hg : f.g) :
    Rel (Agree F T x.glat x.lst x.doy x.sw f) (gtsNodes F T x)
      (fun _ => Agree F T x.glat x.lst x.doy x.sw
        { f with n1 := fun k => 1 ≤ k ∧ k ≤ 4, t1 := fun k => k = 1 }) := by
  unfold gtsNodes
  refine Rel.ite (fun _ => ?_) (fun _ => ?_)
  · refine Rel.upd fun s s' h => ?_
    have hm := h.mono (f' := { f with n1 := fun _ => False, t1 := fun _ => False }) id id id
      (fun _ => False.elim) (fun _ => False.elim) (fun _ => id) (fun _ => id) (fun _ => id) (fun _ => id)
    exact { hm with
      ready := keep h.ready
      ready' := keep h.ready'
      tn1 := fun k hk => put_congr _ _ _ _ _ (fun k => k = 1 ∨ k = 2 ∨ k = 3)
        (fun k hk => put_congr _ _ _ _ _ (fun k => k = 1 ∨ k = 2)
          (fun k hk => put_congr _ _ _ _ _ (fun k => k = 1)
            (fun k hk => put_congr _ _ _ _ _ (fun _ => False) (fun _ => False.elim) rfl k (Or.inr hk))
            rfl k hk) rfl k (by omega)) rfl k (by omega)
      tgn1 := fun k hk => put_congr _ _ _ _ _ (fun _ => False) (fun _ => False.elim) (by
        simp only [put, if_true]) k (Or.inr hk) }
  · refine Rel.bind (glob7s_rel F T hT x _ (Or.inl ⟨0, by omega, rfl⟩) _ hg) fun g0 => ?_
    refine Rel.bind (setTn1_rel _ _) fun _ => ?_
    refine Rel.bind (glob7s_rel F T hT x _ (Or.inl ⟨1, by omega, rfl⟩) _ hg) fun g1 => ?_
    refine Rel.bind (setTn1_rel _ _) fun _ => ?_
    refine Rel.bind (glob7s_rel F T hT x _ (Or.inl ⟨2, by omega, rfl⟩) _ hg) fun g2 => ?_
    refine Rel.bind (setTn1_rel _ _) fun _ => ?_
    refine Rel.bind (glob7s_rel F T hT x _ (Or.inl ⟨3, by omega, rfl⟩) _ hg) fun g3 => ?_
    refine Rel.bind (setTn1_rel _ _) fun _ => ?_
    refine Rel.bind (glob7s_rel F T hT x _ (Or.inr ⟨8, by omega, rfl⟩) _ hg) fun g4 => ?_
    refine Rel.upd fun s s' h => ?_
    have hm := h.mono (f' := { f with n1 := fun k => 1 ≤ k ∧ k ≤ 4, t1 := fun _ => False }) id id id
      (fun k (hk : 1 ≤ k ∧ k ≤ 4) => by show (((_ ∨ k = 1) ∨ k = 2) ∨ k = 3) ∨ k = 4; omega)
      (fun _ => False.elim) (fun _ => id) (fun _ => id) (fun _ => id) (fun _ => id)
    exact { hm with
      ready := keep h.ready
      ready' := keep h.ready'
      tgn1 := fun k hk => put_congr _ _ _ _ _ (fun _ => False) (fun _ => False.elim) (by
        rw [h.tn1 4 (Or.inr rfl)]) k (Or.inr hk) }

omit [IsStrictOrderedRing K] in
theorem gtsN2_rel (x : In K) (mass : ℤ) (tinf tlb s g28 : K) (hn : ∀ k, 1 ≤ k → k ≤ 4 → f.n1 k) (ht : f.t1 1) :
    Rel (Agree F T x.glat x.lst x.doy x.sw f) (gtsN2 F T x mass tinf tlb s g28)
      (fun _ => Agree F T x.glat x.lst x.doy x.sw
        { f with m := f.m ∨ (x.alt ≤ 160 ∧ |x.sw 14| > 0) ∧ (x.alt < 450 ∨ mass = 28 ∨ mass = 48) }) := by
  have weak : ∀ {P : Prop} s s', ¬ P → Agree F T x.glat x.lst x.doy x.sw f s s' →
      Agree F T x.glat x.lst x.doy x.sw { f with m := f.m ∨ P } s s' := fun _ _ hc h =>
    h.mono id (fun h => h.resolve_right hc) id (fun _ => id) (fun _ => id) (fun _ => id)
      (fun _ => id) (fun _ => id) (fun _ => id)
  unfold gtsN2
  refine Rel.ite (fun h450 => ?_) (fun h450 => Rel.pure _ fun s s' h => weak _ _ (fun hc => h450 hc.2) h)
  refine Rel.bind (den_rel _ _ _ _ _ hn ht) fun r => ?_
  refine Rel.bind (setDd_rel _) fun _ => ?_
  refine Rel.bind (den_rel _ _ _ _ _ hn ht) fun b => ?_
  refine Rel.ite (fun hc => ?_) (fun hc => Rel.pure _ fun s s' h => weak _ _ (fun h' => hc h'.1) h)
  refine Rel.bind (den_rel _ _ _ _ _ hn ht) fun m => ?_
  refine Rel.bind (Rel.upd (Q := Agree F T x.glat x.lst x.doy x.sw { f with m := True }) fun s s' h =>
    { h with ready := keep h.ready, ready' := keep h.ready', dm28 := fun _ => rfl }) fun _ => ?_
  refine Rel.bind (Rel.rd fun s s' h => h.dm28 trivial) fun dm => ?_
  exact Rel.pure _ fun s s' h => h.mono id (fun _ => trivial) id (fun _ => id) (fun _ => id)
    (fun _ => id) (fun _ => id) (fun _ => id) (fun _ => id)

theorem species_rel (hT : TabOk T) (x : In K) (c : Ctx K) (k : ℕ) (a : Arr) (ha : GArr a) (m : K) (ia il : ℕ)
    (corr : K → K → K) (hn : ∀ k, 1 ≤ k → k ≤ 4 → f.n1 k) (ht : f.t1 1) :
    Rel (Agree F T x.glat x.lst x.doy x.sw f) (species F T x c k a m ia il corr)
      (fun _ => Agree F T x.glat x.lst x.doy x.sw f) := by
  unfold species
  refine Rel.bind (globe7_rel' hT x a ha) fun g => ?_
  refine Rel.bind (den_rel _ _ _ _ _ hn ht) fun r => ?_
  refine Rel.bind (setDd_rel _) fun _ => ?_
  refine Rel.ite (fun hc => ?_) (fun hc => Rel.pure _ fun s s' h => h)
  refine Rel.bind (den_rel _ _ _ _ _ hn ht) fun b => ?_
  refine Rel.bind (den_rel _ _ _ _ _ hn ht) fun dm => ?_
  exact Rel.pure _ fun s s' h => h

theorem gtsO2_rel (hT : TabOk T) (x : In K) (mass : ℤ) (c : Ctx K) (hn : ∀ k, 1 ≤ k → k ≤ 4 → f.n1 k) (ht : f.t1 1) :
    Rel (Agree F T x.glat x.lst x.doy x.sw f) (gtsO2 F T x mass c)
      (fun _ => Agree F T x.glat x.lst x.doy x.sw f) := by
  unfold gtsO2
  refine Rel.bind (globe7_rel' hT x _ (Or.inr (Or.inr ⟨4, by omega, rfl⟩))) fun g => ?_
  refine Rel.bind (den_rel _ _ _ _ _ hn ht) fun r => ?_
  refine Rel.bind (Rel.upd (Q := Agree F T x.glat x.lst x.doy x.sw f) fun s s' h =>
    { h with ready := keep h.ready, ready' := keep h.ready' }) fun _ => ?_
  refine Rel.ite (fun hc => ?_) (fun hc => Rel.pure _ fun s s' h => h)
  refine Rel.bind (Q := fun _ => Agree F T x.glat x.lst x.doy x.sw f) (Rel.ite (fun hc => ?_)
    (fun hc => Rel.pure _ fun s s' h => h)) fun d => Rel.pure _ fun s s' h => h
  refine Rel.bind (den_rel _ _ _ _ _ hn ht) fun b => ?_
  refine Rel.bind (den_rel _ _ _ _ _ hn ht) fun dm => ?_
  exact Rel.pure _ fun s s' h => h

theorem gtsAnomO_rel (hT : TabOk T) (x : In K) (c : Ctx K) (hn : ∀ k, 1 ≤ k → k ≤ 4 → f.n1 k) (ht : f.t1 1) :
    Rel (Agree F T x.glat x.lst x.doy x.sw f) (gtsAnomO F T x c)
      (fun _ => Agree F T x.glat x.lst x.doy x.sw f) := by
  unfold gtsAnomO
  refine Rel.bind (globe7_rel' hT x _ (Or.inr (Or.inr ⟨8, by omega, rfl⟩))) fun g => ?_
  refine Rel.bind (densu_rel _ _ _ _ _ _ _ _ hn ht) fun r => ?_
  refine Rel.bind (setDd_rel _) fun _ => ?_
  refine Rel.bind (Rel.rd fun s s' h => h.gsurf) fun _ => ?_
  refine Rel.bind (Rel.rd fun s s' h => h.re) fun _ => ?_
  exact Rel.pure _ fun s s' h => h

omit [IsStrictOrderedRing K] in
theorem part_rel (b : Prop) [Decidable b] (m : M K K) {P : St K → St K → Prop}
    (h : Rel P m fun _ => P) : Rel P (part b m) fun _ => P :=
  Rel.ite (fun _ => h) fun _ => Rel.pure _ fun _ _ h => h

theorem gtsDens_rel (hT : TabOk T) (x : In K) (mass : ℤ) (tinf tlb s : K) (hn : ∀ k, 1 ≤ k → k ≤ 4 → f.n1 k) (ht : f.t1 1) :
    Rel (Agree F T x.glat x.lst x.doy x.sw f) (gtsDens F T x mass tinf tlb s)
      (fun _ => Agree F T x.glat x.lst x.doy x.sw
        { f with m := f.m ∨ (mass ∈ mt ∧ x.alt ≤ 160 ∧ |x.sw 14| > 0) }) := by
  unfold gtsDens
  refine Rel.bind (globe7_rel' hT x _ (Or.inr (Or.inr ⟨2, by omega, rfl⟩))) fun g => ?_
  refine Rel.bind (Q := fun _ => Agree F T x.glat x.lst x.doy x.sw
    { f with m := f.m ∨ (mass ∈ mt ∧ x.alt ≤ 160 ∧ |x.sw 14| > 0) }) (Rel.ite (fun hc => ?_)
      (fun hc => Rel.pure _ fun s s' h => ?_)) fun n2 => ?_
  · refine Rel.weaken (gtsN2_rel x mass _ _ _ _ hn ht) (fun _ _ h => h) fun _ s s' h =>
      h.mono id (fun h => ?_) id (fun _ => id) (fun _ => id) (fun _ => id) (fun _ => id)
        (fun _ => id) (fun _ => id)
    rcases h with h | h
    · exact Or.inl h
    · exact Or.inr ⟨h.2, Or.inl (lt_of_le_of_lt h.2.1 (by norm_num))⟩
  · exact h.mono id (fun h => h.resolve_right fun h => hc h.1) id (fun _ => id) (fun _ => id)
      (fun _ => id) (fun _ => id) (fun _ => id) (fun _ => id)
  have pd : ∀ k < 9, GArr (.pd k) := fun k hk => Or.inr (Or.inr ⟨k, hk, rfl⟩)
  refine Rel.bind (part_rel _ _ (species_rel hT x _ _ _ (pd 0 (by omega)) _ _ _ _ hn ht)) fun _ => ?_
  refine Rel.bind (part_rel _ _ (species_rel hT x _ _ _ (pd 1 (by omega)) _ _ _ _ hn ht)) fun _ => ?_
  refine Rel.bind (part_rel _ _ (gtsO2_rel hT x _ _ hn ht)) fun _ => ?_
  refine Rel.bind (part_rel _ _ (species_rel hT x _ _ _ (pd 5 (by omega)) _ _ _ _ hn ht)) fun _ => ?_
  refine Rel.bind (part_rel _ _ (species_rel hT x _ _ _ (pd 6 (by omega)) _ _ _ _ hn ht)) fun _ => ?_
  refine Rel.bind (part_rel _ _ (species_rel hT x _ _ _ (pd 7 (by omega)) _ _ _ _ hn ht)) fun _ => ?_
  refine Rel.bind (part_rel _ _ (gtsAnomO_rel hT x _ hn ht)) fun _ => ?_
  exact Rel.pure _ fun s s' h => h

/-- What is known after `gts7`. -/
def afterGts (f : Fl) (x : In K) (mass : ℤ) : Fl :=
  { f with
    g := True
    y := True
    n1 := fun k => 1 ≤ k ∧ k ≤ 4
    t1 := fun k => k = 1
    m := f.m ∨ (mass ≠ 0 ∧ mass ∈ mt ∧ x.alt ≤ 160 ∧ |x.sw 14| > 0) }

theorem gts7_rel (hT : TabOk T) (x : In K) (mass : ℤ) :
    Rel (Agree F T x.glat x.lst x.doy x.sw f) (gts7 F T x mass)
      (fun _ => Agree F T x.glat x.lst x.doy x.sw (afterGts f x mass)) := by
  unfold gts7
  refine Rel.bind (Q := fun _ => Agree F T x.glat x.lst x.doy x.sw (afterGts f x mass)) ?_
    fun _ => Rel.pure _ fun _ _ h => h
  unfold gtsCore
  refine Rel.bind (gtsTemps_rel hT x) fun tt => ?_
  refine Rel.bind (gtsNodes_rel hT x trivial) fun _ => ?_
  refine Rel.bind (Q := fun _ => Agree F T x.glat x.lst x.doy x.sw (afterGts f x mass))
    (Rel.ite (fun hm => ?_) (fun hm => Rel.pure _ fun s s' h => ?_)) fun r => ?_
  · refine Rel.weaken (gtsDens_rel (f := { f with g := True, y := True, n1 := fun k => 1 ≤ k ∧ k ≤ 4, t1 := fun k => k = 1 }) hT x mass _ _ _ (fun k h1 h2 => ⟨h1, h2⟩) rfl) (fun _ _ h => h)
      fun _ s s' h => h.mono id (fun h => h.imp id fun h => h.2) id (fun _ => id) (fun _ => id)
        (fun _ => id) (fun _ => id) (fun _ => id) (fun _ => id)
  · exact h.mono id (fun h => h.resolve_right fun h => hm h.1) id (fun _ => id) (fun _ => id)
      (fun _ => id) (fun _ => id) (fun _ => id) (fun _ => id)
  refine Rel.bind (Q := fun _ => Agree F T x.glat x.lst x.doy x.sw (afterGts f x mass))
    (Rel.ite (fun _ => ?_) (fun _ => Rel.pure _ fun s s' h => h)) fun t1 => Rel.pure _ fun s s' h => h
  exact Rel.bind (densu_rel _ _ _ _ _ _ _ _ (fun k h1 h2 => ⟨h1, h2⟩) rfl) fun q =>
    Rel.pure _ fun s s' h => h

omit [IsStrictOrderedRing K] in
theorem gtdNodes2_rel (hT : TabOk T) (x : In K) (hg : f.g) (hn : f.n1 4) (ht : f.t1 1) :
    Rel (Agree F T x.glat x.lst x.doy x.sw f) (gtdNodes2 F T x)
      (fun _ => Agree F T x.glat x.lst x.doy x.sw
        { f with n2 := fun k => k ≤ 3, t2 := fun k => k ≤ 1 }) := by
  have pma : ∀ k < 10, SArr (.pma k) := fun k hk => Or.inr ⟨k, hk, rfl⟩
  unfold gtdNodes2
  refine Rel.bind (Rel.upd (Q := Agree F T x.glat x.lst x.doy x.sw
      { f with n2 := fun k => f.n2 k ∨ k = 0, t2 := fun k => f.t2 k ∨ k = 0 }) fun s s' h =>
    { h with
      ready := keep h.ready
      ready' := keep h.ready'
      tn2 := put_congr _ _ _ _ _ _ h.tn2 (h.tn1 4 hn)
      tgn2 := put_congr _ _ _ _ _ _ h.tgn2 (h.tgn1 1 ht) }) fun _ => ?_
  refine Rel.bind (glob7s_rel F T hT x _ (pma 0 (by omega)) _ hg) fun g0 => ?_
  refine Rel.bind (setTn2_rel _ _) fun _ => ?_
  refine Rel.bind (glob7s_rel F T hT x _ (pma 1 (by omega)) _ hg) fun g1 => ?_
  refine Rel.bind (setTn2_rel _ _) fun _ => ?_
  refine Rel.bind (glob7s_rel F T hT x _ (pma 2 (by omega)) _ hg) fun g2 => ?_
  refine Rel.bind (setTn2_rel _ _) fun _ => ?_
  refine Rel.bind (glob7s_rel F T hT x _ (pma 9 (by omega)) _ hg) fun g4 => ?_
  refine Rel.upd fun s s' h => ?_
  have hm := h.mono (f' := { f with n2 := fun k => k ≤ 3, t2 := fun k => k = 0 }) id id id
    (fun _ => id) (fun _ => id)
    (fun k (hk : k ≤ 3) => by show (((_ ∨ k = 0) ∨ k = 1) ∨ k = 2) ∨ k = 3; omega)
    (fun k hk => Or.inr hk) (fun _ => id) (fun _ => id)
  exact { hm with
    ready := keep h.ready
    ready' := keep h.ready'
    tgn2 := fun k (hk : k ≤ 1) => put_congr _ _ _ _ _ (fun k => k = 0) hm.tgn2 (by
      rw [h.tn2 3 (Or.inr rfl)]) k (by omega) }

omit [IsStrictOrderedRing K] in
theorem gtdNodes3_rel (hT : TabOk T) (x : In K) (hg : f.g) (ht : f.t2 1) :
    Rel (Agree F T x.glat x.lst x.doy x.sw f) (gtdNodes3 F T x)
      (fun _ => Agree F T x.glat x.lst x.doy x.sw
        { f with n3 := fun k => f.n3 k ∨ (1 ≤ k ∧ k ≤ 4), t3 := fun k => k ≤ 1 }) := by
  have pma : ∀ k < 10, SArr (.pma k) := fun k hk => Or.inr ⟨k, hk, rfl⟩
  unfold gtdNodes3
  refine Rel.bind (Rel.upd (Q := Agree F T x.glat x.lst x.doy x.sw
      { f with t3 := fun k => f.t3 k ∨ k = 0 }) fun s s' h =>
    { h with
      ready := keep h.ready
      ready' := keep h.ready'
      tgn3 := put_congr _ _ _ _ _ _ h.tgn3 (h.tgn2 1 ht) }) fun _ => ?_
  refine Rel.bind (glob7s_rel F T hT x _ (pma 3 (by omega)) _ hg) fun g0 => ?_
  refine Rel.bind (setTn3_rel _ _) fun _ => ?_
  refine Rel.bind (glob7s_rel F T hT x _ (pma 4 (by omega)) _ hg) fun g1 => ?_
  refine Rel.bind (setTn3_rel _ _) fun _ => ?_
  refine Rel.bind (glob7s_rel F T hT x _ (pma 5 (by omega)) _ hg) fun g2 => ?_
  refine Rel.bind (setTn3_rel _ _) fun _ => ?_
  refine Rel.bind (glob7s_rel F T hT x _ (pma 6 (by omega)) _ hg) fun g2 => ?_
  refine Rel.bind (setTn3_rel _ _) fun _ => ?_
  refine Rel.bind (glob7s_rel F T hT x _ (pma 7 (by omega)) _ hg) fun g4 => ?_
  refine Rel.upd fun s s' h => ?_
  have hm := h.mono (f' := { f with n3 := fun k => f.n3 k ∨ (1 ≤ k ∧ k ≤ 4), t3 := fun k => k = 0 })
    id id id (fun _ => id) (fun _ => id) (fun _ => id) (fun _ => id)
    (fun k hk => by
      show (((_ ∨ k = 1) ∨ k = 2) ∨ k = 3) ∨ k = 4
      rcases hk with hk | hk
      · exact Or.inl (Or.inl (Or.inl (Or.inl hk)))
      · omega)
    (fun k hk => Or.inr hk)
  exact { hm with
    ready := keep h.ready
    ready' := keep h.ready'
    tgn3 := fun k (hk : k ≤ 1) => put_congr _ _ _ _ _ (fun k => k = 0) hm.tgn3 (by
      rw [h.tn3 4 (Or.inr rfl)]) k (by omega) }

omit [IsStrictOrderedRing K] in
theorem densm_rel {lat lst : K} {doy : ℤ} {sw : ℕ → K} (alt d0 xm tz : K)
    (hn : ∀ k, k ≤ 3 → f.n2 k) (ht : ∀ k, k ≤ 1 → f.t2 k)
    (h3 : alt ≤ zn3 0 → (∀ k, k ≤ 4 → f.n3 k) ∧ ∀ k, k ≤ 1 → f.t3 k) :
    Rel (Agree F T lat lst doy sw f) (densm F alt d0 xm tz)
      (fun _ => Agree F T lat lst doy sw f) := by
  unfold densm
  refine Rel.bind (Rel.rd fun _ _ h => h.re) fun re => ?_
  refine Rel.bind (Rel.rd fun _ _ h => h.gsurf) fun gsurf => ?_
  refine Rel.ite (fun _ => ?_) (fun _ => Rel.pure _ fun _ _ h => h)
  refine Rel.bind (Rel.rd fun s s' h => ?_) fun a => ?_
  · rw [h.tn2 0 (hn 0 (by omega)), h.tn2 1 (hn 1 (by omega)), h.tn2 2 (hn 2 (by omega)),
      h.tn2 3 (hn 3 (by omega))]
  refine Rel.bind (Rel.rd fun s s' h => ?_) fun g => ?_
  · rw [h.tgn2 0 (ht 0 (by omega)), h.tgn2 1 (ht 1 (by omega))]
  refine Rel.ite (fun hc => ?_) (fun _ => Rel.pure _ fun _ _ h => h)
  obtain ⟨h3, h4⟩ := h3 hc
  refine Rel.bind (Rel.rd fun s s' h => ?_) fun b => ?_
  · rw [h.tn3 0 (h3 0 (by omega)), h.tn3 1 (h3 1 (by omega)), h.tn3 2 (h3 2 (by omega)),
      h.tn3 3 (h3 3 (by omega)), h.tn3 4 (h3 4 (by omega))]
  refine Rel.bind (Rel.rd fun s s' h => ?_) fun g => ?_
  · rw [h.tgn3 0 (h4 0 (by omega)), h.tgn3 1 (h4 1 (by omega))]
  exact Rel.pure _ fun _ _ h => h

omit [IsStrictOrderedRing K] in
/-- `gtd7` does not read the indeterminate `tz`. -/
theorem gtd7_tz (tzg tzg' : K) (x : In K) (mass : ℤ) (old : Out K) :
    gtd7 F T tzg x mass old = gtd7 F T tzg' x mass old := by
  have key : x.alt ≤ zn2 0 → ∀ d xm, densm F x.alt d xm tzg = densm F x.alt d xm tzg' := by
    intro h d xm
    simp only [densm, if_pos h]
  unfold gtd7
  by_cases h : x.alt ≥ zn2 0
  · simp only [if_pos h]
  · simp only [key (le_of_lt (not_le.mp h))]

/-- The condition under which `dm28` is set before it is read. -/
def MixSet (x : In K) (mass : ℤ) : Prop :=
  x.alt ≥ 72.5 ∨ mass = 0 ∨ (|x.sw 14| > 0 ∧ ((x.alt < 62.5 ∧ mass > 0) ∨ mass ∈ mt))

/-- **C64 (two states).**  From any two states whose caches are usable for the input, and whose first
lower node temperature agrees if the altitude is below 32.5 km, `gtd7` gives the same output. -/
theorem gtd7_agree (hT : TabOk T) (tzg tzg' : K) (x : In K) (mass : ℤ) (old : Out K) (s s' : St K)
    (hr : Ready F T x.glat x.lst x.doy s) (hr' : Ready F T x.glat x.lst x.doy s')
    (hp : ∀ a, clamp24 (s.p24 a) = clamp24 (s'.p24 a))
    (halt : x.alt > 32.5 ∨ (x.alt < 32.5 ∧ s.tn3 0 = s'.tn3 0)) (hm : MixSet x mass) :
    (gtd7 F T tzg x mass old s).1 = (gtd7 F T tzg' x mass old s').1 := by
  rw [gtd7_tz tzg tzg']
  have hz0 : (zn3 0 : K) = 32.5 := rfl
  have hz2 : (zn2 0 : K) = 72.5 := rfl
  suffices H : Rel (fun s s' => Ready F T x.glat x.lst x.doy s ∧ Ready F T x.glat x.lst x.doy s' ∧
      (∀ a, clamp24 (s.p24 a) = clamp24 (s'.p24 a)) ∧
      (x.alt > 32.5 ∨ (x.alt < 32.5 ∧ s.tn3 0 = s'.tn3 0))) (gtd7 F T tzg' x mass old)
      (fun _ _ _ => True) from (H s s' ⟨hr, hr', hp, halt⟩).1
  unfold gtd7
  refine Rel.bind (Q := fun _ => Agree F T x.glat x.lst x.doy x.sw
    ⟨False, False, False, False, fun _ => False, fun _ => False, fun _ => False, fun _ => False,
      fun k => k = 0 ∧ x.alt < 32.5, fun _ => False⟩) (Rel.upd fun s s' h => ?_) fun _ => ?_
  · exact
      { ready := keep h.1
        ready' := keep h.2.1
        p24 := h.2.2.1
        re := rfl
        gsurf := rfl
        plg := False.elim
        trig := False.elim
        dfa := False.elim
        apdf := False.elim
        apt0 := False.elim
        tn1 := fun _ => False.elim
        tgn1 := fun _ => False.elim
        tn2 := fun _ => False.elim
        tgn2 := fun _ => False.elim
        tn3 := fun k hk => by
          rw [hk.1]
          rcases h.2.2.2 with h' | h'
          · exact absurd hk.2 (not_lt.mpr h'.le)
          · exact h'.2
        tgn3 := fun _ => False.elim
        dm28 := False.elim
        xg0 := False.elim
        dm28m := False.elim }
  refine Rel.bind (gts7_rel hT { x with alt := max x.alt (zn2 0) } _) fun o => ?_
  generalize hf : afterGts (K := K) _ _ _ = f
  have hfg : f.g := by rw [← hf]; trivial
  have hfn : f.n1 4 := by rw [← hf]; exact ⟨by omega, by omega⟩
  have hft : f.t1 1 := by rw [← hf]; exact rfl
  have hf3 : x.alt < 32.5 → f.n3 0 := by rw [← hf]; exact fun h => ⟨rfl, h⟩
  have hfm : x.alt < 72.5 → mass ≠ 0 → f.m := by
    rw [← hf]
    intro h1 h2
    refine Or.inr ?_
    rcases hm with hm | hm | ⟨h14, hm⟩
    · exact absurd h1 (not_lt.mpr hm)
    · exact absurd hm h2
    · have hmax : max x.alt (zn2 0) ≤ 160 := by
        rw [hz2]
        exact max_le (h1.le.trans (by norm_num)) (by norm_num)
      split
      · exact ⟨by decide, by decide, hmax, h14⟩
      · next hc =>
        rcases hm with hm | hm
        · exact absurd hm hc
        · exact ⟨h2, hm, hmax, h14⟩
  clear hf
  refine Rel.bind (Q := fun _ => Agree F T x.glat x.lst x.doy x.sw { f with mm := f.m })
    (Rel.upd fun s s' h => ?_) fun _ => ?_
  · exact { h with
      ready := keep h.ready
      ready' := keep h.ready'
      dm28m := fun hm => by dsimp only; rw [h.dm28 hm] }
  refine Rel.ite (fun _ => Rel.pure _ fun _ _ _ => trivial) (fun h72 => ?_)
  rw [ge_iff_le, not_le, hz2] at h72
  refine Rel.bind (gtdNodes2_rel hT x hfg hfn hft) fun _ => ?_
  extract_lets jp
  have low : x.alt ≤ 32.5 → x.alt < 32.5 := fun h =>
    halt.elim (fun h' => absurd h (not_le.mpr h')) fun h' => h'.1
  have hjp : ∀ u, Rel (Agree F T x.glat x.lst x.doy x.sw
      { f with
        mm := f.m
        n2 := fun k => k ≤ 3
        t2 := fun k => k ≤ 1
        n3 := fun k => k ≤ 4 ∧ x.alt < 32.5
        t3 := fun k => k ≤ 1 ∧ x.alt < 32.5 }) (jp u) (fun _ _ _ => True) := by
    intro u
    refine Rel.ite (fun _ => ?_) (fun hm0 => ?_)
    · refine Rel.bind (densm_rel _ _ _ _ (fun _ => id) (fun _ => id)
        fun h => ⟨fun k hk => ⟨hk, low h⟩, fun k hk => ⟨hk, low h⟩⟩) fun r => ?_
      exact Rel.bind (setDd_rel _) fun _ => Rel.pure _ fun _ _ _ => trivial
    · refine Rel.bind (Rel.rd fun s s' h => h.dm28m (hfm h72 hm0)) fun d => ?_
      refine Rel.bind (densm_rel _ _ _ _ (fun _ => id) (fun _ => id)
        fun h => ⟨fun k hk => ⟨hk, low h⟩, fun k hk => ⟨hk, low h⟩⟩) fun r => ?_
      exact Rel.pure _ fun _ _ _ => trivial
  refine Rel.ite (fun h3 => ?_) (fun h3 => ?_)
  · refine Rel.bind (Rel.weaken (gtdNodes3_rel (f := { f with
        mm := f.m, n2 := fun k => k ≤ 3, t2 := fun k => k ≤ 1 }) hT x hfg (le_refl 1)) (fun _ _ h => h) fun _ _ _ h =>
      h.mono (f' := { f with
          mm := f.m
          n2 := fun k => k ≤ 3
          t2 := fun k => k ≤ 1
          n3 := fun k => k ≤ 4 ∧ x.alt < 32.5
          t3 := fun k => k ≤ 1 ∧ x.alt < 32.5 }) id id id (fun _ => id) (fun _ => id) (fun _ => id) (fun _ => id) (fun k hk => ?_)
        (fun k hk => hk.1) id) hjp
    by_cases h0 : k = 0
    · subst h0; exact Or.inl (hf3 hk.2)
    · exact Or.inr ⟨by omega, hk.1⟩
  · refine Rel.weaken (hjp ()) (fun s s' h => ?_) fun _ _ _ h => h
    exact h.mono id id id (fun _ => id) (fun _ => id) (fun _ => id) (fun _ => id)
      (fun k hk => absurd hk.2 h3) (fun k hk => absurd hk.2 h3)

end

end Verif.Atmosphere.Msis
