import Verif.Atmosphere.MsisSim
import Verif.Atmosphere.MsisExamples

/-
C93: effects that are switched off do not act.  C94: the reference conditions.
-/
namespace Verif.Atmosphere.Msis

open Data

variable {K : Type} [Field K] [LinearOrder K]

/-! ### Specification -/

/-- The effect with the number `k` is switched off (src/atmosphere/nrlmsise00.hpp:90-105). -/
def Off (x : In K) (k : ℕ) : Prop := x.sw k = 0 ∧ x.swc k = 0

/-- The input with these effects switched off. -/
def switchOff (x : In K) (l : List ℕ) : In K :=
  { x with
    sw := fun k => if k ∈ l then 0 else x.sw k
    swc := fun k => if k ∈ l then 0 else x.swc k }

/-- The two inputs give the same densities and temperatures, from every state of the instance and for every
requested species. -/
def SameAtmosphere (F : Fns K) (T : Tab K) (x x' : In K) : Prop :=
  ∀ (tz : K) (mass : ℤ) (old : Out K) (s : St K), (gtd7 F T tz x mass old s).1 = (gtd7 F T tz x' mass old s).1

/-! ### The caches after a call -/

variable (F : Fns K) (T : Tab K)

/-- Caches after the steps of `globe7`. -/
def latC (x : In K) (c : Cache K) : Cache K :=
  if |c.xl - x.glat| > nearzero then { c with plg := legendre F x.glat, xl := x.glat } else c

def timeC (x : In K) (c : Cache K) : Cache K :=
  if |c.tll - x.lst| > nearzero ∧ dailyOn x then { c with trig := trigOf F x.lst, tll := x.lst } else c

def seasonC (x : In K) (a : Arr) (c : Cache K) : Cache K :=
  let p := T.p a
  let ch := c.gdoy - x.doy ≠ 0
  { c with
    gcd :=
      { cd14 := if ch ∨ |p 13 - c.g14| > nearzero then F.cos (dr * (x.doy - p 13)) else c.gcd.cd14
        cd18 := if ch ∨ |p 17 - c.g18| > nearzero then F.cos (2 * dr * (x.doy - p 17)) else c.gcd.cd18
        cd32 := if ch ∨ |p 31 - c.g32| > nearzero then F.cos (dr * (x.doy - p 31)) else c.gcd.cd32
        cd39 := if ch ∨ |p 38 - c.g39| > nearzero then F.cos (2 * dr * (x.doy - p 38)) else c.gcd.cd39 }
    gdoy := x.doy
    g14 := p 13
    g18 := p 17
    g32 := p 31
    g39 := p 38 }

def dfaC (x : In K) (c : Cache K) : Cache K := { c with dfa := x.f107A - 150 }

def apC (x : In K) (a : Arr) (c : Cache K) : Cache K :=
  let p := T.p a
  if |sw9 x + 1| > nearzero then { c with apdf := apdfOf F p x }
  else if |p 51| > nearzero then
    let q := clamp24 (c.p24 a)
    { c with
      p24 := fun b => if b = a then q else c.p24 b
      apt0 := sg0 F (exp1Of F p x) (p 25) q x.aparr }
  else c

def seasonSC (x : In K) (a : Arr) (c : Cache K) : Cache K :=
  let p := T.p a
  let ch := x.doy - c.sdoy ≠ 0
  { c with
    p99 := fun b => if b = a then (if |c.p99 a| < nearzero then 2 else c.p99 a) else c.p99 b
    scd :=
      { cd14 := if ch ∨ |c.s14 - p 13| > nearzero then F.cos (dr * (x.doy - p 13)) else c.scd.cd14
        cd18 := if ch ∨ |c.s18 - p 17| > nearzero then F.cos (2 * dr * (x.doy - p 17)) else c.scd.cd18
        cd32 := if ch ∨ |c.s32 - p 31| > nearzero then F.cos (dr * (x.doy - p 31)) else c.scd.cd32
        cd39 := if ch ∨ |c.s39 - p 38| > nearzero then F.cos (2 * dr * (x.doy - p 38)) else c.scd.cd39 }
    sdoy := x.doy
    s14 := p 13
    s18 := p 17
    s32 := p 31
    s39 := p 39 }

/-- Caches after `globe7`. -/
def globeC (x : In K) (a : Arr) (c : Cache K) : Cache K :=
  apC F T x a (dfaC x (seasonC F T x a (timeC F x (latC F x c))))

/-- Value of `globe7` with these caches. -/
def globeV (x : In K) (a : Arr) (d : Cache K) : K :=
  globeSum F (T.p a) x d.plg d.dfa d.gcd d.trig d.apdf d.apt0

/-- Value of `glob7s` with these caches. -/
def globsV (x : In K) (a : Arr) (d : Cache K) : K :=
  globsSum F (T.p a) x d.plg d.dfa d.scd d.trig d.apdf d.apt0

theorem latStep_run (x : In K) (s : St K) (c : Cache K) :
    latStep F x (withCache s c) = ((), withCache s (latC F x c)) := by
  unfold latStep latC
  rw [upd_run]
  refine Prod.ext rfl ?_
  show (if |c.xl - x.glat| > nearzero then _ else _) = _
  split <;> rfl

theorem timeStep_run (x : In K) (s : St K) (c : Cache K) :
    timeStep F x (withCache s c) = ((), withCache s (timeC F x c)) := by
  unfold timeStep timeC
  rw [upd_run]
  refine Prod.ext rfl ?_
  show (if |c.tll - x.lst| > nearzero ∧ dailyOn x then _ else _) = _
  split <;> rfl

theorem seasonStep_run (x : In K) (a : Arr) (s : St K) (c : Cache K) :
    seasonStep F T x a (withCache s c) = ((), withCache s (seasonC F T x a c)) := rfl

theorem apStep_run (x : In K) (a : Arr) (s : St K) (c : Cache K) :
    apStep F T x a (withCache s c) = ((), withCache s (apC F T x a c)) := by
  unfold apStep apC
  rw [upd_run]
  refine Prod.ext rfl ?_
  dsimp only
  split
  · rfl
  · split <;> rfl

theorem globe7_run (x : In K) (a : Arr) (s : St K) (c : Cache K) :
    globe7 F T x a (withCache s c) = (globeV F T x a (globeC F T x a c), withCache s (globeC F T x a c)) := by
  unfold globe7
  rw [bind_run, latStep_run]
  dsimp only
  rw [bind_run, timeStep_run]
  dsimp only
  rw [bind_run, seasonStep_run]
  dsimp only
  rw [bind_run, upd_run]
  dsimp only
  rw [bind_run, show ({ withCache s (seasonC F T x a (timeC F x (latC F x c))) with dfa := x.f107A - 150 } : St K) =
    withCache s (dfaC x (seasonC F T x a (timeC F x (latC F x c)))) from rfl, apStep_run]
  rfl

theorem glob7s_run (x : In K) (a : Arr) (s : St K) (c : Cache K) :
    glob7s F T x a (withCache s c) = (globsV F T x a (seasonSC F T x a c), withCache s (seasonSC F T x a c)) := rfl

variable {F T} {C D : Cache K → Cache K → Prop}

theorem globe7_sim {x x' : In K} {a : Arr}
    (h : ∀ c c', C c c' → globeV F T x a (globeC F T x a c) = globeV F T x' a (globeC F T x' a c') ∧
      D (globeC F T x a c) (globeC F T x' a c')) : Sim C D (globe7 F T x a) (globe7 F T x' a) := by
  intro s c c' hc
  rw [globe7_run, globe7_run]
  exact ⟨_, s, _, _, rfl, by rw [(h c c' hc).1], (h c c' hc).2⟩

theorem glob7s_sim {x x' : In K} {a : Arr}
    (h : ∀ c c', C c c' → globsV F T x a (seasonSC F T x a c) = globsV F T x' a (seasonSC F T x' a c') ∧
      D (seasonSC F T x a c) (seasonSC F T x' a c')) : Sim C D (glob7s F T x a) (glob7s F T x' a) := by
  intro s c c' hc
  rw [glob7s_run, glob7s_run]
  exact ⟨_, s, _, _, rfl, by rw [(h c c' hc).1], (h c c' hc).2⟩

variable [IsStrictOrderedRing K]

/-- Equal caches and equal sums. -/
theorem same_of_eq {x x' : In K} (ha : Alike F T x x') (hc : ∀ a c, globeC F T x a c = globeC F T x' a c)
    (hsc : ∀ a c, seasonSC F T x a c = seasonSC F T x' a c)
    (hv : ∀ a d, globeV F T x a (globeC F T x a d) = globeV F T x' a (globeC F T x a d))
    (hw : ∀ a d, globsV F T x a (seasonSC F T x a d) = globsV F T x' a (seasonSC F T x a d)) :
    SameAtmosphere F T x x' := by
  have hg : ∀ a, Sim Eq Eq (globe7 F T x a) (globe7 F T x' a) := by
    refine fun a => globe7_sim ?_
    rintro c c' rfl
    rw [← hc]
    exact ⟨hv a c, rfl⟩
  have hs : ∀ a, Sim Eq Eq (glob7s F T x a) (glob7s F T x' a) := by
    refine fun a => glob7s_sim ?_
    rintro c c' rfl
    rw [← hsc]
    exact ⟨hw a c, rfl⟩
  exact fun tz mass old s => gtd7_same x x' ha (fun a _ => hg a) (hg _) (fun a _ => hg a) (fun a _ => hs a)
    (fun _ => rfl) tz mass old s

/-- Equal caches, of which `P` holds from the first call of `globe7` on. -/
def EqWith (P : Cache K → Prop) (c c' : Cache K) : Prop := c' = c ∧ P c

theorem same_of_eq_with (P : Cache K → Prop) {x x' : In K} (ha : Alike F T x x')
    (hc : ∀ a c, globeC F T x a c = globeC F T x' a c) (hsc : ∀ a c, seasonSC F T x a c = seasonSC F T x' a c)
    (hP : ∀ a c, P (globeC F T x a c)) (hPs : ∀ a c, P c → P (seasonSC F T x a c))
    (hv : ∀ a d, P d → globeV F T x a d = globeV F T x' a d)
    (hw : ∀ a d, P d → globsV F T x a d = globsV F T x' a d) : SameAtmosphere F T x x' := by
  have hwg : ∀ a, Sim Eq (EqWith P) (globe7 F T x a) (globe7 F T x' a) := by
    refine fun a => globe7_sim ?_
    rintro c c' rfl
    rw [← hc]
    exact ⟨hv a _ (hP a c), rfl, hP a c⟩
  have hwe : ∀ a, Sim Eq Eq (globe7 F T x a) (globe7 F T x' a) := by
    refine fun a => globe7_sim ?_
    rintro c c' rfl
    rw [← hc]
    exact ⟨hv a _ (hP a c), rfl⟩
  have hg : ∀ a, Sim (EqWith P) (EqWith P) (globe7 F T x a) (globe7 F T x' a) := by
    refine fun a => globe7_sim ?_
    rintro c c' ⟨rfl, -⟩
    rw [← hc]
    exact ⟨hv a _ (hP a _), rfl, hP a _⟩
  have hs : ∀ a, Sim (EqWith P) (EqWith P) (glob7s F T x a) (glob7s F T x' a) := by
    refine fun a => glob7s_sim ?_
    rintro c c' ⟨rfl, h⟩
    rw [← hsc]
    exact ⟨hw a _ (hPs a _ h), rfl, hPs a _ h⟩
  exact fun tz mass old s => gtd7_same x x' ha (fun a _ => hwe a) (hwg _) (fun a _ => hg a) (fun a _ => hs a)
    (fun _ => rfl) tz mass old s

theorem sw9_zero (x : In K) (h : 0 ≤ x.sw 8) : |sw9 x + 1| > nearzero := by
  have : ¬ x.sw 8 < 0 := not_lt.mpr h
  simp only [sw9, if_neg this, mul_zero, zero_mul, zero_add, abs_one, nearzero]
  norm_num

/-- Caches that differ in `apdf` only. -/
def UpToAp (c c' : Cache K) : Prop := ∃ v, c' = { c with apdf := v }

/-- Caches that differ in `dfa` only. -/
def UpToFlux (c c' : Cache K) : Prop := ∃ v, c' = { c with dfa := v }

/-- Overwrite the seasonal caches. -/
def withSeason (c e : Cache K) : Cache K :=
  { c with
    gdoy := e.gdoy, g14 := e.g14, g18 := e.g18, g32 := e.g32, g39 := e.g39, gcd := e.gcd, sdoy := e.sdoy
    s14 := e.s14, s18 := e.s18, s32 := e.s32, s39 := e.s39, scd := e.scd }

/-- Caches that differ in the seasonal terms only. -/
def UpToSeason (c c' : Cache K) : Prop := ∃ e, c' = withSeason c e

/-! ### C93 -/

/-- **C93** With the effect 9 off, neither longitude nor universal time act. -/
theorem longitude_ut_off (x : In K) (h : Off x 9) (lon sec : K) :
    SameAtmosphere F T x { x with glon := lon, sec := sec } := by
  refine same_of_eq ⟨rfl, rfl, rfl, fun _ _ => rfl, rfl, rfl⟩ (fun _ _ => rfl) (fun _ _ => rfl) ?_ ?_
  · intro a d
    simp only [globeV, globeSum, h.1, abs_zero, lt_irrefl, gt_iff_lt, false_and, if_false]
    rfl
  · intro a d
    simp only [globsV, globsSum, sT10, h.1, abs_zero, lt_irrefl, gt_iff_lt, false_and, if_false]
    rfl

/-- **C93** With the effect 10 off, the longitude does not act. -/
theorem longitude_off (x : In K) (h : Off x 10) (hx : x.glon > -1000) (lon : K) (hl : lon > -1000) :
    SameAtmosphere F T x { x with glon := lon } := by
  refine same_of_eq ⟨rfl, rfl, rfl, fun _ _ => rfl, rfl, rfl⟩ (fun _ _ => rfl) (fun _ _ => rfl) ?_ ?_
  · intro a d
    simp only [globeV, globeSum, gT10, gT11, gT12, h.1, h.2, hx, hl, abs_zero, lt_irrefl, gt_iff_lt, and_true,
      if_false, mul_zero, zero_mul, zero_add, add_zero]
    rfl
  · intro a d
    simp only [globsV, globsSum, sT10, h.1, abs_zero, lt_irrefl, gt_iff_lt, false_and, and_false, if_false]
    rfl

/-- **C93** With the effect 11 off, universal time does not act. -/
theorem ut_off (x : In K) (h : Off x 11) (sec : K) : SameAtmosphere F T x { x with sec := sec } := by
  refine same_of_eq ⟨rfl, rfl, rfl, fun _ _ => rfl, rfl, rfl⟩ (fun _ _ => rfl) (fun _ _ => rfl) ?_ ?_
  · intro a d
    simp only [globeV, globeSum, gT12, h.1, h.2, abs_zero, mul_zero, zero_mul, add_zero]
    rfl
  · intro a d
    rfl

/-- **C93** With the effects 6, 7 and 13 off, local time does not act. -/
theorem local_time_off (x : In K) (h6 : Off x 6) (h7 : Off x 7) (h13 : Off x 13) (lst : K) :
    SameAtmosphere F T x { x with lst := lst } := by
  have hd : ¬ dailyOn x := by simp [dailyOn, h6.1, h7.1, h13.1]
  have hd' : ¬ dailyOn { x with lst := lst } := hd
  have ht : ∀ c, timeC F x c = timeC F { x with lst := lst } c := by
    intro c
    simp only [timeC, hd, hd', and_false, if_false]
  refine same_of_eq ⟨rfl, rfl, rfl, fun _ _ => rfl, rfl, rfl⟩ ?_ (fun _ _ => rfl) ?_ ?_
  · intro a c
    unfold globeC
    rw [ht]
    rfl
  · intro a d
    simp only [globeV, globeSum, gT6, gT7, gT13, gT8, h6.1, h6.2, h7.1, h13.1, abs_zero, mul_zero, zero_mul, add_zero,
      lt_irrefl, gt_iff_lt, if_false]
    rfl
  · intro a d
    rfl

/-- **C93** With the effects 8 and 12 off, magnetic activity does not act. -/
theorem magnetic_off (x : In K) (h8 : Off x 8) (h12 : Off x 12) (ap : K) (aparr : ℕ → K) :
    SameAtmosphere F T x { x with ap := ap, aparr := aparr } := by
  have h9 := sw9_zero x h8.1.ge
  have ha : Alike F T x { x with ap := ap, aparr := aparr } := ⟨rfl, rfl, rfl, fun _ _ => rfl, rfl, rfl⟩
  have hg : ∀ a, Sim UpToAp UpToAp (globe7 F T x a) (globe7 F T { x with ap := ap, aparr := aparr } a) := by
    refine fun a => globe7_sim ?_
    rintro c c' ⟨v, rfl⟩
    have e : globeC F T { x with ap := ap, aparr := aparr } a { c with apdf := v } =
        { globeC F T x a c with apdf := apdfOf F (T.p a) { x with ap := ap, aparr := aparr } } := by
      have e1 : latC F { x with ap := ap, aparr := aparr } { c with apdf := v } = { latC F x c with apdf := v } := by
        unfold latC
        dsimp only
        split <;> rfl
      have e2 : ∀ d : Cache K, timeC F { x with ap := ap, aparr := aparr } { d with apdf := v } =
          { timeC F x d with apdf := v } := by
        intro d
        show (if |d.tll - x.lst| > nearzero ∧ dailyOn x then _ else _) = _
        unfold timeC
        split <;> rfl
      unfold globeC
      rw [e1, e2]
      show apC F T { x with ap := ap, aparr := aparr } a
        { dfaC x (seasonC F T x a (timeC F x (latC F x c))) with apdf := v } = _
      generalize dfaC x (seasonC F T x a (timeC F x (latC F x c))) = d
      unfold apC
      rw [if_pos h9, if_pos (show |sw9 { x with ap := ap, aparr := aparr } + 1| > nearzero from h9)]
    rw [e]
    refine ⟨?_, _, rfl⟩
    generalize globeC F T x a c = d
    simp only [globeV, globeSum, h8.1, h12.1, abs_zero, zero_mul, add_zero]
    rfl
  have hs : ∀ a, Sim UpToAp UpToAp (glob7s F T x a) (glob7s F T { x with ap := ap, aparr := aparr } a) := by
    refine fun a => glob7s_sim ?_
    rintro c c' ⟨v, rfl⟩
    have e : seasonSC F T { x with ap := ap, aparr := aparr } a { c with apdf := v } =
        { seasonSC F T x a c with apdf := v } := rfl
    rw [e]
    refine ⟨?_, v, rfl⟩
    generalize seasonSC F T x a c = d
    simp only [globsV, globsSum, h8.1, abs_zero, zero_mul, add_zero]
    rfl
  exact fun tz mass old s => gtd7_same x _ ha (fun a _ => hg a) (hg _) (fun a _ => hg a) (fun a _ => hs a) (fun c => ⟨c.apdf, rfl⟩) tz mass old s

/-- **C93** With the effect 0 off, the solar flux does not act. -/
theorem flux_off (x : In K) (h : Off x 0) (f107 f107A : K) :
    SameAtmosphere F T x { x with f107 := f107, f107A := f107A } := by
  have ha : Alike F T x { x with f107 := f107, f107A := f107A } :=
    ⟨rfl, rfl, rfl, fun _ _ => rfl, rfl, by simp only [h.1, zero_mul]⟩
  have hg : ∀ a, Sim UpToFlux UpToFlux (globe7 F T x a) (globe7 F T { x with f107 := f107, f107A := f107A } a) := by
    refine fun a => globe7_sim ?_
    rintro c c' ⟨v, rfl⟩
    have e : globeC F T { x with f107 := f107, f107A := f107A } a { c with dfa := v } =
        { globeC F T x a c with dfa := f107A - 150 } := by
      have e1 : latC F { x with f107 := f107, f107A := f107A } { c with dfa := v } = { latC F x c with dfa := v } := by
        unfold latC
        dsimp only
        split <;> rfl
      have e2 : ∀ d : Cache K, timeC F { x with f107 := f107, f107A := f107A } { d with dfa := v } =
          { timeC F x d with dfa := v } := by
        intro d
        show (if |d.tll - x.lst| > nearzero ∧ dailyOn x then _ else _) = _
        unfold timeC
        split <;> rfl
      unfold globeC
      rw [e1, e2]
      show apC F T { x with f107 := f107, f107A := f107A } a
        { seasonC F T x a (timeC F x (latC F x c)) with dfa := f107A - 150 } = _
      unfold dfaC
      generalize seasonC F T x a (timeC F x (latC F x c)) = d
      unfold apC
      show (if |sw9 x + 1| > nearzero then _ else _) = _
      split
      · rfl
      · dsimp only
        split <;> rfl
    rw [e]
    refine ⟨?_, _, rfl⟩
    generalize globeC F T x a c = d
    simp only [globeV, globeSum, gF1, gF2, gT6, gT7, gT13, gT10, gT11, h.1, h.2, abs_zero, zero_mul, mul_zero, add_zero]
    rfl
  have hs : ∀ a, Sim UpToFlux UpToFlux (glob7s F T x a) (glob7s F T { x with f107 := f107, f107A := f107A } a) := by
    refine fun a => glob7s_sim ?_
    rintro c c' ⟨v, rfl⟩
    have e : seasonSC F T { x with f107 := f107, f107A := f107A } a { c with dfa := v } =
        { seasonSC F T x a c with dfa := v } := rfl
    rw [e]
    refine ⟨?_, v, rfl⟩
    generalize seasonSC F T x a c = d
    simp only [globsV, globsSum, h.1, abs_zero, zero_mul]
    rfl
  exact fun tz mass old s => gtd7_same x _ ha (fun a _ => hg a) (hg _) (fun a _ => hg a) (fun a _ => hs a) (fun c => ⟨c.dfa, rfl⟩) tz mass old s

/-- **C93** With the effects 2 to 5 off, the day of the year does not act. -/
theorem season_off (x : In K) (h2 : Off x 2) (h3 : Off x 3) (h4 : Off x 4) (h5 : Off x 5) (doy : ℤ) :
    SameAtmosphere F T x { x with doy := doy } := by
  have ha : Alike F T x { x with doy := doy } :=
    ⟨rfl, rfl, rfl, fun _ _ => rfl, by simp only [h4.1, zero_mul], rfl⟩
  have hg : ∀ a, Sim UpToSeason UpToSeason (globe7 F T x a) (globe7 F T { x with doy := doy } a) := by
    refine fun a => globe7_sim ?_
    rintro c c' ⟨e0, rfl⟩
    have e : ∃ e1, globeC F T { x with doy := doy } a (withSeason c e0) = withSeason (globeC F T x a c) e1 := by
      have e1 : latC F { x with doy := doy } (withSeason c e0) = withSeason (latC F x c) e0 := by
        show (if |c.xl - x.glat| > nearzero then _ else _) = _
        unfold latC
        split <;> rfl
      have e2 : ∀ d : Cache K, timeC F { x with doy := doy } (withSeason d e0) = withSeason (timeC F x d) e0 := by
        intro d
        show (if |d.tll - x.lst| > nearzero ∧ dailyOn x then _ else _) = _
        unfold timeC
        split <;> rfl
      have e3 : ∀ d : Cache K, ∃ e1, dfaC { x with doy := doy } (seasonC F T { x with doy := doy } a (withSeason d e0)) =
          withSeason (dfaC x (seasonC F T x a d)) e1 := fun d =>
        ⟨dfaC { x with doy := doy } (seasonC F T { x with doy := doy } a (withSeason d e0)), rfl⟩
      unfold globeC
      rw [e1, e2]
      obtain ⟨e1, h⟩ := e3 (timeC F x (latC F x c))
      rw [h]
      generalize dfaC x (seasonC F T x a (timeC F x (latC F x c))) = d
      refine ⟨e1, ?_⟩
      show (if |sw9 x + 1| > nearzero then _ else _) = _
      unfold apC
      split
      · rfl
      · dsimp only
        split <;> rfl
    obtain ⟨e1, e⟩ := e
    rw [e]
    refine ⟨?_, _, rfl⟩
    generalize globeC F T x a c = d
    simp only [globeV, globeSum, gT6, gT7, gT13, gT8, gT10, gT11, gT12, h2.1, h3.1, h4.1, h5.1, h4.2, abs_zero,
      zero_mul, mul_zero, add_zero]
    rfl
  have hs : ∀ a, Sim UpToSeason UpToSeason (glob7s F T x a) (glob7s F T { x with doy := doy } a) := by
    refine fun a => glob7s_sim ?_
    rintro c c' ⟨e0, rfl⟩
    have e : ∃ e1, seasonSC F T { x with doy := doy } a (withSeason c e0) = withSeason (seasonSC F T x a c) e1 :=
      ⟨seasonSC F T { x with doy := doy } a (withSeason c e0), rfl⟩
    obtain ⟨e1, e⟩ := e
    rw [e]
    refine ⟨?_, _, rfl⟩
    generalize seasonSC F T x a c = d
    simp only [globsV, globsSum, sT6, sT7, sT10, h2.1, h3.1, h4.1, h5.1, h2.2, h3.2, h4.2, h5.2, abs_zero, zero_mul,
      mul_zero, add_zero]
    rfl
  exact fun tz mass old s => gtd7_same x _ ha (fun a _ => hg a) (hg _) (fun a _ => hg a) (fun a _ => hs a) (fun c => ⟨c, rfl⟩) tz mass old s

/-! ### C94 -/

section

variable (x : In K) (l : List ℕ)

omit [LinearOrder K] [IsStrictOrderedRing K] in
theorem off_mem {k : ℕ} (h : k ∈ l) : (switchOff x l).sw k = 0 ∧ (switchOff x l).swc k = 0 := by
  simp [switchOff, h]

omit [LinearOrder K] [IsStrictOrderedRing K] in
theorem off_not {k : ℕ} (h : k ∉ l) : (switchOff x l).sw k = x.sw k ∧ (switchOff x l).swc k = x.swc k := by
  simp [switchOff, h]

end

/-- **C94** At the reference flux of 150 the effect of the flux is none: the atmosphere is that with the effect
switched off. -/
theorem reference_flux (x : In K) (h : x.f107 = 150) (hA : x.f107A = 150) :
    SameAtmosphere F T x (switchOff x [0]) := by
  have n : ∀ k, k ≠ 0 → (switchOff x [0]).sw k = x.sw k ∧ (switchOff x [0]).swc k = x.swc k :=
    fun k hk => off_not x [0] (by simpa using hk)
  have o := off_mem x [0] (k := 0) (by simp)
  have ha : Alike F T x (switchOff x [0]) := by
    refine ⟨rfl, rfl, rfl, fun k hk => (n k (by omega)).1, by rw [(n 4 (by omega)).1]; rfl, ?_⟩
    rw [o.1, hA]
    ring
  have hd : dailyOn (switchOff x [0]) = dailyOn x := by
    simp only [dailyOn, (n 6 (by omega)).1, (n 7 (by omega)).1, (n 13 (by omega)).1]
  have h9 : sw9 (switchOff x [0]) = sw9 x := by
    simp only [sw9, (n 8 (by omega)).1]
  have hc : ∀ a c, globeC F T x a c = globeC F T (switchOff x [0]) a c := by
    intro a c
    have e2 : ∀ d, timeC F (switchOff x [0]) d = timeC F x d := by
      intro d
      simp only [timeC, hd]
      rfl
    have e3 : ∀ d, apC F T (switchOff x [0]) a d = apC F T x a d := by
      intro d
      simp only [apC, h9]
      rfl
    unfold globeC
    rw [e2, e3]
    rfl
  refine same_of_eq_with (fun c => c.dfa = 0) ha hc (fun _ _ => rfl) ?_ (fun _ _ h => h) ?_ ?_
  · intro a d
    unfold globeC apC dfaC
    dsimp only
    split
    · simp [hA]
    · split <;> simp [hA]
  · intro a d e
    simp only [globeV, globeSum, gT0, gF1, gF2, gT6, gT7, gT13, gT10, gT11, gT8, gT12, e, h, hA, o.1, o.2, h9, sub_self,
      mul_zero, zero_mul, add_zero, abs_zero, (n 1 (by omega)).1, (n 2 (by omega)).1, (n 3 (by omega)).1,
      (n 4 (by omega)), (n 5 (by omega)).1, (n 6 (by omega)), (n 7 (by omega)).1, (n 8 (by omega)).1,
      (n 9 (by omega)).1, (n 10 (by omega)), (n 11 (by omega)), (n 12 (by omega)).1, (n 13 (by omega)).1]
    rfl
  · intro a d e
    simp only [globsV, globsSum, sT6, sT7, sT13, sT10, sT8, e, o.1, o.2, h9, mul_zero, zero_mul, add_zero,
      (n 1 (by omega)).1, (n 2 (by omega)).1, (n 3 (by omega)).1,
      (n 4 (by omega)), (n 5 (by omega)).1, (n 6 (by omega)), (n 7 (by omega)).1, (n 8 (by omega)).1,
      (n 9 (by omega)).1, (n 10 (by omega)), (n 11 (by omega)), (n 12 (by omega)).1, (n 13 (by omega)).1]
    rfl

/-- **C94** At the reference index of 4 magnetic activity has no effect: the atmosphere is that with the effects
switched off. -/
theorem reference_ap (x : In K) (hF : F.exp 0 = 1) (h8 : 0 ≤ x.sw 8) (h : x.ap = 4) :
    SameAtmosphere F T x (switchOff x [8, 12]) := by
  have n : ∀ k, k ≠ 8 → k ≠ 12 → (switchOff x [8, 12]).sw k = x.sw k ∧ (switchOff x [8, 12]).swc k = x.swc k :=
    fun k hk hk' => off_not x [8, 12] (by simp [hk, hk'])
  have o := off_mem x [8, 12] (k := 8) (by simp)
  have o12 := off_mem x [8, 12] (k := 12) (by simp)
  have ha : Alike F T x (switchOff x [8, 12]) := by
    refine ⟨rfl, rfl, rfl, fun k hk => (n k (by omega) (by omega)).1, by rw [(n 4 (by omega) (by omega)).1]; rfl, ?_⟩
    rw [(n 0 (by omega) (by omega)).1]
    rfl
  have hd : dailyOn (switchOff x [8, 12]) = dailyOn x := by
    simp only [dailyOn, (n 6 (by omega) (by omega)).1, (n 7 (by omega) (by omega)).1, (n 13 (by omega) (by omega)).1]
  have h9 : sw9 (switchOff x [8, 12]) = sw9 x := by
    simp only [sw9, o.1, lt_irrefl, if_neg (not_lt.mpr h8), if_false]
  have hs9 := sw9_zero x h8
  have h0 : ∀ a, apdfOf F (T.p a) x = 0 := by
    intro a
    simp only [apdfOf, h, sub_self, mul_zero, hF, zero_div, add_zero]
  have hc : ∀ a c, globeC F T x a c = globeC F T (switchOff x [8, 12]) a c := by
    intro a c
    have e2 : ∀ d, timeC F (switchOff x [8, 12]) d = timeC F x d := by
      intro d
      simp only [timeC, hd]
      rfl
    have e3 : ∀ d, apC F T (switchOff x [8, 12]) a d = apC F T x a d := by
      intro d
      simp only [apC, h9]
      rfl
    unfold globeC
    rw [e2, e3]
    rfl
  refine same_of_eq_with (fun c => c.apdf = 0) ha hc (fun _ _ => rfl) ?_ (fun _ _ h => h) ?_ ?_
  · intro a d
    unfold globeC apC
    rw [if_pos hs9]
    exact h0 a
  · intro a d e
    simp only [globeV, globeSum, gT0, gF1, gF2, gT6, gT7, gT13, gT10, gT11, gT8, gT12, e, h9, hs9, if_true, o.1, o12.1,
      mul_zero, zero_mul, add_zero, abs_zero, ite_self, (n 0 (by omega) (by omega)), (n 1 (by omega) (by omega)).1,
      (n 2 (by omega) (by omega)).1, (n 3 (by omega) (by omega)).1,
      (n 4 (by omega) (by omega)), (n 5 (by omega) (by omega)).1, (n 6 (by omega) (by omega)),
      (n 7 (by omega) (by omega)).1,
      (n 9 (by omega) (by omega)).1, (n 10 (by omega) (by omega)), (n 11 (by omega) (by omega)),
      (n 13 (by omega) (by omega)).1]
    rfl
  · intro a d e
    simp only [globsV, globsSum, sT6, sT7, sT13, sT10, sT8, e, o.1, h9, if_neg (not_lt.mpr h8), abs_zero, mul_zero, zero_mul, add_zero,
      (n 0 (by omega) (by omega)), (n 1 (by omega) (by omega)).1, (n 2 (by omega) (by omega)).1,
      (n 3 (by omega) (by omega)).1, ite_self,
      (n 4 (by omega) (by omega)), (n 5 (by omega) (by omega)).1, (n 6 (by omega) (by omega)),
      (n 7 (by omega) (by omega)).1,
      (n 9 (by omega) (by omega)).1, (n 10 (by omega) (by omega)), (n 11 (by omega) (by omega)),
      (n 13 (by omega) (by omega)).1]
    rfl

/-- Caches that differ in what the magnetic indexes act through. -/
def UpToAps (c c' : Cache K) : Prop := ∃ v w q, c' = { c with apdf := v, apt0 := w, p24 := q }

/-- The same, with the disturbance from the array zero. -/
def UpToApsZero (c c' : Cache K) : Prop := UpToAps c c' ∧ c.apt0 = 0

/-- **C94** When the whole array of indexes is at the reference of 4 (the switch of magnetic activity negative),
magnetic activity has no effect. -/
theorem reference_aparr (hT : TabOk T) (x : In K) (hF : F.exp 0 = 1) (h8 : x.sw 8 < 0)
    (h : ∀ k, 1 ≤ k → k ≤ 6 → x.aparr k = 4) : SameAtmosphere F T x (switchOff x [8, 12]) := by
  have n : ∀ k, k ≠ 8 → k ≠ 12 → (switchOff x [8, 12]).sw k = x.sw k ∧ (switchOff x [8, 12]).swc k = x.swc k :=
    fun k hk hk' => off_not x [8, 12] (by simp [hk, hk'])
  have o := off_mem x [8, 12] (k := 8) (by simp)
  have o12 := off_mem x [8, 12] (k := 12) (by simp)
  have ha : Alike F T x (switchOff x [8, 12]) := by
    refine ⟨rfl, rfl, rfl, fun k hk => (n k (by omega) (by omega)).1, by rw [(n 4 (by omega) (by omega)).1]; rfl, ?_⟩
    rw [(n 0 (by omega) (by omega)).1]
    rfl
  have hd : dailyOn (switchOff x [8, 12]) = dailyOn x := by
    simp only [dailyOn, (n 6 (by omega) (by omega)).1, (n 7 (by omega) (by omega)).1, (n 13 (by omega) (by omega)).1]
  have h9 : |sw9 (switchOff x [8, 12]) + 1| > nearzero := sw9_zero _ o.1.ge
  have hs9 : ¬ |sw9 x + 1| > nearzero := by
    simp only [sw9, if_pos h8, nearzero]
    norm_num
  have h0 : ∀ ex p25 q, sg0 F ex p25 q x.aparr = 0 := by
    intro ex p25 q
    have g : g0 F 4 p25 q = 0 := by
      simp only [g0, sub_self, mul_zero, hF, zero_div, add_zero]
    simp only [sg0, h 1 (by omega) (by omega), h 2 (by omega) (by omega), h 3 (by omega) (by omega),
      h 4 (by omega) (by omega), h 5 (by omega) (by omega), h 6 (by omega) (by omega), g, zero_mul, zero_div, add_zero]
  have hx : ∀ a c c', UpToAps c c' → UpToAps (globeC F T x a c) (globeC F T (switchOff x [8, 12]) a c') := by
    rintro a c c' ⟨v, w, q, rfl⟩
    have e1 : latC F (switchOff x [8, 12]) { c with apdf := v, apt0 := w, p24 := q } =
        { latC F x c with apdf := v, apt0 := w, p24 := q } := by
      show (if |c.xl - x.glat| > nearzero then _ else _) = _
      unfold latC
      split <;> rfl
    have e2 : ∀ d : Cache K, timeC F (switchOff x [8, 12]) { d with apdf := v, apt0 := w, p24 := q } =
        { timeC F x d with apdf := v, apt0 := w, p24 := q } := by
      intro d
      simp only [timeC, hd]
      show (if |d.tll - x.lst| > nearzero ∧ dailyOn x then _ else _) = _
      split <;> rfl
    unfold globeC
    rw [e1, e2]
    show UpToAps (apC F T x a (dfaC x (seasonC F T x a (timeC F x (latC F x c))))) (apC F T (switchOff x [8, 12]) a
      { dfaC x (seasonC F T x a (timeC F x (latC F x c))) with apdf := v, apt0 := w, p24 := q })
    generalize dfaC x (seasonC F T x a (timeC F x (latC F x c))) = d
    unfold apC
    rw [if_neg hs9, if_pos h9]
    dsimp only
    split
    · exact ⟨_, _, _, rfl⟩
    · exact ⟨_, _, _, rfl⟩
  have hz : ∀ a c, |T.p a 51| > nearzero ∨ c.apt0 = 0 → (globeC F T x a c).apt0 = 0 := by
    intro a c hc
    have : (dfaC x (seasonC F T x a (timeC F x (latC F x c)))).apt0 = c.apt0 := by
      show (timeC F x (latC F x c)).apt0 = c.apt0
      have e2 : ∀ d, (timeC F x d).apt0 = d.apt0 := by
        intro d
        unfold timeC
        split <;> rfl
      rw [e2]
      unfold latC
      split <;> rfl
    unfold globeC
    generalize dfaC x (seasonC F T x a (timeC F x (latC F x c))) = d at this
    unfold apC
    rw [if_neg hs9]
    dsimp only
    split
    · exact h0 _ _ _
    · rename_i hp
      rcases hc with hc | hc
      · exact absurd hc hp
      · rw [this, hc]
  have hv : ∀ a d d', UpToAps d d' → T.p a 51 = 0 ∨ d.apt0 = 0 →
      globeV F T x a d = globeV F T (switchOff x [8, 12]) a d' := by
    rintro a d _ ⟨v, w, q, rfl⟩ hz
    have e8 : gT8 F (T.p a) x d.plg d.gcd d.apdf d.apt0 = 0 := by
      unfold gT8
      rw [if_neg hs9]
      rcases hz with hz | hz
      · rw [if_neg]
        rw [hz, abs_zero, nearzero]
        norm_num
      · simp only [hz, zero_mul, ite_self]
    have e12 : gT12 F (T.p a) x d.plg d.gcd d.apdf d.apt0 = 0 := by
      unfold gT12
      rw [if_neg hs9]
      rcases hz with hz | hz
      · rw [if_neg (c := T.p a 51 ≠ 0) (not_not.mpr hz), ite_self]
      · simp only [hz, zero_mul, add_zero, ite_self]
    simp only [globeV, globeSum, e8, e12]
    simp only [gT0, gF1, gF2, gT6, gT7, gT13, gT10, gT11, o.1, o12.1,
      mul_zero, zero_mul, add_zero, abs_zero, ite_self, (n 0 (by omega) (by omega)), (n 1 (by omega) (by omega)).1,
      (n 2 (by omega) (by omega)).1, (n 3 (by omega) (by omega)).1,
      (n 4 (by omega) (by omega)), (n 5 (by omega) (by omega)).1, (n 6 (by omega) (by omega)),
      (n 7 (by omega) (by omega)).1,
      (n 9 (by omega) (by omega)).1, (n 10 (by omega) (by omega)), (n 11 (by omega) (by omega)),
      (n 13 (by omega) (by omega)).1]
    rfl
  have hw : ∀ a d d', UpToAps d d' → d.apt0 = 0 → globsV F T x a d = globsV F T (switchOff x [8, 12]) a d' := by
    rintro a d _ ⟨v, w, q, rfl⟩ hz
    simp only [globsV, globsSum, sT6, sT7, sT13, sT10, sT8, hz, o.1, if_pos h8, abs_zero, mul_zero, zero_mul, add_zero,
      (n 0 (by omega) (by omega)), (n 1 (by omega) (by omega)).1, (n 2 (by omega) (by omega)).1,
      (n 3 (by omega) (by omega)).1, ite_self,
      (n 4 (by omega) (by omega)), (n 5 (by omega) (by omega)).1, (n 6 (by omega) (by omega)),
      (n 7 (by omega) (by omega)).1,
      (n 9 (by omega) (by omega)).1, (n 10 (by omega) (by omega)), (n 11 (by omega) (by omega)),
      (n 13 (by omega) (by omega)).1]
    rfl
  have hwe : ∀ a, GArr a → Sim UpToAps UpToAps (globe7 F T x a) (globe7 F T (switchOff x [8, 12]) a) := by
    refine fun a hA => globe7_sim ?_
    intro c c' hc
    refine ⟨hv a _ _ (hx a _ _ hc) ?_, hx a _ _ hc⟩
    rcases hT.p51 a hA with hp | hp
    · exact Or.inl hp
    · exact Or.inr (hz a c (Or.inl hp))
  have h3 : Sim UpToAps UpToApsZero (globe7 F T x (.pd 3)) (globe7 F T (switchOff x [8, 12]) (.pd 3)) := by
    refine globe7_sim ?_
    intro c c' hc
    have := hz (.pd 3) c (Or.inl hT.pd3)
    exact ⟨hv _ _ _ (hx _ _ _ hc) (Or.inr this), hx _ _ _ hc, this⟩
  have hg : ∀ a, Sim UpToApsZero UpToApsZero (globe7 F T x a) (globe7 F T (switchOff x [8, 12]) a) := by
    refine fun a => globe7_sim ?_
    rintro c c' ⟨hc, hc0⟩
    have := hz a c (Or.inr hc0)
    exact ⟨hv _ _ _ (hx _ _ _ hc) (Or.inr this), hx _ _ _ hc, this⟩
  have hs : ∀ a, Sim UpToApsZero UpToApsZero (glob7s F T x a) (glob7s F T (switchOff x [8, 12]) a) := by
    refine fun a => glob7s_sim ?_
    rintro c c' ⟨hc, hc0⟩
    have hy : UpToAps (seasonSC F T x a c) (seasonSC F T (switchOff x [8, 12]) a c') := by
      obtain ⟨v, w, q, rfl⟩ := hc
      exact ⟨v, w, q, rfl⟩
    exact ⟨hw _ _ _ hy hc0, hy, hc0⟩
  exact fun tz mass old s => gtd7_same x _ ha hwe h3 (fun a _ => hg a) (fun a _ => hs a)
    (fun c => ⟨c.apdf, c.apt0, c.p24, rfl⟩) tz mass old s

/-! ### Instances -/

/-- With these tables and functions, at flux 150 and index 4, the answer is that without either effect. -/
example (alt : ℝ) : SameAtmosphere realFns tabR { sampleIn 10 5 alt 200 with f107 := 150, ap := 4 }
    (switchOff (switchOff { sampleIn 10 5 alt 200 with f107 := 150, ap := 4 } [0]) [8, 12]) := by
  intro tz mass old s
  rw [reference_flux { sampleIn 10 5 alt 200 with f107 := 150, ap := 4 } rfl rfl tz mass old s]
  exact reference_ap _ Real.exp_zero (by simp [switchOff, sampleIn]) rfl tz mass old s

example (alt : ℝ) : SameAtmosphere realFns tabR
    { sampleIn 10 5 alt 200 with sw := fun k => if k = 8 then -1 else 1, aparr := fun _ => 4 }
    (switchOff { sampleIn 10 5 alt 200 with sw := fun k => if k = 8 then -1 else 1, aparr := fun _ => 4 } [8, 12]) :=
  reference_aparr tabR_ok _ Real.exp_zero (by simp) (fun _ _ _ => rfl)

/-- Without the effect 9, two places on a parallel have the same atmosphere. -/
example (alt : ℝ) : SameAtmosphere realFns tabR (switchOff (sampleIn 10 5 alt 200) [9])
    { switchOff (sampleIn 10 5 alt 200) [9] with glon := 120, sec := 0 } :=
  longitude_ut_off _ ⟨by simp [switchOff], by simp [switchOff]⟩ _ _

example (alt : ℝ) : SameAtmosphere realFns tabR (switchOff (sampleIn 10 5 alt 200) [0, 8, 12])
    { switchOff (sampleIn 10 5 alt 200) [0, 8, 12] with ap := 400, aparr := fun _ => 400 } :=
  magnetic_off _ ⟨by simp [switchOff], by simp [switchOff]⟩ ⟨by simp [switchOff], by simp [switchOff]⟩ _ _

end Verif.Atmosphere.Msis
