import Verif.Atmosphere.EffectProps
import Mathlib.Algebra.Polynomial.Derivative
import Mathlib.Tactic.FieldSimp

/-
C111: the atmosphere is a function on the sphere: latitude enters through the associated Legendre functions, a full turn in
longitude changes nothing, and at the poles neither longitude nor local time act.
-/
namespace Verif.Atmosphere.Msis

open Data Polynomial

variable {K : Type} [Field K] [LinearOrder K]

/-! ### Specification -/

/-- Legendre polynomials, by Bonnet's recursion. -/
noncomputable def legendreP (K : Type) [Field K] : ℕ → K[X]
  | 0 => 1
  | 1 => X
  | n + 2 => C (((n : K) + 2)⁻¹) * (C (2 * (n : K) + 3) * (legendreP K (n + 1) * X) - C ((n : K) + 1) * legendreP K n)

/-- Associated Legendre function of the latitude with sine `c` and cosine `s`, without the sign of Condon and Shortley. -/
noncomputable def assoc (n m : ℕ) (c s : K) : K := s ^ m * (derivative^[m] (legendreP K n)).eval c

/-- The library functions have the period `P`, which is a full turn of degrees. -/
structure Turn (F : Fns K) (P : K) : Prop where
  deg : ∀ u, F.deg2rad (u + 360) = F.deg2rad u + P
  sin : ∀ u, F.sin (u + P) = F.sin u
  cos : ∀ u, F.cos (u + P) = F.cos u

/-- The Legendre functions of a state belong to the latitude asked for, or will be computed. -/
def LatOk (F : Fns K) (x : In K) (s : St K) : Prop :=
  |s.xl - x.glat| > nearzero ∨ s.plg = legendre F x.glat

/-! ### Legendre functions -/

/-- Value of the `m`-th derivative. -/
noncomputable def ev (c : K) (n m : ℕ) : K := (derivative^[m] (legendreP K n)).eval c

theorem ev_step (c : K) (n m : ℕ) : ev c (n + 2) m =
    ((n : K) + 2)⁻¹ * ((2 * (n : K) + 3) * (ev c (n + 1) m * c + m * ev c (n + 1) (m - 1)) - ((n : K) + 1) * ev c n m) := by
  unfold ev
  rw [legendreP, iterate_derivative_C_mul, iterate_derivative_sub, iterate_derivative_C_mul, iterate_derivative_C_mul,
    iterate_derivative_mul_X]
  simp

theorem ev_zero_zero (c : K) : ev c 0 0 = 1 := by simp [ev, legendreP]

theorem ev_zero_succ (c : K) (m : ℕ) : ev c 0 (m + 1) = 0 := by
  unfold ev
  rw [legendreP, iterate_derivative_one (by omega)]
  simp

theorem ev_one_zero (c : K) : ev c 1 0 = c := by simp [ev, legendreP]

theorem ev_one_one (c : K) : ev c 1 1 = 1 := by simp [ev, legendreP]

theorem ev_one_succ (c : K) (m : ℕ) : ev c 1 (m + 2) = 0 := by
  unfold ev
  rw [legendreP, iterate_derivative_X (by omega)]
  simp

variable [IsStrictOrderedRing K]

/-- **C111** The latitude functions are the associated Legendre functions. -/
theorem plg_legendre (F : Fns K) (lat : K) :
    let P := fun n m => assoc n m (F.sin (F.deg2rad lat)) (F.cos (F.deg2rad lat))
    legendre F lat =
      { p01 := P 1 0, p02 := P 2 0, p03 := P 3 0, p04 := P 4 0, p05 := P 5 0, p06 := P 6 0
        p11 := P 1 1, p12 := P 2 1, p13 := P 3 1, p14 := P 4 1, p15 := P 5 1, p16 := P 6 1
        p22 := P 2 2, p23 := P 3 2, p24 := P 4 2, p25 := P 5 2, p26 := P 6 2, p27 := P 7 2
        p33 := P 3 3, p34 := P 4 3, p35 := P 5 3, p36 := P 6 3 } := by
  intro P
  generalize hc : F.sin (F.deg2rad lat) = c at *
  generalize hs : F.cos (F.deg2rad lat) = s at *
  have hP : ∀ n m, P n m = s ^ m * ev c n m := fun n m => by rw [← hc, ← hs]; rfl
  have e20 := ev_step c 0 0
  have e30 := ev_step c 1 0
  have e40 := ev_step c 2 0
  have e50 := ev_step c 3 0
  have e60 := ev_step c 4 0
  have e21 := ev_step c 0 1
  have e31 := ev_step c 1 1
  have e41 := ev_step c 2 1
  have e51 := ev_step c 3 1
  have e61 := ev_step c 4 1
  have e71 := ev_step c 5 1
  have e22 := ev_step c 0 2
  have e32 := ev_step c 1 2
  have e42 := ev_step c 2 2
  have e52 := ev_step c 3 2
  have e62 := ev_step c 4 2
  have e72 := ev_step c 5 2
  have e23 := ev_step c 0 3
  have e33 := ev_step c 1 3
  have e43 := ev_step c 2 3
  have e53 := ev_step c 3 3
  have e63 := ev_step c 4 3
  norm_num [ev_zero_zero, ev_zero_succ c 0, ev_zero_succ c 1, ev_zero_succ c 2, ev_one_zero, ev_one_one, ev_one_succ c 0,
    ev_one_succ c 1] at e20 e30 e40 e50 e60 e21 e31 e41 e51 e61 e71 e22 e32 e42 e52 e62 e72 e23 e33 e43 e53 e63
  simp only [legendre, hc, hs, hP, Plg.mk.injEq, ev_one_zero, ev_one_one, e20, e30, e40, e50, e60, e21, e31, e41, e51, e61,
    e22, e32, e42, e52, e62, e72, e23, e33, e43, e53, e63]
  refine ⟨?_, ?_, ?_, ?_, ?_, ?_, ?_, ?_, ?_, ?_, ?_, ?_, ?_, ?_, ?_, ?_, ?_, ?_, ?_, ?_, ?_, ?_⟩ <;> ring

/-! ### Longitude -/

/-- **C111** A full turn in longitude changes nothing. -/
theorem longitude_turn {F : Fns K} {T : Tab K} {P : K} (hF : Turn F P) (x : In K) (hx : x.glon > -1000) :
    SameAtmosphere F T x { x with glon := x.glon + 360 } := by
  have hl : x.glon + 360 > -1000 := by linarith
  have hd : ∀ q, F.deg2rad (x.glon + 360 - q) = F.deg2rad (x.glon - q) + P := by
    intro q
    rw [← hF.deg]
    congr 1
    ring
  have h2 : ∀ q, F.cos (sr * (x.sec - q) + 2 * (F.deg2rad x.glon + P)) = F.cos (sr * (x.sec - q) + 2 * F.deg2rad x.glon) := by
    intro q
    rw [show sr * (x.sec - q) + 2 * (F.deg2rad x.glon + P) = sr * (x.sec - q) + 2 * F.deg2rad x.glon + P + P by ring,
      hF.cos, hF.cos]
  refine same_of_eq ⟨rfl, rfl, rfl, fun _ _ => rfl, rfl, rfl⟩ (fun _ _ => rfl) (fun _ _ => rfl) ?_ ?_
  · intro a d
    simp only [globeV, globeSum, gT10, gT11, gT12, hx, hl, hF.deg, hF.sin, hF.cos, hd, h2]
    rfl
  · intro a d
    simp only [globsV, globsSum, sT10, hx, hl, hF.deg, hF.sin, hF.cos]
    rfl

/-! ### Poles -/

/-- Legendre functions of order 1 to 3 vanish. -/
structure Flat (g : Plg K) : Prop where
  h11 : g.p11 = 0
  h12 : g.p12 = 0
  h13 : g.p13 = 0
  h14 : g.p14 = 0
  h15 : g.p15 = 0
  h16 : g.p16 = 0
  h22 : g.p22 = 0
  h23 : g.p23 = 0
  h24 : g.p24 = 0
  h25 : g.p25 = 0
  h27 : g.p27 = 0
  h33 : g.p33 = 0
  h34 : g.p34 = 0
  h36 : g.p36 = 0

omit [LinearOrder K] [IsStrictOrderedRing K] in
theorem flat_pole (F : Fns K) (lat : K) (h : F.cos (F.deg2rad lat) = 0) : Flat (legendre F lat) := by
  constructor <;> simp [legendre, h]

/-- Caches that differ in the functions of local time only. -/
def UpToTime (c c' : Cache K) : Prop := ∃ l t, c' = { c with tll := l, trig := t }

variable {F : Fns K} {T : Tab K}

omit [IsStrictOrderedRing K] in
theorem globeSum_flat (p : ℕ → K) (x : In K) (lon lst : K) (hx : x.glon > -1000) (hl : lon > -1000) (g : Plg K) (hg : Flat g)
    (dfa : K) (c : Cds K) (τ τ' : Trig K) (u v : K) :
    globeSum F p x g dfa c τ u v = globeSum F p { x with glon := lon, lst := lst } g dfa c τ' u v := by
  simp only [globeSum, gT6, gT7, gT13, gT8, gT10, gT11, gT12, gF1, gF2, gT0, sw9, hg.h11, hg.h12, hg.h13, hg.h14, hg.h15, hg.h16,
    hg.h22, hg.h23, hg.h24, hg.h25, hg.h27, hg.h33, hg.h34, hg.h36, hx, hl, mul_zero, zero_mul, add_zero, zero_add, ite_self,
    and_true]

omit [IsStrictOrderedRing K] in
theorem globsSum_flat (p : ℕ → K) (x : In K) (lon lst : K) (hx : x.glon > -1000) (hl : lon > -1000) (g : Plg K) (hg : Flat g)
    (dfa : K) (c : Cds K) (τ τ' : Trig K) (u v : K) :
    globsSum F p x g dfa c τ u v = globsSum F p { x with glon := lon, lst := lst } g dfa c τ' u v := by
  simp only [globsSum, sT6, sT7, sT13, sT8, sT10, hg.h11, hg.h12, hg.h13, hg.h14, hg.h15, hg.h16,
    hg.h22, hg.h23, hg.h24, hg.h25, hg.h33, mul_zero, zero_mul, add_zero, zero_add, ite_self]

/-- **C111** At the poles neither longitude nor local time act, from every state whose Legendre functions are those of the
pole or are computed anew. -/
theorem pole_same (x : In K) (hp : F.cos (F.deg2rad x.glat) = 0) (hx : x.glon > -1000) (lon lst : K) (hl : lon > -1000)
    (tz : K) (mass : ℤ) (old : Out K) (s : St K) (hs : LatOk F x s) :
    (gtd7 F T tz x mass old s).1 = (gtd7 F T tz { x with glon := lon, lst := lst } mass old s).1 := by
  have hf := flat_pole F x.glat hp
  let Q : Cache K → Prop := fun c => |c.xl - x.glat| > nearzero ∨ Flat c.plg
  let W : Cache K → Cache K → Prop := fun c c' => UpToTime c c' ∧ Q c
  let S : Cache K → Cache K → Prop := fun c c' => UpToTime c c' ∧ Flat c.plg
  have e : ∀ a c c', UpToTime c c' → UpToTime (globeC F T x a c) (globeC F T { x with glon := lon, lst := lst } a c') := by
    rintro a c c' ⟨l, t, rfl⟩
    have e1 : latC F { x with glon := lon, lst := lst } { c with tll := l, trig := t } =
        { latC F x c with tll := l, trig := t } := by
      unfold latC
      dsimp only
      split <;> rfl
    have e2 : ∀ d : Cache K, UpToTime (timeC F x d) (timeC F { x with glon := lon, lst := lst } { d with tll := l, trig := t }) := by
      intro d
      unfold timeC
      split <;> split <;> exact ⟨_, _, rfl⟩
    unfold globeC
    rw [e1]
    obtain ⟨l', t', e3⟩ := e2 (latC F x c)
    rw [e3]
    generalize timeC F x (latC F x c) = d
    refine ⟨l', t', ?_⟩
    show apC F T x a _ = _
    unfold apC
    dsimp only
    split
    · rfl
    · split <;> rfl
  have fl : ∀ a c, Q c → Flat (globeC F T x a c).plg := by
    intro a c hq
    have h1 : (globeC F T x a c).plg = (latC F x c).plg := by
      unfold globeC apC dfaC seasonC timeC
      dsimp only
      split
      · split <;> rfl
      · split
        · split <;> rfl
        · split <;> rfl
    rw [h1]
    unfold latC
    split
    · exact hf
    · next h => exact hq.resolve_left h
  have hgv : ∀ a c c', W c c' → globeV F T x a (globeC F T x a c) =
      globeV F T { x with glon := lon, lst := lst } a (globeC F T { x with glon := lon, lst := lst } a c') := by
    rintro a c c' ⟨hu, hq⟩
    obtain ⟨l, t, ee⟩ := e a c c' hu
    rw [ee]
    exact globeSum_flat _ x lon lst hx hl _ (fl a c hq) _ _ _ _ _ _
  have hw : ∀ a, Sim W S (globe7 F T x a) (globe7 F T { x with glon := lon, lst := lst } a) := fun a =>
    globe7_sim fun c c' h => ⟨hgv a c c' h, e a c c' h.1, fl a c h.2⟩
  have hww : ∀ a, Sim W W (globe7 F T x a) (globe7 F T { x with glon := lon, lst := lst } a) := fun a =>
    globe7_sim fun c c' h => ⟨hgv a c c' h, e a c c' h.1, Or.inr (fl a c h.2)⟩
  have hg : ∀ a, Sim S S (globe7 F T x a) (globe7 F T { x with glon := lon, lst := lst } a) := fun a =>
    globe7_sim fun c c' h => ⟨hgv a c c' ⟨h.1, Or.inr h.2⟩, e a c c' h.1, fl a c (Or.inr h.2)⟩
  have hsS : ∀ a, Sim S S (glob7s F T x a) (glob7s F T { x with glon := lon, lst := lst } a) := by
    refine fun a => glob7s_sim ?_
    rintro c c' ⟨⟨l, t, rfl⟩, h⟩
    exact ⟨globsSum_flat _ x lon lst hx hl _ h _ _ _ _ _ _, ⟨l, t, rfl⟩, h⟩
  obtain ⟨v, t, d, d', e1, e2, -⟩ := gtd7_sim (W := W) (S := S) x { x with glon := lon, lst := lst }
    ⟨rfl, rfl, rfl, fun _ _ => rfl, rfl, rfl⟩ (fun a _ => hww a) (hw _) (fun a _ => hg a) (fun a _ => hsS a) tz mass old s
    (cacheOf s) (cacheOf s) ⟨⟨_, _, rfl⟩, hs.imp id fun h => by rw [show (cacheOf s).plg = s.plg from rfl, h]; exact hf⟩
  rw [withCache_cacheOf] at e1 e2
  rw [e1, e2]

/-! ### Instances -/

theorem realFns_turn : Turn realFns (2 * Real.pi) where
  deg := fun u => by simp only [realFns]; ring
  sin := fun u => Real.sin_add_two_pi u
  cos := fun u => Real.cos_add_two_pi u

example (alt : ℝ) : SameAtmosphere realFns tabR (sampleIn 10 5 alt 200) { sampleIn 10 5 alt 200 with glon := 20 + 360 } :=
  longitude_turn realFns_turn (sampleIn 10 5 alt 200) (by norm_num [sampleIn])

/-- Both poles, from an instance last used at the equator. -/
example (alt tz : ℝ) (mass : ℤ) (old : Out ℝ) (s : St ℝ) (hs : s.xl = 0) (σ : ℝ) (hσ : σ = 90 ∨ σ = -90) :
    (gtd7 realFns tabR tz (sampleIn σ 5 alt 200) mass old s).1 =
      (gtd7 realFns tabR tz { sampleIn σ 5 alt 200 with glon := 100, lst := 11 } mass old s).1 := by
  refine pole_same _ ?_ (by norm_num [sampleIn]) _ _ (by norm_num) tz mass old s (Or.inl ?_)
  · rcases hσ with rfl | rfl
    · show Real.cos (90 * Real.pi / 180) = 0
      rw [show 90 * Real.pi / 180 = Real.pi / 2 by ring, Real.cos_pi_div_two]
    · show Real.cos (-90 * Real.pi / 180) = 0
      rw [show -90 * Real.pi / 180 = -(Real.pi / 2) by ring, Real.cos_neg, Real.cos_pi_div_two]
  · rw [hs]
    rcases hσ with rfl | rfl <;> norm_num [sampleIn, nearzero, abs_of_pos]

/-- At the equator the function of degree 2 and order 0 is -1/2. -/
example : (legendre realFns 0).p02 = -1 / 2 := by norm_num [legendre, realFns]

end Verif.Atmosphere.Msis
