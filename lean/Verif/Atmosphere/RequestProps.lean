import Verif.Atmosphere.MsisExamples
import Mathlib.Tactic.IntervalCases
import Mathlib.Tactic.FinCases

/-!
C124: the atmosphere model asked for one species gives the density it gives for that species when asked for all.
-/
namespace Verif.Atmosphere.Msis

variable {K : Type} [Field K] [LinearOrder K]

open Data

local macro "keep" h:term : term =>
  `(⟨($h).lat, ($h).time, ($h).g14, ($h).g18, ($h).g32, ($h).g39, ($h).s14, ($h).s18, ($h).s32,
    ($h).s39⟩)

/-- Specification: the species that can be asked for, by molecular weight, and the place of their density; 17 stands for
anomalous oxygen. -/
def request : List (ℤ × ℕ) := [(4, 0), (16, 1), (28, 2), (32, 3), (40, 4), (1, 6), (14, 7), (17, 8)]

/-- What is known after the nodes are set. -/
def nodesSet : Fl :=
  ⟨False, False, False, False, fun k => 1 ≤ k ∧ k ≤ 4, fun k => k = 1, fun _ => False, fun _ => False, fun _ => False,
    fun _ => False⟩

section

variable {F : Fns K} {T : Tab K} {x : In K}

/-- Agreement as far as the densities need it. -/
def Near (F : Fns K) (T : Tab K) (x : In K) (s s' : St K) : Prop := Agree F T x.glat x.lst x.doy x.sw nodesSet s s'

theorem Near.symm {s s' : St K} (h : Near F T x s s') : Near F T x s' s where
  ready := h.ready'
  ready' := h.ready
  p24 := fun a => (h.p24 a).symm
  re := h.re.symm
  gsurf := h.gsurf.symm
  plg := False.elim
  trig := False.elim
  dfa := False.elim
  apdf := False.elim
  apt0 := False.elim
  tn1 := fun k hk => (h.tn1 k hk).symm
  tgn1 := fun k hk => (h.tgn1 k hk).symm
  tn2 := fun _ => False.elim
  tgn2 := fun _ => False.elim
  tn3 := fun _ => False.elim
  tgn3 := fun _ => False.elim
  dm28 := False.elim
  xg0 := False.elim
  dm28m := False.elim

/-- Steps that only touch what the densities do not need. -/
theorem Near.right {s s' t : St K} (h : Near F T x s s') (hr : Ready F T x.glat x.lst x.doy t)
    (hp : ∀ a, clamp24 (t.p24 a) = clamp24 (s'.p24 a)) (hre : t.re = s'.re) (hg : t.gsurf = s'.gsurf)
    (h1 : ∀ k, 1 ≤ k → t.tn1 k = s'.tn1 k) (h2 : t.tgn1 1 = s'.tgn1 1) : Near F T x s t where
  ready := h.ready
  ready' := hr
  p24 := fun a => (h.p24 a).trans (hp a).symm
  re := h.re.trans hre.symm
  gsurf := h.gsurf.trans hg.symm
  plg := False.elim
  trig := False.elim
  dfa := False.elim
  apdf := False.elim
  apt0 := False.elim
  tn1 := fun k hk => (h.tn1 k hk).trans (h1 k hk.1).symm
  tgn1 := fun k hk => by
    have : k = 1 := hk
    rw [this]
    exact (h.tgn1 1 rfl).trans h2.symm
  tn2 := fun _ => False.elim
  tgn2 := fun _ => False.elim
  tn3 := fun _ => False.elim
  tgn3 := fun _ => False.elim
  dm28 := False.elim
  xg0 := False.elim
  dm28m := False.elim

theorem upd_right {s0 : St K} (f : St K → St K)
    (h2 : ∀ s, (f s).re = s.re ∧ (f s).gsurf = s.gsurf) (h3 : ∀ s k, 1 ≤ k → (f s).tn1 k = s.tn1 k)
    (h4 : ∀ s, (f s).tgn1 1 = s.tgn1 1) (h5 : ∀ s, (f s).p24 = s.p24)
    (h6 : ∀ s, Ready F T x.glat x.lst x.doy s → Ready F T x.glat x.lst x.doy (f s)) :
    Keeps (Near F T x s0) (upd f) :=
  fun s h => h.right (h6 s h.ready') (fun a => by show clamp24 ((f s).p24 a) = _; rw [h5]) (h2 s).1 (h2 s).2 (h3 s) (h4 s)

/-- What a species computation may change: the caches, the upper ends of the node arrays and the working density. -/
structure Untouched (F : Fns K) (T : Tab K) (x : In K) (P : St K → Prop) : Prop where
  globe : ∀ a, GArr a → Keeps P (globe7 F T x a)
  nodes : ∀ u v : K, Keeps P (upd fun s => { s with tgn1 := put s.tgn1 0 u, tn1 := put s.tn1 0 v })
  dd : ∀ g : K → K, Keeps P (upd fun s => { s with dd := g s.dd })

section

variable {P : St K → Prop} (H : Untouched F T x P)
include H

theorem Untouched.densu (alt dlb t1 t2 xm xalph zlb s2 : K) : Keeps P (densu F T alt dlb t1 t2 xm xalph zlb s2) := by
  unfold Msis.densu
  exact Keeps.bind (Keeps.rd _) fun _ => Keeps.bind (Keeps.rd _) fun _ => Keeps.ite
    (Keeps.bind (H.nodes _ _) fun _ => Keeps.bind (Keeps.rd _) fun _ => Keeps.bind (Keeps.rd _) fun _ =>
      Keeps.ite (Keeps.pure _) (Keeps.pure _)) (Keeps.ite (Keeps.pure _) (Keeps.pure _))

theorem Untouched.setDd (v : K) : Keeps P (setDd v) := H.dd fun _ => v

theorem Untouched.den (c : Ctx K) (alt dlb xm xalph : K) : Keeps P (den F T c alt dlb xm xalph) := H.densu _ _ _ _ _ _ _ _

theorem Untouched.species (c : Ctx K) (k : ℕ) (a : Arr) (ha : GArr a) (m : K) (ia il : ℕ) (corr : K → K → K) :
    Keeps P (species F T x c k a m ia il corr) := by
  unfold Msis.species
  refine Keeps.bind (H.globe _ ha) fun _ => ?_
  refine Keeps.bind (H.den _ _ _ _ _) fun _ => Keeps.bind (H.setDd _) fun _ => Keeps.ite ?_ (Keeps.pure _)
  exact Keeps.bind (H.den _ _ _ _ _) fun _ => Keeps.bind (H.den _ _ _ _ _) fun _ => Keeps.pure _

theorem Untouched.he (c : Ctx K) : Keeps P (gtsHe F T x c) := H.species c _ _ (Or.inr (Or.inr ⟨0, by omega, rfl⟩)) _ _ _ _

theorem Untouched.o (c : Ctx K) : Keeps P (gtsO F T x c) := H.species c _ _ (Or.inr (Or.inr ⟨1, by omega, rfl⟩)) _ _ _ _

theorem Untouched.ar (c : Ctx K) : Keeps P (gtsAr F T x c) := H.species c _ _ (Or.inr (Or.inr ⟨5, by omega, rfl⟩)) _ _ _ _

theorem Untouched.h (c : Ctx K) : Keeps P (gtsH F T x c) := H.species c _ _ (Or.inr (Or.inr ⟨6, by omega, rfl⟩)) _ _ _ _

theorem Untouched.n (c : Ctx K) : Keeps P (gtsN F T x c) := H.species c _ _ (Or.inr (Or.inr ⟨7, by omega, rfl⟩)) _ _ _ _

theorem Untouched.o2 (mass : ℤ) (c : Ctx K) : Keeps P (gtsO2 F T x mass c) := by
  unfold gtsO2
  refine Keeps.bind (H.globe _ (Or.inr (Or.inr ⟨4, by omega, rfl⟩))) fun _ => ?_
  refine Keeps.bind (H.den _ _ _ _ _) fun r =>
    Keeps.bind (H.dd fun v => if mass = 49 then v + 2 * r.1 else r.1) fun _ => Keeps.ite ?_ (Keeps.pure _)
  refine Keeps.bind (Keeps.ite ?_ (Keeps.pure _)) fun _ => Keeps.pure _
  exact Keeps.bind (H.den _ _ _ _ _) fun _ => Keeps.bind (H.den _ _ _ _ _) fun _ => Keeps.pure _

theorem Untouched.ox (c : Ctx K) : Keeps P (gtsAnomO F T x c) := by
  unfold gtsAnomO
  refine Keeps.bind (H.globe _ (Or.inr (Or.inr ⟨8, by omega, rfl⟩))) fun _ => ?_
  exact Keeps.bind (H.densu _ _ _ _ _ _ _ _) fun _ => Keeps.bind (H.setDd _) fun _ =>
    Keeps.bind (Keeps.rd _) fun _ => Keeps.bind (Keeps.rd _) fun _ => Keeps.pure _

theorem Untouched.n2 (hm : ∀ v : K, Keeps P (upd fun s => { s with dm28 := v })) (mass : ℤ) (tinf tlb s g28 : K) :
    Keeps P (gtsN2 F T x mass tinf tlb s g28) := by
  unfold gtsN2
  refine Keeps.ite ?_ (Keeps.pure _)
  refine Keeps.bind (H.den _ _ _ _ _) fun _ => Keeps.bind (H.setDd _) fun _ =>
    Keeps.bind (H.den _ _ _ _ _) fun _ => Keeps.ite ?_ (Keeps.pure _)
  exact Keeps.bind (H.den _ _ _ _ _) fun _ => Keeps.bind (hm _) fun _ => Keeps.bind (Keeps.rd _) fun _ => Keeps.pure _

end

variable [IsStrictOrderedRing K]

theorem near_untouched (hT : TabOk T) (s0 : St K) : Untouched F T x (Near F T x s0) where
  globe := by
    intro a ha s h
    have r := globe7_ready F T hT x a ha s h.ready'
    obtain ⟨v, w, τ, q, -, -, -, -, q1, e, -⟩ := globe7_eq F T x a ha s h.ready'
    refine h.right r ?_ ?_ ?_ ?_ ?_
    · intro b; rw [e]; exact q1 b
    all_goals rw [e]
    exact fun _ _ => rfl
  nodes := by
    intro u v
    refine upd_right _ (fun _ => ⟨rfl, rfl⟩) (fun s k hk => ?_) (fun s => ?_) (fun _ => rfl)
      fun _ h => keep h
    · have hk0 : k ≠ 0 := by omega
      simp [put, hk0]
    · simp [put]
  dd := fun g => upd_right _ (fun _ => ⟨rfl, rfl⟩) (fun _ _ _ => rfl) (fun _ => rfl) (fun _ => rfl)
    fun _ h => keep h

theorem gtsN2_right (hT : TabOk T) {s0 : St K} (mass : ℤ) (tinf tlb s g28 : K) :
    Keeps (Near F T x s0) (gtsN2 F T x mass tinf tlb s g28) :=
  (near_untouched hT s0).n2 (fun _ => upd_right _ (fun _ => ⟨rfl, rfl⟩) (fun _ _ _ => rfl) (fun _ => rfl)
    (fun _ => rfl) fun _ h => keep h) _ _ _ _ _

omit [IsStrictOrderedRing K] in
/-- Running anything that keeps the agreement, on either side. -/
theorem Near.both {α β : Type} {n : M K α} {n' : M K β} {s s' : St K} (h : Near F T x s s')
    (h1 : ∀ s0, Keeps (Near F T x s0) n) (h2 : ∀ s0, Keeps (Near F T x s0) n') : Near F T x (n s).2 (n' s').2 :=
  (h1 _ _ (h2 _ _ h).symm).symm

omit [IsStrictOrderedRing K] in
theorem part_right {b : Prop} [Decidable b] {m : M K K} (h : ∀ s0, Keeps (Near F T x s0) m) (s0 : St K) :
    Keeps (Near F T x s0) (part b m) := Keeps.ite (h s0) (Keeps.pure _)

/-! ### The two runs, part by part -/

/-- The densities written out as a chain of states. -/
structure Run (F : Fns K) (T : Tab K) (x : In K) (mass : ℤ) (tinf tlb s : K) (st : St K) where
  c : Ctx K
  n2 : K × K × K × K
  s0 : St K
  s1 : St K
  s2 : St K
  s3 : St K
  s4 : St K
  s5 : St K
  s6 : St K
  s7 : St K
  g : K
  hg : g = (globe7 F T x (.pd 2) st).1
  h0 : s0 = (globe7 F T x (.pd 2) st).2
  hn : n2 = ((if mass ∈ mt then gtsN2 F T x mass tinf tlb s (x.sw 20 * g) else pure (0, 0, 0, 0) : M K _) s0).1
  h1 : s1 = ((if mass ∈ mt then gtsN2 F T x mass tinf tlb s (x.sw 20 * g) else pure (0, 0, 0, 0) : M K _) s0).2
  hc : c = ⟨tinf, tlb, s, n2.2.2.1, n2.2.2.2⟩
  h2 : s2 = (part (jOf mass ∈ [1, 3, 4, 9]) (gtsHe F T x c) s1).2
  h3 : s3 = (part (jOf mass ∈ [1, 3, 4, 9]) (gtsO F T x c) s2).2
  h4 : s4 = (part (jOf mass ∈ [1, 3, 4, 6, 9]) (gtsO2 F T x mass c) s3).2
  h5 : s5 = (part (jOf mass ∈ [1, 3, 4, 6, 9, 7]) (gtsAr F T x c) s4).2
  h6 : s6 = (part (jOf mass ∈ [1, 3, 4, 6, 9, 7, 8]) (gtsH F T x c) s5).2
  h7 : s7 = (part (jOf mass ∈ [1, 3, 4, 6, 9, 7, 8]) (gtsN F T x c) s6).2
  he : K
  o : K
  o2 : K
  ar : K
  h : K
  n : K
  ox : K
  v1 : he = (part (jOf mass ∈ [1, 3, 4, 9]) (gtsHe F T x c) s1).1
  v2 : o = (part (jOf mass ∈ [1, 3, 4, 9]) (gtsO F T x c) s2).1
  v3 : o2 = (part (jOf mass ∈ [1, 3, 4, 6, 9]) (gtsO2 F T x mass c) s3).1
  v4 : ar = (part (jOf mass ∈ [1, 3, 4, 6, 9, 7]) (gtsAr F T x c) s4).1
  v5 : h = (part (jOf mass ∈ [1, 3, 4, 6, 9, 7, 8]) (gtsH F T x c) s5).1
  v6 : n = (part (jOf mass ∈ [1, 3, 4, 6, 9, 7, 8]) (gtsN F T x c) s6).1
  v7 : ox = (part (jOf mass ∈ [1, 3, 4, 6, 9, 7, 8, 10, 11]) (gtsAnomO F T x c) s7).1
  dens : ∀ k, k ≠ 5 → (gtsDens F T x mass tinf tlb s st).1.1 k = [he, o, n2.1, o2, ar, 0, h, n, ox].getD k 0
  temp : (gtsDens F T x mass tinf tlb s st).1.2 = n2.2.1
  last : (gtsDens F T x mass tinf tlb s st).2 =
    (part (jOf mass ∈ [1, 3, 4, 6, 9, 7, 8, 10, 11]) (gtsAnomO F T x c) s7).2

omit [IsStrictOrderedRing K] in
theorem Run.mk' (mass : ℤ) (tinf tlb s : K) (st : St K) : Nonempty (Run F T x mass tinf tlb s st) := by
  refine ⟨⟨_, _, _, _, _, _, _, _, _, _, _, rfl, rfl, rfl, rfl, rfl, rfl, rfl, rfl, rfl, rfl, rfl, _, _, _, _, _, _, _,
    rfl, rfl, rfl, rfl, rfl, rfl, rfl, ?_, rfl, rfl⟩⟩
  intro k hk
  unfold gtsDens
  simp only [bind_run, pure_run]
  by_cases h : mass = 48
  · rw [if_pos h]; simp only [put, if_neg hk]
  · rw [if_neg h]

/-- Whatever is asked for, the states stay in agreement. -/
theorem Run.near (hT : TabOk T) {mass mass' : ℤ} {tinf tlb s : K} {st st' : St K} (hst : Near F T x st st')
    (r : Run F T x mass tinf tlb s st) (r' : Run F T x mass' tinf tlb s st') :
    r.g = r'.g ∧ Near F T x r.s0 r'.s0 ∧ Near F T x r.s1 r'.s1 ∧ Near F T x r.s2 r'.s2 ∧ Near F T x r.s3 r'.s3 ∧
      Near F T x r.s4 r'.s4 ∧ Near F T x r.s5 r'.s5 ∧ Near F T x r.s6 r'.s6 ∧ Near F T x r.s7 r'.s7 ∧
      Near F T x (gtsDens F T x mass tinf tlb s st).2 (gtsDens F T x mass' tinf tlb s st').2 := by
  have a0 : Near F T x r.s0 r'.s0 := by
    rw [r.h0, r'.h0]
    exact hst.both (fun s0 => (near_untouched hT s0).globe _ (Or.inr (Or.inr ⟨2, by omega, rfl⟩)))
      (fun s0 => (near_untouched hT s0).globe _ (Or.inr (Or.inr ⟨2, by omega, rfl⟩)))
  have a1 : Near F T x r.s1 r'.s1 := by
    rw [r.h1, r'.h1]
    exact a0.both (fun _ => Keeps.ite (gtsN2_right hT _ _ _ _ _) (Keeps.pure _))
      (fun _ => Keeps.ite (gtsN2_right hT _ _ _ _ _) (Keeps.pure _))
  have a2 : Near F T x r.s2 r'.s2 := by
    rw [r.h2, r'.h2]; exact a1.both (part_right fun s0 => (near_untouched hT s0).he _) (part_right fun s0 => (near_untouched hT s0).he _)
  have a3 : Near F T x r.s3 r'.s3 := by
    rw [r.h3, r'.h3]; exact a2.both (part_right fun s0 => (near_untouched hT s0).o _) (part_right fun s0 => (near_untouched hT s0).o _)
  have a4 : Near F T x r.s4 r'.s4 := by
    rw [r.h4, r'.h4]
    exact a3.both (part_right fun s0 => (near_untouched hT s0).o2 _ _) (part_right fun s0 => (near_untouched hT s0).o2 _ _)
  have a5 : Near F T x r.s5 r'.s5 := by
    rw [r.h5, r'.h5]; exact a4.both (part_right fun s0 => (near_untouched hT s0).ar _) (part_right fun s0 => (near_untouched hT s0).ar _)
  have a6 : Near F T x r.s6 r'.s6 := by
    rw [r.h6, r'.h6]; exact a5.both (part_right fun s0 => (near_untouched hT s0).h _) (part_right fun s0 => (near_untouched hT s0).h _)
  have a7 : Near F T x r.s7 r'.s7 := by
    rw [r.h7, r'.h7]; exact a6.both (part_right fun s0 => (near_untouched hT s0).n _) (part_right fun s0 => (near_untouched hT s0).n _)
  refine ⟨?_, a0, a1, a2, a3, a4, a5, a6, a7, ?_⟩
  · rw [r.hg, r'.hg]
    exact (globe7_rel' hT x _ (Or.inr (Or.inr ⟨2, by omega, rfl⟩)) st st' hst).1
  · rw [r.last, r'.last]
    exact a7.both (part_right fun s0 => (near_untouched hT s0).ox _) (part_right fun s0 => (near_untouched hT s0).ox _)

/-- The nitrogen part does not depend on the request where it runs. -/
theorem Run.n2_eq (hT : TabOk T) {mass mass' : ℤ} {tinf tlb s : K} {st st' : St K} (hst : Near F T x st st')
    (r : Run F T x mass tinf tlb s st) (r' : Run F T x mass' tinf tlb s st') (hm : mass ∈ mt) (hm' : mass' ∈ mt)
    (h : x.alt < 450 ∨ mass = 28 ∨ mass = 48) (h' : x.alt < 450 ∨ mass' = 28 ∨ mass' = 48) : r.n2 = r'.n2 := by
  obtain ⟨eg, a0, -⟩ := r.near hT hst r'
  have e : ∀ v, gtsN2 F T x mass tinf tlb s v = gtsN2 F T x mass' tinf tlb s v := by
    intro v
    have hl : (altl 5 : K) = 450 := rfl
    unfold gtsN2
    rw [hl, if_pos h, if_pos h']
  rw [r.hn, r'.hn, if_pos hm, if_pos hm', eg, e]
  exact (gtsN2_rel (f := nodesSet) x mass' _ _ _ _ (fun k h1 h2 => ⟨h1, h2⟩) rfl _ _ a0).1

omit [IsStrictOrderedRing K] in
/-- Above its limit a species does not depend on the mixing. -/
theorem species_high {c c' : Ctx K} (h1 : c.tinf = c'.tinf) (h2 : c.tlb = c'.tlb) (h3 : c.s = c'.s) (k : ℕ) (a : Arr)
    (m : K) (ia il : ℕ) (corr corr' : K → K → K) (h : ¬ x.alt ≤ altl il) :
    species F T x c k a m ia il corr = species F T x c' k a m ia il corr' := by
  have hd : ∀ alt dlb xm xalph, den F T c alt dlb xm xalph = den F T c' alt dlb xm xalph := by
    intros; unfold den; rw [h1, h2, h3]
  unfold species
  simp only [hd, if_neg (fun h' : x.alt ≤ altl il ∧ |x.sw 14| > 0 => h h'.1)]

omit [IsStrictOrderedRing K] in
theorem gtsO2_high {c c' : Ctx K} (h1 : c.tinf = c'.tinf) (h2 : c.tlb = c'.tlb) (h3 : c.s = c'.s) {mass mass' : ℤ}
    (hm : mass ≠ 49) (hm' : mass' ≠ 49) (h : ¬ x.alt ≤ altl 3 ∨ c = c') :
    gtsO2 F T x mass c = gtsO2 F T x mass' c' := by
  have hd : ∀ alt dlb xm xalph, den F T c alt dlb xm xalph = den F T c' alt dlb xm xalph := by
    intros; unfold den; rw [h1, h2, h3]
  unfold gtsO2
  rcases h with h | h
  · simp only [hd, if_neg h, if_neg hm, if_neg hm']
  · subst h
    simp only [if_neg hm, if_neg hm']

omit [LinearOrder K] [IsStrictOrderedRing K] in
theorem part_pos {b : Prop} [Decidable b] (h : b) (m : M K K) : part b m = m := if_pos h

/-- **C124 (densities).** -/
theorem gtsDens_request (hT : TabOk T) (mass : ℤ) (i : ℕ) (h : (mass, i) ∈ request) (h14 : mass ≠ 14) (tinf tlb s : K)
    (st st' : St K) (hst : Near F T x st st') :
    (gtsDens F T x mass tinf tlb s st).1.1 i = (gtsDens F T x 48 tinf tlb s st').1.1 i := by
  obtain ⟨r⟩ := Run.mk' (F := F) (T := T) (x := x) mass tinf tlb s st
  obtain ⟨r'⟩ := Run.mk' (F := F) (T := T) (x := x) 48 tinf tlb s st'
  obtain ⟨-, -, a1, a2, a3, a4, a5, -, a7, -⟩ := r.near hT hst r'
  have pd : ∀ k < 9, GArr (.pd k) := fun k hk => Or.inr (Or.inr ⟨k, hk, rfl⟩)
  have nn : ∀ k, 1 ≤ k → k ≤ 4 → nodesSet.n1 k := fun k h1 h2 => ⟨h1, h2⟩
  have m48 : (48 : ℤ) ∈ mt := by decide
  have ec : mass ∈ mt → r.c = r'.c ∨ 450 ≤ x.alt := by
    intro hm
    rcases lt_or_ge x.alt 450 with ha | ha
    · refine Or.inl ?_
      rw [r.hc, r'.hc, r.n2_eq hT hst r' hm m48 (Or.inl ha) (Or.inl ha)]
    · exact Or.inr ha
  have c1 : r.c.tinf = r'.c.tinf := by rw [r.hc, r'.hc]
  have c2 : r.c.tlb = r'.c.tlb := by rw [r.hc, r'.hc]
  have c3 : r.c.s = r'.c.s := by rw [r.hc, r'.hc]
  have low : ∀ v : K, v < 450 → 450 ≤ x.alt → ¬ x.alt ≤ v := fun v h1 h2 h3 => absurd (h2.trans h3) (not_le.2 h1)
  have hi : i ≠ 5 := by
    intro hi; subst hi
    simp [request] at h
  rw [r.dens i hi, r'.dens i hi]
  simp only [request, List.mem_cons, Prod.mk.injEq, List.not_mem_nil, or_false] at h
  rcases h with ⟨rfl, rfl⟩ | ⟨rfl, rfl⟩ | ⟨rfl, rfl⟩ | ⟨rfl, rfl⟩ | ⟨rfl, rfl⟩ | ⟨rfl, rfl⟩ | ⟨rfl, rfl⟩ | ⟨rfl, rfl⟩
  · show r.he = r'.he
    rw [r.v1, r'.v1, part_pos (by decide), part_pos (by decide)]
    have e : gtsHe F T x r.c = gtsHe F T x r'.c := by
      rcases ec (by decide) with e | e
      · rw [e]
      · exact species_high c1 c2 c3 _ _ _ _ _ _ _ (low _ (by show (200 : K) < 450; norm_num) e)
    rw [e]
    exact (species_rel hT x _ _ _ (pd 0 (by omega)) _ _ _ _ nn rfl _ _ a1).1
  · show r.o = r'.o
    rw [r.v2, r'.v2, part_pos (by decide), part_pos (by decide)]
    have e : gtsO F T x r.c = gtsO F T x r'.c := by
      rcases ec (by decide) with e | e
      · rw [e]
      · exact species_high c1 c2 c3 _ _ _ _ _ _ _ (low _ (by show (300 : K) < 450; norm_num) e)
    rw [e]
    exact (species_rel hT x _ _ _ (pd 1 (by omega)) _ _ _ _ nn rfl _ _ a2).1
  · show r.n2.1 = r'.n2.1
    rw [r.n2_eq hT hst r' (by decide) m48 (Or.inr (Or.inl rfl)) (Or.inr (Or.inr rfl))]
  · show r.o2 = r'.o2
    rw [r.v3, r'.v3, part_pos (by decide), part_pos (by decide)]
    have e : gtsO2 F T x 32 r.c = gtsO2 F T x 48 r'.c := by
      refine gtsO2_high c1 c2 c3 (by decide) (by decide) ?_
      rcases ec (by decide) with e | e
      · exact Or.inr e
      · exact Or.inl (low _ (by show (250 : K) < 450; norm_num) e)
    rw [e]
    exact (gtsO2_rel hT x _ _ nn rfl _ _ a3).1
  · show r.ar = r'.ar
    rw [r.v4, r'.v4, part_pos (by decide), part_pos (by decide)]
    have e : gtsAr F T x r.c = gtsAr F T x r'.c := by
      rcases ec (by decide) with e | e
      · rw [e]
      · exact species_high c1 c2 c3 _ _ _ _ _ _ _ (low _ (by show (240 : K) < 450; norm_num) e)
    rw [e]
    exact (species_rel hT x _ _ _ (pd 5 (by omega)) _ _ _ _ nn rfl _ _ a4).1
  · show r.h = r'.h
    rw [r.v5, r'.v5, part_pos (by decide), part_pos (by decide)]
    have e : gtsH F T x r.c = gtsH F T x r'.c := by
      rcases ec (by decide) with e | e
      · rw [e]
      · exact species_high c1 c2 c3 _ _ _ _ _ _ _ (low _ (by show (320 : K) < 450; norm_num) e)
    rw [e]
    exact (species_rel hT x _ _ _ (pd 6 (by omega)) _ _ _ _ nn rfl _ _ a5).1
  · exact absurd rfl h14
  · show r.ox = r'.ox
    rw [r.v7, r'.v7, part_pos (by decide), part_pos (by decide)]
    have e : gtsAnomO F T x r.c = gtsAnomO F T x r'.c := by
      unfold gtsAnomO; rw [c3]
    rw [e]
    exact (gtsAnomO_rel hT x _ nn rfl _ _ a7).1

omit [IsStrictOrderedRing K] in
/-- The temperature at an altitude does not depend on the gas. -/
theorem densu_tz (alt dlb dlb' t1 t2 xm xm' xalph xalph' zlb s2 : K) (st : St K) :
    (densu F T alt dlb t1 t2 xm xalph zlb s2 st).1.2 = (densu F T alt dlb' t1 t2 xm' xalph' zlb s2 st).1.2 := by
  unfold densu
  simp only [bind_run]
  by_cases h : alt < zn1 T 0
  · simp only [if_pos h, bind_run]
    by_cases h1 : |xm| > nearzero <;> by_cases h2 : |xm'| > nearzero <;>
      simp only [h1, h2, if_true, if_false] <;> rfl
  · simp only [if_neg h]
    by_cases h1 : |xm| > nearzero <;> by_cases h2 : |xm'| > nearzero <;>
      simp only [h1, h2, if_true, if_false] <;> rfl

omit [IsStrictOrderedRing K] in
theorem Near.trans {a b c : St K} (h : Near F T x a b) (h' : Near F T x b c) : Near F T x a c where
  ready := h.ready
  ready' := h'.ready'
  p24 := fun i => (h.p24 i).trans (h'.p24 i)
  re := h.re.trans h'.re
  gsurf := h.gsurf.trans h'.gsurf
  plg := False.elim
  trig := False.elim
  dfa := False.elim
  apdf := False.elim
  apt0 := False.elim
  tn1 := fun k hk => (h.tn1 k hk).trans (h'.tn1 k hk)
  tgn1 := fun k hk => (h.tgn1 k hk).trans (h'.tgn1 k hk)
  tn2 := fun _ => False.elim
  tgn2 := fun _ => False.elim
  tn3 := fun _ => False.elim
  tgn3 := fun _ => False.elim
  dm28 := False.elim
  xg0 := False.elim
  dm28m := False.elim

omit [IsStrictOrderedRing K] in
/-- The temperature left by the nitrogen part. -/
theorem gtsN2_tz (tinf tlb s g28 : K) (st : St K) :
    (gtsN2 F T x 28 tinf tlb s g28 st).1.2.1 = (densu F T x.alt 1 tinf tlb 0 0 (T.ptm 5) s st).1.2 := by
  rw [← densu_tz x.alt (T.pdm 2 0 * F.exp g28 * T.p (.pd 2) 0) 1 tinf tlb 28 0 (alpha 2) 0]
  unfold gtsN2
  rw [if_pos (Or.inr (Or.inl rfl))]
  simp only [bind_run]
  by_cases h : x.alt ≤ altl 2 ∧ |x.sw 14| > 0
  · simp only [if_pos h, bind_run]; rfl
  · simp only [if_neg h]; rfl

/-- **C124 (thermosphere).** -/
theorem gts7_request (hT : TabOk T) (mass : ℤ) (i : ℕ) (h : (mass, i) ∈ request) (h14 : mass ≠ 14) (ha : 0 ≤ x.alt)
    (s : St K) (hr : Ready F T x.glat x.lst x.doy s) :
    (gts7 F T x mass s).1.d i = (gts7 F T x 48 s).1.d i ∧ (gts7 F T x mass s).1.t0 = (gts7 F T x 48 s).1.t0 ∧
      (gts7 F T x mass s).1.t1 = (gts7 F T x 48 s).1.t1 := by
  have hm0 : mass ≠ 0 := by
    rintro rfl; simp [request] at h
  have hmt : mass ∈ mt := by
    simp only [request, List.mem_cons, Prod.mk.injEq, List.not_mem_nil, or_false] at h
    rcases h with h | h | h | h | h | h | h | h <;> rw [h.1] <;> decide
  have hself : Agree F T x.glat x.lst x.doy x.sw
      ⟨False, False, False, False, fun _ => False, fun _ => False, fun _ => False, fun _ => False, fun _ => False,
        fun _ => False⟩ s s :=
    ⟨hr, hr, fun _ => rfl, rfl, rfl, fun _ => rfl, fun _ _ => rfl, fun _ => rfl, fun _ _ => rfl, fun _ _ => rfl,
      fun _ _ => rfl, fun _ _ => rfl, fun _ _ => rfl, fun _ _ => rfl, fun _ _ => rfl, fun _ _ => rfl, fun _ => rfl,
      fun _ => rfl, fun _ => rfl⟩
  have h1 := (gtsTemps_rel hT x s s hself).2
  have h2 := (gtsNodes_rel hT x trivial _ _ h1).2
  unfold gts7 gtsCore
  simp only [bind_run, pure_run, if_pos hm0, if_pos (by decide : (48 : ℤ) ≠ 0)]
  generalize (gtsTemps F T x s).1 = tt
  have near : Near F T x (gtsNodes F T x (gtsTemps F T x s).2).2 (gtsNodes F T x (gtsTemps F T x s).2).2 :=
    h2.mono (f' := nodesSet) False.elim False.elim False.elim (fun _ => id) (fun _ => id) (fun _ => False.elim)
      (fun _ => False.elim) (fun _ => False.elim) (fun _ => False.elim)
  generalize (gtsNodes F T x (gtsTemps F T x s).2).2 = st at near
  have hd := gtsDens_request hT mass i h h14 tt.1 tt.2.1 tt.2.2 st st near
  have hi : i ≠ 5 := by
    rintro rfl; simp [request] at h
  refine ⟨?_, trivial, ?_⟩
  · cases x.meters
    · exact hd
    · simp only [if_true, toMeters, if_neg hi, hd]
  · obtain ⟨r⟩ := Run.mk' (F := F) (T := T) (x := x) mass tt.1 tt.2.1 tt.2.2 st
    obtain ⟨r'⟩ := Run.mk' (F := F) (T := T) (x := x) 48 tt.1 tt.2.1 tt.2.2 st
    obtain ⟨-, -, -, -, -, -, -, -, -, al⟩ := r.near hT near r'
    have nn : ∀ k, 1 ≤ k → k ≤ 4 → nodesSet.n1 k := fun k h1 h2 => ⟨h1, h2⟩
    have j48 : jOf 48 ≠ 5 := by decide
    rw [if_pos j48]
    by_cases h28 : mass = 28
    · subst h28
      have j28 : ¬ jOf 28 ≠ 5 := by decide
      rw [if_neg j28, pure_run, r.temp, r.hn, if_pos (by decide), gtsN2_tz, abs_of_nonneg ha]
      have e1 : r.s1 = (gtsN2 F T x 28 tt.1 tt.2.1 tt.2.2 (x.sw 20 * r.g) r.s0).2 := by
        rw [r.h1, if_pos (by decide)]
      have skip : ∀ (b : Prop) [Decidable b] (m : M K K) (t : St K), ¬ b → (part b m t).2 = t := by
        intro b _ m t hb; unfold part; rw [if_neg hb]; rfl
      have e2 : (gtsDens F T x 28 tt.1 tt.2.1 tt.2.2 st).2 = r.s1 := by
        rw [r.last, skip _ _ _ (by decide), r.h7, skip _ _ _ (by decide), r.h6, skip _ _ _ (by decide), r.h5,
          skip _ _ _ (by decide), r.h4, skip _ _ _ (by decide), r.h3, skip _ _ _ (by decide), r.h2,
          skip _ _ _ (by decide)]
      have n0 : Near F T x r.s0 r.s0 := by
        rw [r.h0]
        exact near.both (fun s0 => (near_untouched hT s0).globe _ (Or.inr (Or.inr ⟨2, by omega, rfl⟩)))
          (fun s0 => (near_untouched hT s0).globe _ (Or.inr (Or.inr ⟨2, by omega, rfl⟩)))
      have n1 : Near F T x r.s0 r.s1 := by
        rw [e1]; exact gtsN2_right hT _ _ _ _ _ _ n0
      rw [e2] at al
      have := (densu_rel (f := nodesSet) x.alt 1 tt.1 tt.2.1 0 0 (T.ptm 5) tt.2.2 nn rfl _ _ (n1.trans al)).1
      simp only [bind_run, pure_run, this]
    · have j : jOf mass ≠ 5 := by
        simp only [request, List.mem_cons, Prod.mk.injEq, List.not_mem_nil, or_false] at h
        rcases h with h | h | h | h | h | h | h | h <;>
          first | exact absurd h.1 h28 | (rw [h.1]; decide)
      rw [if_pos j]
      have := (densu_rel (f := nodesSet) |x.alt| 1 tt.1 tt.2.1 0 0 (T.ptm 5) tt.2.2 nn rfl _ _ al).1
      simp only [bind_run, pure_run, this]

/-! ### Below the thermosphere -/

/-- What is known of the caches once the harmonics were evaluated for the input. -/
structure Evaluated (F : Fns K) (T : Tab K) (x : In K) (D : K → Prop) (s : St K) : Prop where
  ready : Ready F T x.glat x.lst x.doy s
  plg : s.plg = legendre F x.glat
  trig : dailyOn x → s.trig = trigOf F x.lst
  dfa : s.dfa = x.f107A - 150
  dm : D s.dm28

theorem evaluated_globe7 (hT : TabOk T) (D : K → Prop) (a : Arr) (ha : GArr a) (s : St K)
    (hr : Ready F T x.glat x.lst x.doy s) (hd : D s.dm28) : Evaluated F T x D (globe7 F T x a s).2 := by
  have r := globe7_ready F T hT x a ha s hr
  obtain ⟨v, w, τ, q, -, -, h3, -, -, e, -⟩ := globe7_eq F T x a ha s hr
  refine ⟨r, ?_, ?_, ?_, ?_⟩ <;> rw [e]
  · exact h3
  · exact hd

theorem evaluated_untouched (hT : TabOk T) (D : K → Prop) : Untouched F T x (Evaluated F T x D) where
  globe := fun a ha s h => evaluated_globe7 hT D a ha s h.ready h.dm
  nodes := fun _ _ _ h => ⟨keep h.ready, h.plg, h.trig, h.dfa, h.dm⟩
  dd := fun _ _ h => ⟨keep h.ready, h.plg, h.trig, h.dfa, h.dm⟩

theorem Run.evaluated (hT : TabOk T) {mass : ℤ} {tinf tlb s : K} {st : St K}
    (hr : Ready F T x.glat x.lst x.doy st) (r : Run F T x mass tinf tlb s st) :
    Evaluated F T x (fun v => v = r.s1.dm28) (gtsDens F T x mass tinf tlb s st).2 := by
  have b0 : Evaluated F T x (fun _ => True) r.s0 := by
    rw [r.h0]; exact evaluated_globe7 hT _ _ (Or.inr (Or.inr ⟨2, by omega, rfl⟩)) _ hr trivial
  have b1 : Evaluated F T x (fun _ => True) r.s1 := by
    rw [r.h1]
    refine Keeps.ite ((evaluated_untouched hT _).n2 (fun _ _ h => ⟨keep h.ready, h.plg, h.trig, h.dfa, h.dm⟩) _ _ _ _ _)
      (Keeps.pure _) _ b0
  have c1 : Evaluated F T x (fun v => v = r.s1.dm28) r.s1 := ⟨b1.ready, b1.plg, b1.trig, b1.dfa, rfl⟩
  have U := evaluated_untouched (x := x) hT (fun v => v = r.s1.dm28) (F := F)
  have K' : ∀ {b : Prop} [Decidable b] {m : M K K}, Keeps (Evaluated F T x fun v => v = r.s1.dm28) m →
      Keeps (Evaluated F T x fun v => v = r.s1.dm28) (part b m) := fun h => Keeps.ite h (Keeps.pure _)
  have c2 : Evaluated F T x (fun v => v = r.s1.dm28) r.s2 := by
    rw [r.h2]; exact K' (U.he r.c) _ c1
  have c3 : Evaluated F T x (fun v => v = r.s1.dm28) r.s3 := by
    rw [r.h3]; exact K' (U.o r.c) _ c2
  have c4 : Evaluated F T x (fun v => v = r.s1.dm28) r.s4 := by
    rw [r.h4]; exact K' (U.o2 mass r.c) _ c3
  have c5 : Evaluated F T x (fun v => v = r.s1.dm28) r.s5 := by
    rw [r.h5]; exact K' (U.ar r.c) _ c4
  have c6 : Evaluated F T x (fun v => v = r.s1.dm28) r.s6 := by
    rw [r.h6]; exact K' (U.h r.c) _ c5
  have c7 : Evaluated F T x (fun v => v = r.s1.dm28) r.s7 := by
    rw [r.h7]; exact K' (U.n r.c) _ c6
  rw [r.last]
  exact K' (U.ox r.c) _ c7

/-- What two requests leave behind. -/
structure Left (F : Fns K) (T : Tab K) (x : In K) (s s' : St K) : Prop where
  near : Near F T x s s'
  plg : s.plg = s'.plg
  trig : dailyOn x → s.trig = s'.trig
  dfa : s.dfa = s'.dfa
  dm : s.dm28 = s'.dm28

/-- **C124 (mixing region).**  Nitrogen, the temperature limit and what is left in the members do not depend on the request. -/
theorem gts7_left (hT : TabOk T) (mass : ℤ) (hm : mass ∈ mt) (hm0 : mass ≠ 0) (ha : x.alt ≤ 160) (h14 : |x.sw 14| > 0)
    (s : St K) (hr : Ready F T x.glat x.lst x.doy s) :
    (gts7 F T x mass s).1.d 2 = (gts7 F T x 48 s).1.d 2 ∧ (gts7 F T x mass s).1.t0 = (gts7 F T x 48 s).1.t0 ∧
      Left F T x (gts7 F T x mass s).2 (gts7 F T x 48 s).2 := by
  have hself : Agree F T x.glat x.lst x.doy x.sw
      ⟨False, False, False, False, fun _ => False, fun _ => False, fun _ => False, fun _ => False, fun _ => False,
        fun _ => False⟩ s s :=
    ⟨hr, hr, fun _ => rfl, rfl, rfl, fun _ => rfl, fun _ _ => rfl, fun _ => rfl, fun _ _ => rfl, fun _ _ => rfl,
      fun _ _ => rfl, fun _ _ => rfl, fun _ _ => rfl, fun _ _ => rfl, fun _ _ => rfl, fun _ _ => rfl, fun _ => rfl,
      fun _ => rfl, fun _ => rfl⟩
  have h1 := (gtsTemps_rel hT x s s hself).2
  have h2 := (gtsNodes_rel hT x trivial _ _ h1).2
  unfold gts7 gtsCore
  simp only [bind_run, pure_run, if_pos hm0, if_pos (by decide : (48 : ℤ) ≠ 0)]
  generalize (gtsTemps F T x s).1 = tt
  have near : Near F T x (gtsNodes F T x (gtsTemps F T x s).2).2 (gtsNodes F T x (gtsTemps F T x s).2).2 :=
    h2.mono (f' := nodesSet) False.elim False.elim False.elim (fun _ => id) (fun _ => id) (fun _ => False.elim)
      (fun _ => False.elim) (fun _ => False.elim) (fun _ => False.elim)
  generalize (gtsNodes F T x (gtsTemps F T x s).2).2 = st at near
  obtain ⟨r⟩ := Run.mk' (F := F) (T := T) (x := x) mass tt.1 tt.2.1 tt.2.2 st
  obtain ⟨r'⟩ := Run.mk' (F := F) (T := T) (x := x) 48 tt.1 tt.2.1 tt.2.2 st
  have h450 : x.alt < 450 := lt_of_le_of_lt ha (by norm_num)
  have en := r.n2_eq hT near r' hm (by decide) (Or.inl h450) (Or.inl h450)
  obtain ⟨eg, a0, -, -, -, -, -, -, -, al⟩ := r.near hT near r'
  have nn : ∀ k, 1 ≤ k → k ≤ 4 → nodesSet.n1 k := fun k h1 h2 => ⟨h1, h2⟩
  have e1 := r.evaluated hT near.ready
  have e2 := r'.evaluated hT near.ready
  have edm : r.s1.dm28 = r'.s1.dm28 := by
    have e : ∀ v, gtsN2 F T x mass tt.1 tt.2.1 tt.2.2 v = gtsN2 F T x 48 tt.1 tt.2.1 tt.2.2 v := by
      intro v
      have hl : (altl 5 : K) = 450 := rfl
      unfold gtsN2
      rw [hl, if_pos (Or.inl h450), if_pos (Or.inl h450)]
    rw [r.h1, r'.h1, if_pos hm, if_pos (by decide), eg, e]
    exact (gtsN2_rel (f := nodesSet) x 48 _ _ _ _ nn rfl _ _ a0).2.dm28 (Or.inr ⟨⟨ha, h14⟩, Or.inl h450⟩)
  have ed : (gtsDens F T x mass tt.1 tt.2.1 tt.2.2 st).1.1 2 = (gtsDens F T x 48 tt.1 tt.2.1 tt.2.2 st).1.1 2 := by
    rw [r.dens 2 (by omega), r'.dens 2 (by omega)]
    show r.n2.1 = r'.n2.1
    rw [en]
  refine ⟨?_, trivial, ?_⟩
  · cases x.meters
    · exact ed
    · simp only [if_true, toMeters, if_neg (by omega : (2 : ℕ) ≠ 5), ed]
  · have U1 := evaluated_untouched (x := x) (F := F) hT (fun v => v = r.s1.dm28)
    have U2 := evaluated_untouched (x := x) (F := F) hT (fun v => v = r'.s1.dm28)
    have k1 : ∀ {P : St K → Prop}, Untouched F T x P → ∀ (b : Prop) [Decidable b] (v : K) alt,
        Keeps P (if b then (do
          let q ← densu F T alt 1 tt.1 tt.2.1 0 0 (T.ptm 5) tt.2.2
          pure q.2) else pure v : M K K) :=
      fun U b _ v alt => Keeps.ite (Keeps.bind (U.densu _ _ _ _ _ _ _ _) fun _ => Keeps.pure _) (Keeps.pure _)
    have f1 := k1 U1 (jOf mass ≠ 5) (gtsDens F T x mass tt.1 tt.2.1 tt.2.2 st).1.2 |x.alt| _ e1
    have f2 := k1 U2 (jOf 48 ≠ 5) (gtsDens F T x 48 tt.1 tt.2.1 tt.2.2 st).1.2 |x.alt| _ e2
    refine ⟨al.both (fun s0 => k1 (near_untouched hT s0) _ _ _) (fun s0 => k1 (near_untouched hT s0) _ _ _),
      f1.plg.trans f2.plg.symm, fun hd => (f1.trig hd).trans (f2.trig hd).symm, f1.dfa.trans f2.dfa.symm, ?_⟩
    exact f1.dm.trans (edm.trans f2.dm.symm)

/-- The state with other magnetic indexes. -/
def setAp (u v : K) (s : St K) : St K := { s with apdf := u, apt0 := v }

/-- A computation that neither reads nor writes the magnetic indexes. -/
def Blind {α : Type} (m : M K α) : Prop := ∀ u v s, m (setAp u v s) = ((m s).1, setAp u v (m s).2)

omit [Field K] [LinearOrder K] [IsStrictOrderedRing K] in
theorem Blind.bind {α β : Type} {m : M K α} {f : α → M K β} (h1 : Blind m) (h2 : ∀ a, Blind (f a)) : Blind (m >>= f) := by
  intro u v s
  rw [bind_run, bind_run, h1 u v s]
  exact h2 _ u v _

omit [Field K] [LinearOrder K] [IsStrictOrderedRing K] in
theorem Blind.pure {α : Type} (a : α) : Blind (pure a : M K α) := fun _ _ _ => rfl

omit [Field K] [LinearOrder K] [IsStrictOrderedRing K] in
theorem Blind.rd {α : Type} {f : St K → α} (h : ∀ u v s, f (setAp u v s) = f s) : Blind (rd f) :=
  fun u v s => by show (f (setAp u v s), setAp u v s) = _; rw [h]; rfl

omit [Field K] [LinearOrder K] [IsStrictOrderedRing K] in
theorem Blind.upd {f : St K → St K} (h : ∀ u v s, f (setAp u v s) = setAp u v (f s)) : Blind (upd f) :=
  fun u v s => by show ((), f (setAp u v s)) = _; rw [h]; rfl

omit [Field K] [LinearOrder K] [IsStrictOrderedRing K] in
theorem Blind.ite {α : Type} {c : Prop} [Decidable c] {m m' : M K α} (h1 : Blind m) (h2 : Blind m') :
    Blind (if c then m else m') := by
  split <;> assumption

/-- The node arrays of the middle atmosphere have no magnetic terms. -/
def Quiet (T : Tab K) : Prop :=
  ∀ k ∈ [0, 1, 2, 9], T.p (.pma k) 32 = 0 ∧ T.p (.pma k) 45 = 0 ∧ T.p (.pma k) 50 = 0 ∧ T.p (.pma k) 96 = 0

omit [IsStrictOrderedRing K] in
theorem glob7s_blind (hQ : Quiet T) (k : ℕ) (hk : k ∈ [0, 1, 2, 9]) : Blind (glob7s F T x (.pma k)) := by
  obtain ⟨h1, h2, h3, h4⟩ := hQ k hk
  refine Blind.bind (Blind.upd fun _ _ _ => rfl) fun _ => Blind.rd fun u v s => ?_
  have h8 : ∀ g a b, sT8 (T.p (.pma k)) x g a b = 0 := by
    intro g a b
    unfold sT8
    rw [h1, h2, h3, h4]
    split_ifs <;> ring
  simp only [globsSum, h8]
  rfl

omit [IsStrictOrderedRing K] in
theorem gtdNodes2_blind (hQ : Quiet T) : Blind (gtdNodes2 F T x) := by
  unfold gtdNodes2
  exact Blind.bind (Blind.upd fun _ _ _ => rfl) fun _ => Blind.bind (glob7s_blind hQ 0 (by simp)) fun _ =>
    Blind.bind (Blind.upd fun _ _ _ => rfl) fun _ => Blind.bind (glob7s_blind hQ 1 (by simp)) fun _ =>
    Blind.bind (Blind.upd fun _ _ _ => rfl) fun _ => Blind.bind (glob7s_blind hQ 2 (by simp)) fun _ =>
    Blind.bind (Blind.upd fun _ _ _ => rfl) fun _ => Blind.bind (glob7s_blind hQ 9 (by simp)) fun _ =>
    Blind.upd fun _ _ _ => rfl

omit [IsStrictOrderedRing K] in
theorem densm_blind (alt d0 xm tz : K) : Blind (densm F alt d0 xm tz) := by
  unfold densm
  refine Blind.bind (Blind.rd fun _ _ _ => rfl) fun _ => Blind.bind (Blind.rd fun _ _ _ => rfl) fun _ => Blind.ite ?_
    (Blind.pure _)
  refine Blind.bind (Blind.rd fun _ _ _ => rfl) fun _ => Blind.bind (Blind.rd fun _ _ _ => rfl) fun _ => Blind.ite ?_
    (Blind.pure _)
  exact Blind.bind (Blind.rd fun _ _ _ => rfl) fun _ => Blind.bind (Blind.rd fun _ _ _ => rfl) fun _ => Blind.pure _

/-- The end of `gtd7` between 32.5 and 72.5 km. -/
def lowerPart (F : Fns K) (T : Tab K) (tzg : K) (x : In K) : M K (K × K × K) := do
  upd fun s => { s with dm28m := if x.meters then s.dm28 * 1e6 else s.dm28 }
  gtdNodes2 F T x
  let dm28m ← rd (·.dm28m)
  let r ← densm F x.alt dm28m (xmm T) tzg
  pure (dm28m, r)

/-- From what two requests leave behind the rest is the same. -/
theorem lowerPart_same (hT : TabOk T) (hQ : Quiet T) (tzg : K) (h32 : 32.5 < x.alt) (s s' : St K) (h : Left F T x s s') :
    (lowerPart F T tzg x s).1 = (lowerPart F T tzg x s').1 := by
  have hb : Blind (lowerPart F T tzg x) :=
    Blind.bind (Blind.upd fun _ _ _ => rfl) fun _ => Blind.bind (gtdNodes2_blind hQ) fun _ =>
      Blind.bind (Blind.rd fun _ _ _ => rfl) fun _ => Blind.bind (densm_blind _ _ _ _) fun _ => Blind.pure _
  have e : (lowerPart F T tzg x s').1 = (lowerPart F T tzg x (setAp s.apdf s.apt0 s')).1 := by rw [hb]
  rw [e]
  have ag : Agree F T x.glat x.lst x.doy x.sw
      ⟨True, True, False, False, fun k => 1 ≤ k ∧ k ≤ 4, fun k => k = 1, fun _ => False, fun _ => False, fun _ => False,
        fun _ => False⟩ s (setAp s.apdf s.apt0 s') :=
    { ready := h.near.ready
      ready' := keep h.near.ready'
      p24 := h.near.p24
      re := h.near.re
      gsurf := h.near.gsurf
      plg := fun _ => h.plg
      trig := fun _ => h.trig
      dfa := fun _ => h.dfa
      apdf := fun _ _ => rfl
      apt0 := fun _ _ => rfl
      tn1 := h.near.tn1
      tgn1 := h.near.tgn1
      tn2 := fun _ => False.elim
      tgn2 := fun _ => False.elim
      tn3 := fun _ => False.elim
      tgn3 := fun _ => False.elim
      dm28 := fun _ => h.dm
      xg0 := False.elim
      dm28m := False.elim }
  have hz : (zn3 0 : K) = 32.5 := rfl
  have R : Rel (Agree F T x.glat x.lst x.doy x.sw
      ⟨True, True, False, False, fun k => 1 ≤ k ∧ k ≤ 4, fun k => k = 1, fun _ => False, fun _ => False, fun _ => False,
        fun _ => False⟩) (lowerPart F T tzg x) (fun _ _ _ => True) := by
    unfold lowerPart
    refine Rel.bind (Q := fun _ => Agree F T x.glat x.lst x.doy x.sw
      ⟨True, True, False, True, fun k => 1 ≤ k ∧ k ≤ 4, fun k => k = 1, fun _ => False, fun _ => False, fun _ => False,
        fun _ => False⟩) (Rel.upd fun s s' h => ?_) fun _ => ?_
    · exact { h with
        ready := keep h.ready
        ready' := keep h.ready'
        dm28m := fun _ => by dsimp only; rw [h.dm28 trivial] }
    refine Rel.bind (gtdNodes2_rel hT x trivial ⟨by omega, by omega⟩ rfl) fun _ => ?_
    refine Rel.bind (Rel.rd fun s s' h => h.dm28m trivial) fun d => ?_
    refine Rel.bind (densm_rel _ _ _ _ (fun _ => id) (fun _ => id) fun h => ?_) fun r => Rel.pure _ fun _ _ _ => trivial
    rw [hz] at h
    exact absurd h (not_le.2 h32)
  exact (R _ _ ag).1

omit [IsStrictOrderedRing K] in
/-- `gtd7` between 62.5 and 72.5 km. -/
theorem gtd7_middle (tzg : K) (mass : ℤ) (old : Out K) (h1 : 62.5 ≤ x.alt) (h2 : x.alt < 72.5) (h32 : 32.5 < x.alt)
    (hm : mass ≠ 0) (s : St K) :
    (gtd7 F T tzg x mass old s).1 =
      let g := gts7 F T { x with alt := max x.alt (zn2 0) } mass (glatf F (if |x.sw 1| < 0 then 45 else x.glat) s).2
      let l := (lowerPart F T tzg x g.2).1
      { d := gtdMix T x.alt x.meters mass g.1.d l.1 l.2.1 old.d, t0 := g.1.t0, t1 := l.2.2 } := by
  have hz0 : (zn3 0 : K) = 32.5 := rfl
  have hz2 : (zn2 0 : K) = 72.5 := rfl
  have hzm : (zmix : K) = 62.5 := rfl
  have n1 : ¬ (x.alt < zmix ∧ mass > 0) := fun h => absurd h.1 (not_lt.2 (by rw [hzm]; exact h1))
  have n2 : ¬ x.alt ≥ zn2 0 := by rw [hz2]; exact not_le.2 h2
  have n3 : ¬ x.alt < zn3 0 := by rw [hz0]; exact not_lt.2 h32.le
  unfold gtd7 lowerPart
  simp only [bind_run, if_neg n1, if_neg n2, if_neg n3, if_neg hm, pure_run]

omit [IsStrictOrderedRing K] in
/-- `gtd7` from 72.5 km on. -/
theorem gtd7_high (tzg : K) (mass : ℤ) (old : Out K) (h1 : x.alt ≥ zn2 0) (h2 : ¬ (x.alt < zmix ∧ mass > 0)) (s : St K) :
    (gtd7 F T tzg x mass old s).1 =
      let g := gts7 F T { x with alt := max x.alt (zn2 0) } mass (glatf F (if |x.sw 1| < 0 then 45 else x.glat) s).2
      { d := fun k => if k < 9 then g.1.d k else old.d k, t0 := g.1.t0, t1 := g.1.t1 } := by
  unfold gtd7
  simp only [bind_run, if_neg h2, if_pos h1, pure_run]

omit [IsStrictOrderedRing K] in
/-- The densities of the mixing region. -/
theorem gtdMix_request (alt : K) (meters : Bool) (mass : ℤ) (i : ℕ) (h : (mass, i) ∈ request) (ds ds' : ℕ → K)
    (dm dens : K) (old old' : ℕ → K) (h2 : ds 2 = ds' 2) (hi : i ∈ [0, 3, 4] → ds i = ds' i) :
    gtdMix T alt meters mass ds dm dens old i = gtdMix T alt meters 48 ds' dm dens old' i := by
  simp only [request, List.mem_cons, Prod.mk.injEq, List.not_mem_nil, or_false] at h
  rcases h with ⟨rfl, rfl⟩ | ⟨rfl, rfl⟩ | ⟨rfl, rfl⟩ | ⟨rfl, rfl⟩ | ⟨rfl, rfl⟩ | ⟨rfl, rfl⟩ | ⟨rfl, rfl⟩ | ⟨rfl, rfl⟩ <;>
    simp [gtdMix, put, h2] <;> rw [hi (by simp)]

/-- **C124** Asked for one species, the model gives the density of this species and the temperatures that it gives when asked
for all, at every altitude and whatever was computed before; atomic nitrogen only below 72.5 km. -/
theorem gtd7_request_partial (hT : TabOk T) (hQ : Quiet T) (tzg tzg' : K) (mass : ℤ) (i : ℕ) (h : (mass, i) ∈ request)
    (h14 : mass = 14 → x.alt < 72.5) (hsw : x.alt < 72.5 → |x.sw 14| > 0) (old old' : Out K) (s s' : St K)
    (hr : Ready F T x.glat x.lst x.doy s) (hr' : Ready F T x.glat x.lst x.doy s')
    (hp : ∀ a, clamp24 (s.p24 a) = clamp24 (s'.p24 a))
    (halt : x.alt > 32.5 ∨ (x.alt < 32.5 ∧ s.tn3 0 = s'.tn3 0)) :
    (gtd7 F T tzg x mass old s).1.d i = (gtd7 F T tzg' x 48 old' s').1.d i ∧
      (gtd7 F T tzg x mass old s).1.t0 = (gtd7 F T tzg' x 48 old' s').1.t0 ∧
      (gtd7 F T tzg x mass old s).1.t1 = (gtd7 F T tzg' x 48 old' s').1.t1 := by
  have hz2 : (zn2 0 : K) = 72.5 := rfl
  have hzm : (zmix : K) = 62.5 := rfl
  have mix : MixSet x 48 := by
    rcases lt_or_ge x.alt 72.5 with ha | ha
    · exact Or.inr (Or.inr ⟨hsw ha, Or.inr (by decide)⟩)
    · exact Or.inl ha
  rw [← gtd7_agree hT tzg tzg' x 48 old' s s' hr hr' hp halt mix]
  clear halt hp hr' mix
  have hpos : 0 < mass ∧ mass ∈ mt ∧ i < 9 := by
    simp only [request, List.mem_cons, Prod.mk.injEq, List.not_mem_nil, or_false] at h
    rcases h with h | h | h | h | h | h | h | h <;> rw [h.1, h.2] <;> decide
  have hrg : Ready F T x.glat x.lst x.doy (glatf F (if |x.sw 1| < 0 then 45 else x.glat) s).2 := keep hr
  rcases lt_or_ge x.alt 72.5 with ha | ha
  · rcases lt_or_ge x.alt 62.5 with hb | hb
    · have n2 : ¬ x.alt ≥ zn2 0 := by rw [hz2]; exact not_le.2 ha
      have y1 : x.alt < zmix ∧ mass > 0 := ⟨by rw [hzm]; exact hb, hpos.1⟩
      have y2 : x.alt < zmix ∧ (48 : ℤ) > 0 := ⟨by rw [hzm]; exact hb, by decide⟩
      unfold gtd7
      simp only [bind_run, if_pos y1, if_pos y2, if_neg n2, if_neg hpos.1.ne', if_neg (by decide : (48 : ℤ) ≠ 0), pure_run]
      by_cases n3 : x.alt < zn3 0
      · simp only [if_pos n3, bind_run, pure_run]
        exact ⟨gtdMix_request _ _ _ _ h _ _ _ _ _ _ rfl fun _ => rfl, trivial, trivial⟩
      · simp only [if_neg n3, bind_run, pure_run]
        exact ⟨gtdMix_request _ _ _ _ h _ _ _ _ _ _ rfl fun _ => rfl, trivial, trivial⟩
    · have h32 : 32.5 < x.alt := lt_of_lt_of_le (by norm_num) hb
      have hx : max x.alt (zn2 0) = 72.5 := by rw [hz2]; exact max_eq_right ha.le
      obtain ⟨e2, e0, le⟩ := gts7_left (x := { x with alt := max x.alt (zn2 0) }) hT mass hpos.2.1 hpos.1.ne'
        (by show max x.alt (zn2 0) ≤ 160; rw [hx]; norm_num) (hsw ha) _ hrg
      have same := lowerPart_same (x := x) hT hQ tzg h32 _ _ ⟨le.near, le.plg, le.trig, le.dfa, le.dm⟩
      rw [gtd7_middle tzg mass old hb ha h32 hpos.1.ne', gtd7_middle tzg 48 old' hb ha h32 (by decide)]
      dsimp only
      rw [same, e0]
      refine ⟨gtdMix_request _ _ _ _ h _ _ _ _ _ _ e2 fun hi => ?_, rfl, rfl⟩
      have hne : mass ≠ 14 := by
        rintro rfl
        simp [request] at h
        subst h
        simp at hi
      exact (gts7_request (x := { x with alt := max x.alt (zn2 0) }) hT mass i h hne
        (by show 0 ≤ max x.alt (zn2 0); rw [hx]; norm_num) _ hrg).1
  · have y : x.alt ≥ zn2 0 := by rw [hz2]; exact ha
    have ym : ¬ (x.alt < zmix ∧ mass > 0) := fun h => absurd h.1 (not_lt.2 (by rw [hzm]; exact le_trans (by norm_num) ha))
    have y4 : ¬ (x.alt < zmix ∧ (48 : ℤ) > 0) := fun h =>
      absurd h.1 (not_lt.2 (by rw [hzm]; exact le_trans (by norm_num) ha))
    have hne : mass ≠ 14 := fun e => absurd (h14 e) (not_lt.2 ha)
    have hx : 0 ≤ max x.alt (zn2 0) := le_max_of_le_right (by rw [hz2]; norm_num)
    obtain ⟨g1, g2, g3⟩ := gts7_request (x := { x with alt := max x.alt (zn2 0) }) hT mass i h hne hx _ hrg
    rw [gtd7_high tzg mass old y ym, gtd7_high tzg 48 old' y y4]
    refine ⟨?_, g2, g3⟩
    dsimp only
    rw [if_pos hpos.2.2, if_pos hpos.2.2]
    exact g1

/-! ### Atomic nitrogen -/

/-- What is kept by everything but the choice of the latitude. -/
def Radius (F : Fns K) (T : Tab K) (x : In K) (ρ : K) (s : St K) : Prop := Ready F T x.glat x.lst x.doy s ∧ s.re = ρ

theorem radius_globe7 (hT : TabOk T) (ρ : K) (a : Arr) (ha : GArr a) : Keeps (Radius F T x ρ) (globe7 F T x a) := by
  intro s h
  have r := globe7_ready F T hT x a ha s h.1
  obtain ⟨v, w, τ, q, -, -, -, -, -, e, -⟩ := globe7_eq F T x a ha s h.1
  refine ⟨r, ?_⟩
  rw [e]
  exact h.2

theorem radius_untouched (hT : TabOk T) (ρ : K) : Untouched F T x (Radius F T x ρ) where
  globe := fun a ha => radius_globe7 hT ρ a ha
  nodes := fun _ _ _ h => ⟨keep h.1, h.2⟩
  dd := fun _ _ h => ⟨keep h.1, h.2⟩

theorem Run.radius (hT : TabOk T) {mass : ℤ} {tinf tlb s ρ : K} {st : St K} (hr : Radius F T x ρ st)
    (r : Run F T x mass tinf tlb s st) : Radius F T x ρ r.s6 := by
  have U := radius_untouched (x := x) (F := F) hT ρ
  have K' : ∀ {b : Prop} [Decidable b] {m : M K K}, Keeps (Radius F T x ρ) m → Keeps (Radius F T x ρ) (part b m) :=
    fun h => Keeps.ite h (Keeps.pure _)
  have c0 : Radius F T x ρ r.s0 := by rw [r.h0]; exact U.globe _ (Or.inr (Or.inr ⟨2, by omega, rfl⟩)) _ hr
  have c1 : Radius F T x ρ r.s1 := by
    rw [r.h1]
    exact Keeps.ite (U.n2 (fun _ _ h => ⟨keep h.1, h.2⟩) _ _ _ _ _) (Keeps.pure _) _ c0
  have c2 : Radius F T x ρ r.s2 := by rw [r.h2]; exact K' (U.he r.c) _ c1
  have c3 : Radius F T x ρ r.s3 := by rw [r.h3]; exact K' (U.o r.c) _ c2
  have c4 : Radius F T x ρ r.s4 := by rw [r.h4]; exact K' (U.o2 mass r.c) _ c3
  have c5 : Radius F T x ρ r.s5 := by rw [r.h5]; exact K' (U.ar r.c) _ c4
  rw [r.h6]
  exact K' (U.h r.c) _ c5

/-- With the variations of the temperatures switched off. -/
theorem temps_off (hT : TabOk T) (h15 : x.sw 15 = 0) (h16 : x.sw 16 = 0) (h18 : x.sw 18 = 0) (s : St K)
    (hr : Ready F T x.glat x.lst x.doy s) :
    (gtsTemps F T x s).1 = (T.ptm 0 * T.p .pt 0, T.ptm 1 * T.p (.pd 3) 0,
      T.ptm 3 * T.p .ps 0 / (T.ptm 0 * T.p .pt 0 - T.ptm 1 * T.p (.pd 3) 0)) ∧
      Radius F T x s.re (gtsTemps F T x s).2 := by
  have h3 : GArr (.pd 3) := Or.inr (Or.inr ⟨3, by omega, rfl⟩)
  have key : ∀ (t : St K) (v : K), Radius F T x s.re t →
      ((globe7 F T x (.pd 3) { t with xg0 := v }).2).xg0 = v ∧
        Radius F T x s.re (globe7 F T x (.pd 3) { t with xg0 := v }).2 := by
    intro t v ht
    have hr' : Radius F T x s.re { t with xg0 := v } := ⟨keep ht.1, ht.2⟩
    obtain ⟨_, _, _, _, -, -, -, -, -, e, -⟩ := globe7_eq F T x (.pd 3) h3 { t with xg0 := v } hr'.1
    exact ⟨by rw [e], radius_globe7 hT _ _ h3 _ hr'⟩
  have set : ∀ (t : St K) (v : K), Radius F T x s.re t → Radius F T x s.re { t with tlb := v } :=
    fun t v ht => ⟨keep ht.1, ht.2⟩
  have hr0 : Radius F T x s.re s := ⟨hr, rfl⟩
  have g1 := radius_globe7 hT s.re .pt (Or.inl rfl) _ hr0
  unfold gtsTemps
  simp only [bind_run, h15, h16, h18, zero_mul, add_zero, mul_one]
  by_cases c1 : x.alt > zn1 T 0 <;> by_cases c2 : x.alt > zn1 T 4 <;>
    simp only [if_pos, if_neg, c1, c2, if_true, if_false, bind_run, pure_run, rd_run, upd_run]
  · obtain ⟨k1, k2⟩ := key _ (T.ptm 3 * T.p .ps 0) (radius_globe7 hT s.re .ps (Or.inr (Or.inl rfl)) _ g1)
    exact ⟨by rw [k1], set _ _ k2⟩
  · obtain ⟨k1, k2⟩ := key _ (T.ptm 3 * T.p .ps 0) g1
    exact ⟨by rw [k1], set _ _ k2⟩
  · obtain ⟨k1, k2⟩ := key _ (T.ptm 3 * T.p .ps 0) (radius_globe7 hT s.re .ps (Or.inr (Or.inl rfl)) _ hr0)
    exact ⟨by rw [k1], set _ _ k2⟩
  · obtain ⟨k1, k2⟩ := key _ (T.ptm 3 * T.p .ps 0) hr0
    exact ⟨by rw [k1], set _ _ k2⟩

omit [IsStrictOrderedRing K] in
/-- The densities of `gts7` from those of the parts. -/
theorem gts7_dens (mass : ℤ) (hm : mass ≠ 0) (k : ℕ) (hk : k ≠ 5) (s : St K) :
    (gts7 F T x mass s).1.d k = (gtsDens F T x mass (gtsTemps F T x s).1.1 (gtsTemps F T x s).1.2.1
      (gtsTemps F T x s).1.2.2 (gtsNodes F T x (gtsTemps F T x s).2).2).1.1 k * (if x.meters then 1e6 else 1) := by
  unfold gts7 gtsCore
  simp only [bind_run, pure_run, if_pos hm]
  generalize (gtsTemps F T x s).1 = tt
  generalize (gtsNodes F T x (gtsTemps F T x s).2).2 = st
  cases x.meters
  · exact (mul_one _).symm
  · simp only [if_true, toMeters, if_neg hk]

theorem gts7_nitrogen_zero (s : St K) : (gts7 F T x 14 s).1.d 7 = 0 := by
  unfold gts7 gtsCore
  simp only [bind_run, pure_run, if_pos (by decide : (14 : ℤ) ≠ 0)]
  generalize (gtsTemps F T x s).1 = tt
  generalize (gtsNodes F T x (gtsTemps F T x s).2).2 = st
  obtain ⟨r⟩ := Run.mk' (F := F) (T := T) (x := x) 14 tt.1 tt.2.1 tt.2.2 st
  have e : (gtsDens F T x 14 tt.1 tt.2.1 tt.2.2 st).1.1 7 = 0 := by
    rw [r.dens 7 (by omega)]
    show r.n = 0
    rw [r.v6]
    unfold part
    rw [if_neg (by decide)]
    rfl
  cases x.meters
  · exact e
  · simp only [if_true, toMeters, if_neg (by omega : (7 : ℕ) ≠ 5), e, zero_mul]

/-- **C124** Asked for atomic nitrogen in the thermosphere the model returns no density at all: zero for every input. -/
theorem nitrogen_zero (tzg : K) (ha : 72.5 ≤ x.alt) (old : Out K) (s : St K) : (gtd7 F T tzg x 14 old s).1.d 7 = 0 := by
  have hz2 : (zn2 0 : K) = 72.5 := rfl
  have hzm : (zmix : K) = 62.5 := rfl
  rw [gtd7_high tzg 14 old (by rw [hz2]; exact ha)
    fun h => absurd h.1 (not_lt.2 (by rw [hzm]; exact le_trans (by norm_num) ha))]
  dsimp only
  rw [if_pos (by omega)]
  exact gts7_nitrogen_zero _

end

end Verif.Atmosphere.Msis
