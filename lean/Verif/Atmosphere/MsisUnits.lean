import Verif.Atmosphere.MsisModel
import Mathlib.Tactic.Ring
import Mathlib.Tactic.FieldSimp
import Mathlib.Tactic.NormNum
import Mathlib.Tactic.LinearCombination
import Mathlib.Algebra.BigOperators.Group.List.Basic
import Mathlib.Algebra.BigOperators.Ring.List

/-
C67: total and effective mass density and the unit switch.
-/
namespace Verif.Atmosphere.Msis

variable {K : Type} [Field K] [LinearOrder K] [IsStrictOrderedRing K]

/-! ### Specification -/

/-- The species of the output array with their molecular weights: helium, oxygen, nitrogen molecules,
oxygen molecules, argon, hydrogen, nitrogen. -/
def speciesWeights : List (ℕ × ℕ) := [(0, 4), (1, 16), (2, 28), (3, 32), (4, 40), (6, 1), (7, 14)]

/-- Mass in grams of a list of species with number densities `d`; one atomic mass unit is taken as
`1.66e-24` g. -/
def grams (l : List (ℕ × ℕ)) (d : ℕ → K) : K :=
  (l.map fun p => (1.66e-24 : K) * p.2 * d p.1).sum

/-- The unit conversion from cm⁻³ to m⁻³ of entry `k` of the output array: a number density, except
entry 5 which goes from g/cm³ to kg/m³. -/
def unitFactor (k : ℕ) : K := if k = 5 then 1000 else 1000000

/-! ### Total mass -/

omit [IsStrictOrderedRing K] in
theorem massSum_eq (d : ℕ → K) : massSum d = grams speciesWeights d := by
  simp [massSum, grams, speciesWeights]; ring

omit [IsStrictOrderedRing K] in
theorem massSumD_eq (d : ℕ → K) : massSumD d = grams ((8, 16) :: speciesWeights) d := by
  simp [massSumD, grams, speciesWeights]; ring

omit [LinearOrder K] [IsStrictOrderedRing K] in
theorem grams_put (l : List (ℕ × ℕ)) (hl : ∀ p ∈ l, p.1 ≠ 5) (d : ℕ → K) (v : K) :
    grams l (put d 5 v) = grams l d := by
  unfold grams
  congr 1
  refine List.map_congr_left fun p hp => ?_
  simp [put, hl p hp]

theorem weights_ne : ∀ p ∈ (8, 16) :: speciesWeights, p.1 ≠ 5 := by decide

/-! ### Running computations -/

omit [Field K] [LinearOrder K] [IsStrictOrderedRing K] in
theorem bind_run {α β : Type} (m : M K α) (f : α → M K β) (s : St K) :
    (m >>= f) s = f (m s).1 (m s).2 := rfl

omit [Field K] [LinearOrder K] [IsStrictOrderedRing K] in
theorem pure_run {α : Type} (a : α) (s : St K) : (pure a : M K α) s = (a, s) := rfl

omit [Field K] [LinearOrder K] [IsStrictOrderedRing K] in
theorem ite_run {α : Type} (c : Prop) [Decidable c] (m m' : M K α) (s : St K) :
    (if c then m else m') s = if c then m s else m' s := by split <;> rfl

/-- **C67 (effective mass density).**  For the standard setting `mass = 48`, whatever the state of the
model, the caller's array and the input, the reported mass density is the mass of the reported number
densities of all species, anomalous oxygen included once; it is in g/cm³, or in kg/m³ (divided by
1000) when number densities are in m⁻³. -/
theorem gtd7d_mass (F : Fns K) (T : Tab K) (tzg : K) (x : In K) (old : Out K) (s : St K) :
    (gtd7d F T tzg x 48 old s).1.d 5 =
      grams ((8, 16) :: speciesWeights) (gtd7d F T tzg x 48 old s).1.d /
        (if x.meters then 1000 else 1) := by
  simp only [gtd7d, bind_run, pure_run, if_true]
  generalize (gtd7 F T tzg x 48 old s).1.d = d
  cases x.meters
  · simp only [Bool.false_eq_true, if_false, div_one]
    rw [grams_put _ weights_ne, massSumD_eq]
    simp [put]
  · simp only [if_true]
    rw [grams_put _ weights_ne, grams_put _ weights_ne, massSumD_eq]
    simp only [put, if_true]
    norm_num

/-- **C67 (number densities untouched).**  `gtd7d` changes only the mass density. -/
theorem gtd7d_others (F : Fns K) (T : Tab K) (tzg : K) (x : In K) (mass : ℤ) (old : Out K) (s : St K)
    (k : ℕ) (hk : k ≠ 5) :
    (gtd7d F T tzg x mass old s).1.d k = (gtd7 F T tzg x mass old s).1.d k := by
  simp only [gtd7d, bind_run, pure_run]
  generalize (gtd7 F T tzg x mass old s).1.d = d
  cases x.meters <;> by_cases h48 : mass = 48 <;> simp [put, hk, h48]

/-! ### Units -/

/-- The same input with the other unit setting. -/
def withMeters (x : In K) (b : Bool) : In K := { x with meters := b }

omit [IsStrictOrderedRing K] in
theorem globe7_meters (F : Fns K) (T : Tab K) (x : In K) (b : Bool) (a : Arr) :
    globe7 F T (withMeters x b) a = globe7 F T x a := rfl

omit [IsStrictOrderedRing K] in
theorem glob7s_meters (F : Fns K) (T : Tab K) (x : In K) (b : Bool) (a : Arr) :
    glob7s F T (withMeters x b) a = glob7s F T x a := rfl

omit [IsStrictOrderedRing K] in
theorem gtsTemps_meters (F : Fns K) (T : Tab K) (x : In K) (b : Bool) :
    gtsTemps F T (withMeters x b) = gtsTemps F T x := by
  simp only [gtsTemps, globe7_meters]; rfl

omit [IsStrictOrderedRing K] in
theorem gtsNodes_meters (F : Fns K) (T : Tab K) (x : In K) (b : Bool) :
    gtsNodes F T (withMeters x b) = gtsNodes F T x := by
  simp only [gtsNodes, glob7s_meters]; rfl

omit [IsStrictOrderedRing K] in
theorem gtsN2_meters (F : Fns K) (T : Tab K) (x : In K) (b : Bool) (mass : ℤ) (tinf tlb s g : K) :
    gtsN2 F T (withMeters x b) mass tinf tlb s g = gtsN2 F T x mass tinf tlb s g := by
  simp only [gtsN2]; rfl

omit [IsStrictOrderedRing K] in
theorem species_meters (F : Fns K) (T : Tab K) (x : In K) (b : Bool) (c : Ctx K) (k : ℕ) (a : Arr) (m : K) (ia il : ℕ) (corr : K → K → K) :
    species F T (withMeters x b) c k a m ia il corr = species F T x c k a m ia il corr := by
  simp only [species, globe7_meters]; rfl

omit [IsStrictOrderedRing K] in
theorem gtsHe_meters (F : Fns K) (T : Tab K) (x : In K) (b : Bool) (c : Ctx K) :
    gtsHe F T (withMeters x b) c = gtsHe F T x c := by
  simp only [gtsHe, species_meters]; rfl

omit [IsStrictOrderedRing K] in
theorem gtsO_meters (F : Fns K) (T : Tab K) (x : In K) (b : Bool) (c : Ctx K) :
    gtsO F T (withMeters x b) c = gtsO F T x c := by
  simp only [gtsO, species_meters]; rfl

omit [IsStrictOrderedRing K] in
theorem gtsAr_meters (F : Fns K) (T : Tab K) (x : In K) (b : Bool) (c : Ctx K) :
    gtsAr F T (withMeters x b) c = gtsAr F T x c := by
  simp only [gtsAr, species_meters]; rfl

omit [IsStrictOrderedRing K] in
theorem gtsH_meters (F : Fns K) (T : Tab K) (x : In K) (b : Bool) (c : Ctx K) :
    gtsH F T (withMeters x b) c = gtsH F T x c := by
  simp only [gtsH, species_meters]; rfl

omit [IsStrictOrderedRing K] in
theorem gtsN_meters (F : Fns K) (T : Tab K) (x : In K) (b : Bool) (c : Ctx K) :
    gtsN F T (withMeters x b) c = gtsN F T x c := by
  simp only [gtsN, species_meters]; rfl

omit [IsStrictOrderedRing K] in
theorem gtsO2_meters (F : Fns K) (T : Tab K) (x : In K) (b : Bool) (mass : ℤ) (c : Ctx K) :
    gtsO2 F T (withMeters x b) mass c = gtsO2 F T x mass c := by
  simp only [gtsO2, globe7_meters]; rfl

omit [IsStrictOrderedRing K] in
theorem gtsAnomO_meters (F : Fns K) (T : Tab K) (x : In K) (b : Bool) (c : Ctx K) :
    gtsAnomO F T (withMeters x b) c = gtsAnomO F T x c := by
  simp only [gtsAnomO, globe7_meters]; rfl

omit [IsStrictOrderedRing K] in
theorem gtsDens_meters (F : Fns K) (T : Tab K) (x : In K) (b : Bool) (mass : ℤ) (tinf tlb s : K) :
    gtsDens F T (withMeters x b) mass tinf tlb s = gtsDens F T x mass tinf tlb s := by
  simp only [gtsDens, globe7_meters, gtsN2_meters, gtsHe_meters, gtsO_meters, gtsO2_meters,
    gtsAr_meters, gtsH_meters, gtsN_meters, gtsAnomO_meters]
  rfl

omit [IsStrictOrderedRing K] in
theorem gtsCore_meters (F : Fns K) (T : Tab K) (x : In K) (b : Bool) (mass : ℤ) :
    gtsCore F T (withMeters x b) mass = gtsCore F T x mass := by
  simp only [gtsCore, gtsTemps_meters, gtsNodes_meters, gtsDens_meters]; rfl

omit [IsStrictOrderedRing K] in
theorem gtdNodes2_meters (F : Fns K) (T : Tab K) (x : In K) (b : Bool) :
    gtdNodes2 F T (withMeters x b) = gtdNodes2 F T x := by
  simp only [gtdNodes2, glob7s_meters]; rfl

omit [IsStrictOrderedRing K] in
theorem gtdNodes3_meters (F : Fns K) (T : Tab K) (x : In K) (b : Bool) :
    gtdNodes3 F T (withMeters x b) = gtdNodes3 F T x := by
  simp only [gtdNodes3, glob7s_meters]; rfl

/-- Overwrite `dm28m`. -/
def setM (s : St K) (v : K) : St K := { s with dm28m := v }

omit [Field K] [LinearOrder K] [IsStrictOrderedRing K] in
theorem upd_run (f : St K → St K) (s : St K) : upd f s = ((), f s) := rfl

omit [Field K] [LinearOrder K] [IsStrictOrderedRing K] in
theorem rd_run {α : Type} (f : St K → α) (s : St K) : rd f s = (f s, s) := rfl

omit [IsStrictOrderedRing K] in
theorem glob7s_setM (F : Fns K) (T : Tab K) (x : In K) (a : Arr) (s : St K) (v : K) :
    glob7s F T x a (setM s v) = ((glob7s F T x a s).1, setM (glob7s F T x a s).2 v) := rfl

omit [IsStrictOrderedRing K] in
theorem gtdNodes2_setM (F : Fns K) (T : Tab K) (x : In K) (s : St K) (v : K) :
    gtdNodes2 F T x (setM s v) = ((), setM (gtdNodes2 F T x s).2 v) := by
  simp only [gtdNodes2, bind_run, upd_run]
  rfl

omit [IsStrictOrderedRing K] in
theorem gtdNodes3_setM (F : Fns K) (T : Tab K) (x : In K) (s : St K) (v : K) :
    gtdNodes3 F T x (setM s v) = ((), setM (gtdNodes3 F T x s).2 v) := by
  simp only [gtdNodes3, bind_run, upd_run]
  rfl

attribute [local irreducible] densmPart nearzero zn2 zn3 in
/-- `densm` is linear in the density at its upper end, as long as the molecular weight is not zero. -/
theorem densm_scale (F : Fns K) (alt d0 xm tz c v : K) (hxm : nearzero ≤ |xm|) (s : St K) :
    (densm F alt (d0 * c) xm tz (setM s v)).1 =
      ((densm F alt d0 xm tz s).1.1 * c, (densm F alt d0 xm tz s).1.2) := by
  simp only [densm, bind_run, rd_run, ite_run, pure_run, setM]
  have hx : ¬ |xm| < nearzero := not_lt.mpr hxm
  simp only [if_neg hx]
  by_cases h1 : alt ≤ zn2 0
  · simp only [if_pos h1]
    by_cases h2 : alt ≤ zn3 0
    · simp only [if_pos h2]
      by_cases h3 : |xm| > nearzero
      · simp only [if_pos h3]
        refine Prod.ext ?_ rfl
        dsimp only
        ring
      · simp only [if_neg h3]
    · simp only [if_neg h2]
      by_cases h3 : |xm| > nearzero
      · simp only [if_pos h3]
        refine Prod.ext ?_ rfl
        dsimp only
        ring
      · simp only [if_neg h3]
  · simp only [if_neg h1]

theorem million_ne : (1e6 : K) ≠ 0 := by norm_num

theorem toMeters_eq (d : ℕ → K) (k : ℕ) : toMeters d k = d k * unitFactor k := by
  unfold toMeters unitFactor
  split
  · next h => subst h; norm_num; ring
  · norm_num

theorem mixed_scale (d2 dsk dz28 r dmc : K) :
    mixed (d2 * 1e6) (dsk * 1e6) (dz28 * 1e6) r dmc = mixed d2 dsk dz28 r dmc * 1e6 := by
  unfold mixed
  have h : dsk * 1e6 / (dz28 * 1e6 * r) = dsk / (dz28 * r) := by
    rw [show dz28 * 1e6 * r = dz28 * r * 1e6 by ring, mul_div_mul_right _ _ million_ne]
  rw [h]; ring

theorem gtdMix_scale (T : Tab K) (alt : K) (ds : ℕ → K) (dm dens : K) (old old' : ℕ → K) (k : ℕ)
    (hk : k < 9) :
    gtdMix T alt true 48 (toMeters ds) (dm * 1e6) (dens * 1e6) old k =
      gtdMix T alt false 48 ds dm dens old' k * unitFactor k := by
  have e : ∀ j, j ≠ 5 → toMeters ds j = ds j * 1e6 := by
    intro j hj; simp [toMeters, hj]
  unfold gtdMix
  simp only [if_true, or_true, if_false, Bool.false_eq_true,
    e 0 (by decide), e 2 (by decide), e 3 (by decide), e 4 (by decide)]
  rw [mul_div_mul_right _ _ million_ne]
  generalize (if alt > zmix then 1 - (zn2 0 - alt) / (zn2 0 - zmix) else 0 : K) = dmc
  rw [show dens * 1e6 * (1 + (ds 2 / dm - 1) * dmc) = dens * (1 + (ds 2 / dm - 1) * dmc) * 1e6 by ring]
  simp only [mixed_scale]
  have hc : (1e6 : K) = 1000000 := by norm_num
  have hd : (1e3 : K) = 1000 := by norm_num
  rcases k with _ | _ | _ | _ | _ | _ | _ | _ | _ | k
  · simp [put, unitFactor, hc]
  · simp [put, unitFactor, hc]
  · simp [put, unitFactor, hc]
  · simp [put, unitFactor, hc]
  · simp [put, unitFactor, hc]
  · simp only [put, if_true, unitFactor, massSum, hc, hd]
    field_simp
    ring
  · simp [put, unitFactor, hc]
  · simp [put, unitFactor, hc]
  · simp [put, unitFactor, hc]
  · omega

omit [IsStrictOrderedRing K] in
theorem gts7_meters (F : Fns K) (T : Tab K) (x : In K) (mass : ℤ) (s : St K) :
    gts7 F T (withMeters x true) mass s =
      (⟨toMeters (gts7 F T (withMeters x false) mass s).1.d,
        (gts7 F T (withMeters x false) mass s).1.t0, (gts7 F T (withMeters x false) mass s).1.t1⟩,
        (gts7 F T (withMeters x false) mass s).2) := by
  simp only [gts7, bind_run, pure_run, gtsCore_meters]
  rfl

/-- **C67 (units, `gtd7`).**  For every altitude and every state, requesting metres multiplies each
number density by 10⁶ and the mass density by 10³ and changes neither temperature. -/
theorem gtd7_units (F : Fns K) (T : Tab K) (tzg : K) (x : In K) (old old' : Out K) (s : St K)
    (hT : nearzero ≤ |T.pdm 2 4|) :
    (∀ k < 9, (gtd7 F T tzg (withMeters x true) 48 old s).1.d k =
      (gtd7 F T tzg (withMeters x false) 48 old' s).1.d k * unitFactor k) ∧
    (gtd7 F T tzg (withMeters x true) 48 old s).1.t0 =
      (gtd7 F T tzg (withMeters x false) 48 old' s).1.t0 ∧
    (gtd7 F T tzg (withMeters x true) 48 old s).1.t1 =
      (gtd7 F T tzg (withMeters x false) 48 old' s).1.t1 := by
  have hgt : ∀ b m s, gts7 F T { withMeters x b with alt := max (withMeters x b).alt (zn2 0) } m s =
      gts7 F T (withMeters { x with alt := max x.alt (zn2 0) } b) m s := fun _ _ _ => rfl
  simp only [gtd7, bind_run, ite_run, pure_run, upd_run, rd_run, hgt, gts7_meters, gtdNodes2_meters,
    gtdNodes3_meters]
  have e1 : ∀ b, (withMeters x b).alt = x.alt := fun _ => rfl
  have e2 : ∀ b, (withMeters x b).sw = x.sw := fun _ => rfl
  have e3 : ∀ b, (withMeters x b).glat = x.glat := fun _ => rfl
  have e4 : ∀ b, (withMeters x b).meters = b := fun _ => rfl
  simp only [e1, e2, e3, e4, if_true, if_false, Bool.false_eq_true]
  generalize gts7 F T (withMeters { x with alt := max x.alt (zn2 0) } false)
    (if x.alt < zmix ∧ (48 : ℤ) > 0 then 28 else 48)
    (glatf F (if |x.sw 1| < 0 then 45 else x.glat) s).2 = r
  by_cases h1 : x.alt ≥ zn2 0
  · simp only [if_pos h1]
    refine ⟨fun k hk => ?_, trivial, trivial⟩
    simp only [if_pos hk]
    exact toMeters_eq _ _
  · simp only [if_neg h1, show ¬ ((48 : ℤ) = 0) by decide, if_false]
    change (∀ k < 9, _) ∧ _ ∧ _
    have hs : ∀ v, ({ r.2 with dm28m := v } : St K) = setM r.2 v := fun _ => rfl
    simp only [hs, gtdNodes2_setM]
    have key : ∀ (st : St K), st.dm28m = r.2.dm28 →
        (densm F x.alt (r.2.dm28 * 1e6) (xmm T) tzg (setM st (r.2.dm28 * 1e6))).1 =
        ((densm F x.alt r.2.dm28 (xmm T) tzg (setM st r.2.dm28)).1.1 * 1e6,
         (densm F x.alt r.2.dm28 (xmm T) tzg (setM st r.2.dm28)).1.2) := by
      intro st hst
      have : setM st r.2.dm28 = st := by rw [← hst]; rfl
      rw [this]
      exact densm_scale F _ _ _ _ _ _ hT st
    by_cases h2 : x.alt < zn3 0
    · simp only [if_pos h2, gtdNodes3_setM]
      have := key (setM (gtdNodes3 F T x (gtdNodes2 F T x r.2).2).2 r.2.dm28) rfl
      have e5 : ∀ (st : St K) (v w : K), setM (setM st v) w = setM st w := fun _ _ _ => rfl
      have e6 : ∀ (st : St K) (v : K), (setM st v).dm28m = v := fun _ _ => rfl
      simp only [e5] at this
      simp only [e6, this]
      refine ⟨fun k hk => gtdMix_scale T x.alt _ _ _ _ _ k hk, trivial, trivial⟩
    · simp only [if_neg h2]
      have := key (setM (gtdNodes2 F T x r.2).2 r.2.dm28) rfl
      have e5 : ∀ (st : St K) (v w : K), setM (setM st v) w = setM st w := fun _ _ _ => rfl
      have e6 : ∀ (st : St K) (v : K), (setM st v).dm28m = v := fun _ _ => rfl
      simp only [e5] at this
      simp only [e6, this]
      refine ⟨fun k hk => gtdMix_scale T x.alt _ _ _ _ _ k hk, trivial, trivial⟩

/-- **C67 (units, `gtd7d`).**  The same for the drag variant. -/
theorem gtd7d_units (F : Fns K) (T : Tab K) (tzg : K) (x : In K) (old old' : Out K) (s : St K)
    (hT : nearzero ≤ |T.pdm 2 4|) (k : ℕ) (hk : k < 9) :
    (gtd7d F T tzg (withMeters x true) 48 old s).1.d k =
      (gtd7d F T tzg (withMeters x false) 48 old' s).1.d k * unitFactor k := by
  obtain ⟨h, _, _⟩ := gtd7_units F T tzg x old old' s hT
  by_cases h5 : k = 5
  · subst h5
    rw [gtd7d_mass, gtd7d_mass]
    have hg : grams ((8, 16) :: speciesWeights) (gtd7d F T tzg (withMeters x true) 48 old s).1.d =
        grams ((8, 16) :: speciesWeights) (gtd7d F T tzg (withMeters x false) 48 old' s).1.d *
          1000000 := by
      unfold grams
      rw [← List.sum_map_mul_right]
      congr 1
      refine List.map_congr_left fun p hp => ?_
      have hp5 := weights_ne p hp
      have hp9 : p.1 < 9 := by revert p; decide
      rw [gtd7d_others _ _ _ _ _ _ _ _ hp5, gtd7d_others _ _ _ _ _ _ _ _ hp5, h p.1 hp9]
      simp only [unitFactor, if_neg hp5]
      ring
    rw [hg]
    simp only [withMeters, if_true, if_false, Bool.false_eq_true, unitFactor]
    field_simp
    ring
  · rw [gtd7d_others _ _ _ _ _ _ _ _ h5, gtd7d_others _ _ _ _ _ _ _ _ h5, h k hk]

/-- The hypothesis holds for the molecular weight in the table (`pdm[2][4]`, nrlmsise00_data.cpp). -/
example (T : Tab ℚ) (h : T.pdm 2 4 = 28.95) : nearzero ≤ |T.pdm 2 4| := by
  rw [h]; unfold nearzero; norm_num

end Verif.Atmosphere.Msis
