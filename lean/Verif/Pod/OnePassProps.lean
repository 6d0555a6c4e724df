import Verif.Pod.OnePassModel
import Verif.SystemInfo.Props
import Mathlib.Tactic.Ring
import Mathlib.Tactic.FieldSimp
import Mathlib.Tactic.Linarith
import Mathlib.Tactic.NormNum

/-!
C132: the Doppler counts of test_one_pass and test_rinex_extract.

The specification looks back over all observations read so far: a count belongs to an observation and to the
one of the same beacon just before it.
-/
namespace Verif.Pod.OnePass

/-! ### Specification -/

/-- The latest of the observations read so far (newest first) that is of the same beacon. -/
def before (seen : List Rec) (k : Code) : Option Rec := seen.find? (fun q => q.obs.code = k)

/-- The line of a count from `q` to `r`, with given values of the phases. -/
def count (value : Rec → ℚ) (q r : Rec) : Line :=
  ⟨r.obs.code, r.t, value r - value q, r.t - q.t, r.rho - q.rho⟩

/-- The lines wanted: one for every observation that may be used and whose predecessor of the same beacon may
be used. -/
def wanted (usable : Rec → Bool) (value : Rec → ℚ) : List Rec → List Rec → List Line
  | _, [] => []
  | seen, r :: rs =>
    (match before seen r.obs.code with
      | some q => if usable q && usable r then [count value q r] else []
      | none => []) ++ wanted usable value (r :: seen) rs

/-- An observation without discontinuity. -/
def whole (r : Rec) : Bool := !(r.obs.flag1 == '1') && !(r.obs.flag2 == '1')

/-! ### The stored data -/

theorem entry_change (k k' : Code) (f : Latest → Latest) (hf : ∀ e, e.obs.code = k' → (f e).obs.code = k')
    (l : List Latest) : entry k (change k' f l) = if k = k' then (entry k l).map f else entry k l := by
  induction l with
  | nil => simp [entry, change]
  | cons e l ih =>
    unfold change
    by_cases he : e.obs.code = k'
    · rw [if_pos he]
      by_cases hk : k = k'
      · subst hk; simp [entry, he, hf e he]
      · have h1 : ¬ k' = k := fun h => hk h.symm
        simp [entry, hf e he, he, h1, hk]
    · rw [if_neg he]
      by_cases hk : k = k'
      · subst hk
        simp only [entry, List.find?_cons, he] at ih ⊢
        simpa using ih
      · simp only [if_neg hk, entry, List.find?_cons] at ih ⊢
        by_cases h2 : e.obs.code = k
        · simp [h2]
        · simp [h2, ih]

theorem entry_append (k : Code) (l : List Latest) (x : Latest) :
    entry k (l ++ [x]) = (entry k l).or (if x.obs.code = k then some x else none) := by
  unfold entry
  rw [List.find?_append]
  by_cases h : x.obs.code = k <;> simp [h]

/-- What an observation counts for under the switches. -/
def Config.usable (c : Config) (r : Rec) : Bool := !(c.newArc && r.disc)

/-- The value of a phase under the switches. -/
def Config.val (c : Config) (r : Rec) : ℚ := c.value r.obs.l1 r.iono

/-- The stored entry stands for the observation `q`. -/
def Stands (c : Config) (e : Latest) (q : Rec) : Prop :=
  e.newArc = false ∧ c.value e.obs.l1 e.iono = c.val q ∧ e.t = q.t ∧ e.rho = q.rho

/-- What the stored data know of the observations read so far. -/
def Inv (c : Config) (seen : List Rec) (l : List Latest) : Prop :=
  ∀ k, match before seen k with
    | none => entry k l = none
    | some q =>
      if c.usable q then ∃ e, entry k l = some e ∧ Stands c e q
      else ∀ e, entry k l = some e → e.newArc = true

theorem before_cons (r : Rec) (seen : List Rec) (k : Code) :
    before (r :: seen) k = if r.obs.code = k then some r else before seen k := by
  unfold before
  by_cases h : r.obs.code = k <;> simp [h]

/-- The correction stored is the one of the observation stored, or it is not used. -/
def Config.fresh (c : Config) : Prop := c.keepCorr = true ∨ c.applyIono = false

/-- The line printed and the stored data after one observation. -/
theorem step_spec (c : Config) (hc : c.fresh) (seen : List Rec) (l : List Latest) (h : Inv c seen l) (r : Rec) :
    (step c l r).2.1.toList = (match before seen r.obs.code with
      | some q => if c.usable q && c.usable r then [count c.val q r] else []
      | none => []) ∧ Inv c (r :: seen) (step c l r).1 := by
  have hk := h r.obs.code
  cases he : entry r.obs.code l with
  | none =>
    have hline : (match before seen r.obs.code with
      | some q => if c.usable q && c.usable r then [count c.val q r] else []
      | none => []) = [] := by
      cases hb : before seen r.obs.code with
      | none => rfl
      | some q =>
        rw [hb] at hk
        simp only at hk ⊢
        by_cases hu : c.usable q
        · rw [if_pos hu] at hk; obtain ⟨e, h1, _⟩ := hk; rw [he] at h1; simp at h1
        · simp [hu]
    by_cases hu : c.usable r
    · have hs : step c l r = (l ++ [Latest.of r], none, false) := by
        unfold step
        rw [he]
        simp only
        rw [if_pos]
        revert hu
        unfold Config.usable
        cases c.newArc <;> cases r.disc <;> decide
      rw [hs, hline]
      refine ⟨rfl, ?_⟩
      intro k
      rw [before_cons]
      by_cases hkk : r.obs.code = k
      · subst hkk
        simp only [if_pos, hu]
        refine ⟨Latest.of r, ?_, rfl, rfl, rfl, rfl⟩
        rw [entry_append, he]; simp [Latest.of]
      · rw [if_neg hkk]
        have := h k
        have hx : entry k (l ++ [Latest.of r]) = entry k l := by
          rw [entry_append, if_neg (by exact hkk), Option.or_none]
        rw [hx]
        exact this
    · have hs : step c l r = (l, none, true) := by
        unfold step
        rw [he]
        simp only
        rw [if_neg]
        revert hu
        unfold Config.usable
        cases c.newArc <;> cases r.disc <;> decide
      rw [hs, hline]
      refine ⟨rfl, ?_⟩
      intro k
      rw [before_cons]
      by_cases hkk : r.obs.code = k
      · subst hkk
        simp only [if_pos, hu]
        intro e h1; simp [he] at h1
      · rw [if_neg hkk]; exact h k
  | some e =>
    -- there is a previous observation
    obtain ⟨q, hb⟩ : ∃ q, before seen r.obs.code = some q := by
      cases hb : before seen r.obs.code with
      | none => rw [hb] at hk; simp only at hk; rw [he] at hk; simp at hk
      | some q => exact ⟨q, rfl⟩
    rw [hb] at hk ⊢
    simp only at hk ⊢
    by_cases hu : c.usable r
    · by_cases hq : c.usable q
      · rw [if_pos hq] at hk
        obtain ⟨e', h1, hst⟩ := hk
        rw [he] at h1
        obtain rfl : e = e' := by simpa using h1
        obtain ⟨ha, hv, ht, hr⟩ := hst
        have hn1 : ¬ (c.newArc && r.disc) = true := by
          revert hu
          unfold Config.usable
          cases c.newArc <;> cases r.disc <;> decide
        have hn2 : ¬ (c.newArc && !r.disc && e.newArc) = true := by simp [ha]
        have hs : step c l r = (change r.obs.code
            (fun e => { e with obs := r.obs, t := r.t, rho := r.rho, iono := if c.keepCorr then r.iono else e.iono }) l,
            some ⟨r.obs.code, r.t, c.value r.obs.l1 r.iono - c.value e.obs.l1 e.iono, r.t - e.t, r.rho - e.rho⟩,
            false) := by
          unfold step
          rw [he]
          simp only
          rw [if_neg hn1, if_neg hn2]
        rw [hs]
        simp only [hq, hu, Bool.and_self, if_true]
        constructor
        · simp only [Option.toList_some, count, hv, ht, hr, Config.val]
        · intro k
          rw [before_cons]
          rw [entry_change _ _ _ (by intro e' _; rfl)]
          by_cases hkk : r.obs.code = k
          · subst hkk
            simp only [if_pos, hu, he, Option.map_some]
            refine ⟨_, rfl, ha, ?_, rfl, rfl⟩
            simp only [Config.val, Config.value]
            cases hc with
            | inl h1 => simp [h1]
            | inr h1 => simp [h1]
          · have hkk' : ¬ k = r.obs.code := fun h => hkk h.symm
            rw [if_neg hkk, if_neg hkk']; exact h k
      · rw [if_neg hq] at hk
        have ha := hk e he
        have hnewArc : c.newArc = true := by
          unfold Config.usable at hq; cases hn : c.newArc <;> simp_all
        have hd : r.disc = false := by
          unfold Config.usable at hu; rw [hnewArc] at hu; simpa using hu
        have hs : step c l r = (change r.obs.code (fun _ => Latest.of r) l, none, false) := by
          unfold step
          rw [he]
          simp [hnewArc, hd, ha]
        rw [hs]
        refine ⟨by simp [hq], ?_⟩
        intro k
        rw [before_cons]
        rw [entry_change _ _ _ (by intro e' _; rfl)]
        by_cases hkk : r.obs.code = k
        · subst hkk
          simp only [if_pos, hu, he, Option.map_some]
          exact ⟨_, rfl, rfl, rfl, rfl, rfl⟩
        · have hkk' : ¬ k = r.obs.code := fun h => hkk h.symm
          rw [if_neg hkk, if_neg hkk']; exact h k
    · have hn1 : (c.newArc && r.disc) = true := by
        revert hu
        unfold Config.usable
        cases c.newArc <;> cases r.disc <;> decide
      have hs : step c l r = (change r.obs.code (fun e => { e with newArc := true }) l, none, true) := by
        unfold step
        rw [he]
        simp only
        rw [if_pos hn1]
      rw [hs]
      refine ⟨by simp [hu], ?_⟩
      intro k
      rw [before_cons]
      rw [entry_change _ _ _ (by intro e' h'; exact h')]
      by_cases hkk : r.obs.code = k
      · subst hkk
        simp only [if_pos, hu, he, Option.map_some]
        intro e' h'
        obtain rfl := Option.some.inj h'
        rfl
      · have hkk' : ¬ k = r.obs.code := fun h => hkk h.symm
        rw [if_neg hkk, if_neg hkk']; exact h k

theorem lines_spec (c : Config) (hc : c.fresh) (rs seen : List Rec) (l : List Latest) (h : Inv c seen l) :
    lines c l rs = wanted c.usable c.val seen rs := by
  induction rs generalizing seen l with
  | nil => rfl
  | cons r rs ih =>
    obtain ⟨h1, h2⟩ := step_spec c hc seen l h r
    unfold lines wanted
    rw [h1, ih (r :: seen) _ h2]

theorem inv_nil (c : Config) : Inv c [] [] := fun _ => rfl

/-- **C132** test_one_pass prints, in the order of the observations, one count for every observation without
discontinuity whose predecessor of the same beacon is without discontinuity; it is the difference of the two
corrected phases, with the time and the change of distance between these two. -/
theorem pass_counts (rs : List Rec) :
    lines onePass [] rs = wanted whole (fun r => r.obs.l1 + r.iono) [] rs := by
  have h := lines_spec onePass (Or.inl rfl) rs [] [] (inv_nil _)
  have hu : onePass.usable = whole := by
    funext r; simp [Config.usable, onePass, whole, Rec.disc]
  have hv : onePass.val = fun r => r.obs.l1 + r.iono := by
    funext r; simp [Config.val, Config.value, onePass]
  rw [h, hu, hv]

/-- **C132** test_rinex_extract, as its switches are set, prints one count for every observation that has a
predecessor of the same beacon; it is the difference of the two uncorrected phases, whatever the flags. -/
theorem extract_counts (rs : List Rec) :
    lines extract [] rs = wanted (fun _ => true) (fun r => r.obs.l1) [] rs := by
  have h := lines_spec extract (Or.inr rfl) rs [] [] (inv_nil _)
  have hu : extract.usable = fun _ => true := by funext r; simp [Config.usable, extract]
  have hv : extract.val = fun r => r.obs.l1 := by funext r; simp [Config.val, Config.value, extract]
  rw [h, hu, hv]

/-! ### Ionosphere -/

/-- The phases of a record come from a term `a` proportional to the frequency and a term `e` inversely
proportional to it, `g` being the ratio of the frequencies; the correction is the one of the program. -/
def Through (g : ℚ) (a e : Rec → ℚ) (r : Rec) : Prop :=
  r.obs.l1 = a r + e r ∧ r.obs.l2 = a r / g + e r * g ∧ r.iono = corr g r.obs.l1 r.obs.l2

theorem corr_removes (g a e : ℚ) (hg : g ≠ 0) (h1 : g * g ≠ 1) : a + e + corr g (a + e) (a / g + e * g) = a := by
  have h2 : g * g - 1 ≠ 0 := sub_ne_zero.mpr h1
  have h3 : a + e - g * (a / g + e * g) = -(e * (g * g - 1)) := by field_simp; ring
  unfold corr
  rw [h3, neg_div, mul_div_cancel_right₀ _ h2]
  ring

theorem wanted_congr (u : Rec → Bool) (v v' : Rec → ℚ) (rs seen : List Rec)
    (h : ∀ r, r ∈ seen ∨ r ∈ rs → v r = v' r) : wanted u v seen rs = wanted u v' seen rs := by
  induction rs generalizing seen with
  | nil => rfl
  | cons r rs ih =>
    unfold wanted
    rw [ih (r :: seen) (by
      intro x hx
      rcases hx with hx | hx
      · rcases List.mem_cons.mp hx with rfl | hx
        · exact h _ (Or.inr (by simp))
        · exact h _ (Or.inl hx)
      · exact h _ (Or.inr (List.mem_cons_of_mem _ hx)))]
    congr 1
    cases hb : before seen r.obs.code with
    | none => rfl
    | some q =>
      have hq : q ∈ seen := List.mem_of_find?_eq_some hb
      simp only [count, h q (Or.inl hq), h r (Or.inr (by simp))]

/-- **C132** The counts of test_one_pass are free of the ionosphere: they are differences of the part of the
phase that is proportional to the frequency, whatever the electron contents. -/
theorem pass_iono_free (g : ℚ) (hg : g ≠ 0) (h1 : g * g ≠ 1) (a e : Rec → ℚ) (rs : List Rec)
    (h : ∀ r ∈ rs, Through g a e r) : lines onePass [] rs = wanted whole a [] rs := by
  rw [pass_counts]
  apply wanted_congr
  intro r hr
  rcases hr with hr | hr
  · simp at hr
  · obtain ⟨ha, hb, hc⟩ := h r hr
    rw [hc, ha, hb, corr_removes g _ _ hg h1]

/-! ### Numbers of observations -/

theorem step_missed (c : Config) (l : List Latest) (r : Rec) : (step c l r).2.2 = (c.newArc && r.disc) := by
  unfold step
  cases he : entry r.obs.code l with
  | none => cases c.newArc <;> cases hd : r.disc <;> simp
  | some e => cases c.newArc <;> cases hd : r.disc <;> cases ha : e.newArc <;> simp [ha]

theorem tally_eq (c : Config) (sts : List Station) (i : Nat) (rs : List Rec) (l : List Latest) :
    tally c sts i l rs = (rs.countP (fun r => slot sts r.obs.code = some i),
      rs.countP (fun r => slot sts r.obs.code = some i && (c.newArc && r.disc))) := by
  induction rs generalizing l with
  | nil => rfl
  | cons r rs ih =>
    unfold tally
    simp only [ih, step_missed]
    by_cases h : slot sts r.obs.code = some i
    · simp [h, List.countP_cons]
    · simp [h, List.countP_cons]

theorem slot_at (sts : List Station) (hc : (sts.map (·.code)).Nodup) (hn : (sts.map (·.name)).Nodup) (i : Nat)
    (hi : i < sts.length) (k : Code) : slot sts k = some i ↔ k = sts[i].code := by
  have hcode : ∀ a b (ha : a < sts.length) (hb : b < sts.length), sts[a].code = sts[b].code → a = b := by
    intro a b ha hb h
    have := (List.nodup_iff_injective_getElem.mp hc) (a₁ := ⟨a, by simpa using ha⟩) (a₂ := ⟨b, by simpa using hb⟩)
      (by simpa using h)
    simpa using this
  have hname : ∀ a b (ha : a < sts.length) (hb : b < sts.length), sts[a].name = sts[b].name → a = b := by
    intro a b ha hb h
    have := (List.nodup_iff_injective_getElem.mp hn) (a₁ := ⟨a, by simpa using ha⟩) (a₂ := ⟨b, by simpa using hb⟩)
      (by simpa using h)
    simpa using this
  have hidx : ∀ a (ha : a < sts.length), indexOf sts sts[a].name = a := by
    intro a ha
    unfold indexOf
    rw [List.findIdx_eq ha]
    refine ⟨by simp, ?_⟩
    intro j hj
    have : ¬ sts[j].name = sts[a].name := fun h => by
      have := hname j a (by omega) ha h; omega
    simpa using this
  unfold slot nameOf
  cases hf : sts.find? (fun s => s.code = k) with
  | none =>
    simp only [Option.map_none, reduceCtorEq, false_iff]
    intro h
    have := List.find?_eq_none.mp hf sts[i] (List.getElem_mem hi)
    simp [h] at this
  | some s =>
    have hs := List.mem_of_find?_eq_some hf
    have hk : s.code = k := by simpa using List.find?_some hf
    obtain ⟨j, hj, rfl⟩ := List.getElem_of_mem hs
    simp only [Option.map_some, hidx j hj, Option.some.injEq]
    constructor
    · rintro rfl; exact hk.symm
    · intro h; exact hcode j i hj hi (hk.trans h)

/-- **C132** The summary of a station gives the number of its observations and, in test_one_pass, the number of
those with a discontinuity, provided codes and names in the header are distinct. -/
theorem summary_counts (sts : List Station) (hc : (sts.map (·.code)).Nodup) (hn : (sts.map (·.name)).Nodup)
    (i : Nat) (hi : i < sts.length) (rs : List Rec) :
    tally onePass sts i [] rs = (rs.countP (fun r => r.obs.code = sts[i].code),
      rs.countP (fun r => r.obs.code = sts[i].code && !whole r)) ∧
    tally extract sts i [] rs = (rs.countP (fun r => r.obs.code = sts[i].code), 0) := by
  rw [tally_eq, tally_eq]
  have h : ∀ r : Rec, (slot sts r.obs.code = some i) = (r.obs.code = sts[i].code) :=
    fun r => propext (slot_at sts hc hn i hi _)
  simp only [h, Prod.mk.injEq, true_and]
  constructor
  · congr 1; funext r; simp [whole, onePass, Rec.disc]
  · simp [extract]

/-- **C132** The percentage printed is between 0 and 100 for a station with observations. -/
theorem percent_range (c : Config) (sts : List Station) (i : Nat) (rs : List Rec) (x : ℚ)
    (h : (summary (tally c sts i [] rs)).2.2 = some x) : 0 ≤ x ∧ x ≤ 100 := by
  rw [tally_eq] at h
  simp only [summary] at h
  generalize hm : rs.countP (fun r => slot sts r.obs.code = some i && (c.newArc && r.disc)) = m at h
  generalize hn : rs.countP (fun r => slot sts r.obs.code = some i) = n at h
  have hle : m ≤ n := by
    rw [← hm, ← hn]
    apply List.countP_mono_left
    intro r _ hr
    simp only [Bool.and_eq_true] at hr
    exact hr.1
  by_cases h0 : n = 0
  · rw [if_pos h0] at h; simp at h
  · rw [if_neg h0] at h
    obtain rfl := Option.some.inj h
    have hpos : (0 : ℚ) < n := by exact_mod_cast Nat.pos_of_ne_zero h0
    have hle' : (m : ℚ) ≤ n := by exact_mod_cast hle
    constructor
    · positivity
    · rw [div_le_iff₀ hpos]; linarith

/-! ### The file -/

/-- The records of a file whose orbit is known at every epoch. -/
def observed {P : Type} (g : ℚ) (range : P → Code → ℚ) (bs : List (Block P)) : List Rec :=
  bs.flatMap (fun b => match b.pos with
    | some p => b.obs.map (fun o => ⟨o, b.t, range p o.code, corr g o.l1 o.l2⟩)
    | none => [])

theorem records_eq {P : Type} (g : ℚ) (range : P → Code → ℚ) (bs : List (Block P)) (h : ∀ b ∈ bs, b.pos.isSome)
    (p : P) : records g range p bs = observed g range bs := by
  induction bs generalizing p with
  | nil => rfl
  | cons b bs ih =>
    unfold records
    rw [ih (fun b' hb => h b' (List.mem_cons_of_mem _ hb))]
    obtain ⟨q, hq⟩ := Option.isSome_iff_exists.mp (h b (by simp))
    simp [observed, hq]

/-- **C132** Whole program: for a file whose beacons are in the header and whose first block is without
observations, with an orbit known at all epochs, the counts are those of all its observations.  Missing: a first
block with observations, and epochs where the orbit cannot be interpolated. -/
theorem program_counts_partial {P : Type} (g : ℚ) (range : P → Code → ℚ) (sts : List Station) (p0 : P)
    (bs : List (Block P)) (hfirst : ∀ b, bs.head? = some b → b.obs = []) (horb : ∀ b ∈ bs, b.pos.isSome)
    (hst : ∀ b ∈ bs, ∀ o ∈ b.obs, o.code ∈ sts.map (·.code)) :
    program onePass g range sts p0 bs =
      some (wanted whole (fun r => r.obs.l1 + r.iono) [] (observed g range bs)) := by
  have hdrop : observed g range (bs.drop 1) = observed g range bs := by
    cases bs with
    | nil => rfl
    | cons b bs =>
      have := hfirst b rfl
      simp only [List.drop_succ_cons, List.drop_zero, observed, List.flatMap_cons]
      cases b.pos <;> simp [this]
  have hrec : records g range p0 (bs.drop 1) = observed g range bs := by
    rw [records_eq g range _ (fun b hb => horb b (List.mem_of_mem_drop hb)), hdrop]
  unfold program
  rw [hrec, if_pos, pass_counts]
  rw [List.all_eq_true]
  intro r hr
  unfold observed at hr
  rw [List.mem_flatMap] at hr
  obtain ⟨b, hb, hr⟩ := hr
  cases hp : b.pos with
  | none => rw [hp] at hr; simp at hr
  | some p =>
    rw [hp] at hr
    simp only [List.mem_map] at hr
    obtain ⟨o, ho, rfl⟩ := hr
    have := hst b hb o ho
    rw [List.mem_map] at this
    obtain ⟨s, hs, hso⟩ := this
    have hf : (sts.find? (fun s => s.code = o.code)).isSome := by
      rw [List.find?_isSome]; exact ⟨s, hs, by simpa using hso⟩
    simp only [slot, nameOf, Option.isSome_map]
    exact hf

/-- A beacon for the examples. -/
def exCode : Code := ('D', '0', '1')

/-- An observation for the examples. -/
def exObs (x : ℚ) (f : Char) : Obs := ⟨exCode, x, 0, ' ', f⟩

/-- **C132** The observations of the first block are not used: a file of two blocks with one observation of the
same beacon each, without discontinuity, gives no count. -/
theorem first_block_counterexample : ∃ (g : ℚ) (range : Unit → Code → ℚ) (sts : List Station) (bs : List (Block Unit)),
    (∀ b ∈ bs, b.pos.isSome) ∧ (∀ b ∈ bs, ∀ o ∈ b.obs, o.code ∈ sts.map (·.code)) ∧
    program onePass g range sts () bs = some [] ∧
    (wanted whole (fun r => r.obs.l1 + r.iono) [] (observed g range bs)).length = 1 := by
  refine ⟨2, fun _ _ => 0, [⟨exCode, (exCode, 'B')⟩], [⟨0, some (), [exObs 1 ' ']⟩, ⟨10, some (), [exObs 5 ' ']⟩], ?_, ?_, ?_, ?_⟩ <;>
    decide +kernel

/-- **C132** The success of the interpolation of the orbit is not looked at: where it fails the previous
position is used, and the change of distance printed is 0 whatever the satellite did. -/
theorem interpolation_counterexample (range : Int → Code → ℚ) : ∃ (sts : List Station) (bs : List (Block Int)),
    (∃ b ∈ bs, b.pos = none ∧ b.obs ≠ []) ∧ (∀ b ∈ bs, ∀ o ∈ b.obs, o.code ∈ sts.map (·.code)) ∧
    ∃ x, program onePass 2 range sts 0 bs = some [x] ∧ x.drho = 0 ∧ x.dt = 10 := by
  refine ⟨[⟨exCode, (exCode, 'B')⟩], [⟨0, some 0, []⟩, ⟨10, some 1, [exObs 1 ' ']⟩, ⟨20, none, [exObs 5 ' ']⟩],
    by decide +kernel, by decide +kernel, ⟨exCode, 20, 16 / 3, 10, 0⟩, ?_, rfl, rfl⟩
  simp [program, records, slot, nameOf, indexOf, lines, step, entry, change, Latest.of, exObs, onePass, Rec.disc,
    Config.value, corr]
  norm_num

/-- **C132** A beacon that is not in the header: its name is a null pointer. -/
theorem unknown_beacon_counterexample : ∃ (sts : List Station) (bs : List (Block Unit)),
    (∀ b ∈ bs, b.pos.isSome) ∧ program onePass 2 (fun _ _ => 0) sts () bs = none :=
  ⟨[], [⟨0, some (), []⟩, ⟨10, some (), [exObs 1 ' ']⟩], by decide +kernel, by decide +kernel⟩

/-- **C132** With the ionospheric correction switched on, test_rinex_extract would subtract the correction of
the first observation of an arc from all later ones, since line 431 is commented out: of three phases with the
values 0 free of the ionosphere the second count is not 0. -/
theorem stale_counterexample : ∃ (g : ℚ) (e : Rec → ℚ) (rs : List Rec), g ≠ 0 ∧ g * g ≠ 1 ∧
    (∀ r ∈ rs, Through g (fun _ => 0) e r) ∧ ∃ x ∈ lines { extract with applyIono := true } [] rs, x.ndop ≠ 0 := by
  let mk (t : Int) (i : ℚ) : Rec := ⟨⟨exCode, i, 2 * i, ' ', ' '⟩, t, 0, -i⟩
  refine ⟨2, fun r => r.obs.l1, [mk 0 0, mk 10 0, mk 20 3, mk 30 3], by norm_num, by norm_num, ?_, ⟨exCode, 30, -3, 10, 0⟩, ?_, by norm_num⟩
  · intro r hr
    simp only [List.mem_cons, List.not_mem_nil, or_false] at hr
    rcases hr with rfl | rfl | rfl | rfl <;> simp [mk, Through, corr] <;> norm_num
  · decide +kernel

/-- **C132** A station without observations: the percentage is 0 divided by 0. -/
theorem percent_counterexample : ∃ (sts : List Station) (i : Nat) (rs : List Rec), i < sts.length ∧
    (summary (tally onePass sts i [] rs)).2.2 = none :=
  ⟨[⟨exCode, (exCode, 'B')⟩], 0, [], by decide, by decide +kernel⟩

/-! ### Distance and phase centre -/

/-- Distance of two points. -/
noncomputable def trueDist (s b : Fin 3 → ℝ) : ℝ :=
  Real.sqrt ((s 0 - b 0) ^ 2 + (s 1 - b 1) ^ 2 + (s 2 - b 2) ^ 2)

/-- **C132** The distance is right when the beacon is given in kilometres and the satellite in metres.  Missing:
both in one unit, as `car2top` wants them in the same program (test/test_one_pass.cpp:436-439). -/
theorem distance_partial (s b : Fin 3 → ℝ) : svDistance s (fun i => b i / 1000) = trueDist s b := by
  unfold svDistance trueDist
  congr 1
  ring

/-- **C132** With both positions in one unit, as used for the zenith angle in the same program, the distance is
wrong: a satellite 622 km above a beacon. -/
theorem distance_counterexample : ∃ s b : Fin 3 → ℝ, trueDist s b = 622000 ∧ svDistance s b > 6000000000 := by
  refine ⟨![7000000, 0, 0], ![6378000, 0, 0], ?_, ?_⟩
  · unfold trueDist
    simp
    norm_num
    rw [show (386884000000 : ℝ) = 622000 ^ 2 by norm_num, Real.sqrt_sq (by norm_num)]
  · unfold svDistance
    simp
    norm_num
    rw [Real.lt_sqrt (by norm_num)]
    norm_num

/-- **C132** The phase centre offset printed at the end has the opposite sign in its second term: up, for
a Starec antenna, it differs from the one of the library. -/
theorem pco_counterexample : ∃ v, SystemInfo.ionoFreePhaseCenter 'B' = some v ∧
    ionoFreePco (SystemInfo.pco .starecB false 2) (SystemInfo.pco .starecB true 2) * 1e-3 ≠ v 2 := by
  obtain ⟨v, hv, hw⟩ := (SystemInfo.phase_center 'B').1 .starecB rfl
  refine ⟨v, hv, ?_⟩
  rw [hw 2]
  unfold ionoFreePco
  simp [SystemInfo.pco, SystemInfo.gamma, SystemInfo.gammaSqrt, SystemInfo.freq1MHz, SystemInfo.freq2MHz]
  norm_num

/-! ### Examples -/

/-- Two beacons, one with a discontinuity in between: of five observations of the first beacon the counts from 1
to 2 and from 4 to 5 remain. -/
example :
    let r (t : Int) (c : Char) (x : ℚ) (f : Char) : Rec := ⟨⟨('D', '0', c), x, 0, ' ', f⟩, t, x, 0⟩
    lines onePass [] [r 0 '1' 0 ' ', r 1 '2' 7 ' ', r 10 '1' 5 ' ', r 20 '1' 6 '1', r 30 '1' 8 ' ', r 31 '2' 9 ' ',
      r 40 '1' 12 ' '] =
    [⟨('D', '0', '1'), 10, 5, 10, 5⟩, ⟨('D', '0', '2'), 31, 2, 30, 2⟩, ⟨('D', '0', '1'), 40, 4, 10, 4⟩] := by
  decide +kernel

/-- A record through an ionosphere. -/
example : Through 2 (fun _ => 6) (fun _ => 1) ⟨⟨exCode, 7, 5, ' ', ' '⟩, 0, 0, -1⟩ := by
  refine ⟨by norm_num, by norm_num, ?_⟩
  simp [corr]; norm_num

/-- Stations with distinct codes and names. -/
example : let sts : List Station := [⟨exCode, (exCode, 'B')⟩, ⟨('D', '0', '2'), (('A', 'D', 'E'), 'A')⟩]
    (sts.map (·.code)).Nodup ∧ (sts.map (·.name)).Nodup ∧
    tally onePass sts 0 [] [⟨exObs 1 ' ', 0, 0, 0⟩, ⟨exObs 2 '1', 1, 0, 0⟩] = (2, 1) := by
  decide +kernel

/-- A file for `program_counts_partial`. -/
example : let bs : List (Block Unit) := [⟨0, some (), []⟩, ⟨10, some (), [exObs 1 ' ']⟩, ⟨20, some (), [exObs 4 ' ']⟩]
    (∀ b, bs.head? = some b → b.obs = []) ∧ (∀ b ∈ bs, b.pos.isSome) ∧
    (∀ b ∈ bs, ∀ o ∈ b.obs, o.code ∈ [exCode]) := by
  refine ⟨?_, by decide +kernel, by decide +kernel⟩
  intro b hb; obtain rfl := Option.some.inj hb; rfl

end Verif.Pod.OnePass
