import Verif.Filters.FitModel
import Verif.Filters.RfoProps

/-!
C91: the fit of the frequency offset over files takes every block once.
-/
namespace Verif.Filters.Rfo

/-! ### Specification -/

/-- `k` is the column of the frequency offset: the first of its type. -/
def FColumn (f : File) (k : Nat) : Prop :=
  f.codes[k]? = some .frequencyOffset ∧ ∀ j < k, f.codes[j]? ≠ some .frequencyOffset

/-- A block is the observation `(t, v)`: there are beacons, and all have the value `v` in column `k`. -/
def BlockIs (k : Nat) (r : Read) (o : Int × ℝ) : Prop :=
  ∃ obs, r = .block o.1 obs ∧ obs ≠ [] ∧ ∀ b ∈ obs, b[k]? = some o.2

/-- The file can be read to its end and has these observations. -/
def FileIs (f : File) (os : List (Int × ℝ)) : Prop :=
  f.opens = true ∧ f.eof = true ∧ ∃ k, FColumn f k ∧ List.Forall₂ (BlockIs k) f.reads os

/-! ### Lemmas -/

theorem findex_iff (f : File) (k : Nat) : findex f = some k ↔ FColumn f k := by
  unfold findex FColumn
  rw [List.findIdx?_eq_some_iff_getElem]
  constructor
  · rintro ⟨h, h1, h2⟩
    simp only [beq_iff_eq] at h1
    refine ⟨by rw [List.getElem?_eq_getElem h, h1], ?_⟩
    intro j hj hc
    have := h2 j hj
    rw [List.getElem?_eq_getElem (by omega)] at hc
    simp only [Option.some.injEq] at hc
    simp [hc] at this
  · rintro ⟨h1, h2⟩
    obtain ⟨h, h3⟩ := List.getElem?_eq_some_iff.1 h1
    refine ⟨h, by simp [h3], ?_⟩
    intro j hj
    have := h2 j hj
    rw [List.getElem?_eq_getElem (by omega)] at this
    simpa using this

theorem Res.bind_ok {α β : Type} (x : Res α) (g : α → Res β) (b : β) :
    x.bind g = .ok b ↔ ∃ a, x = .ok a ∧ g a = .ok b := by
  cases x <;> simp [Res.bind]

theorem firstValue_ok (k : Nat) (obs : List (List ℝ)) (v : ℝ) :
    firstValue k obs = .ok v ↔ ∃ o os, obs = o :: os ∧ o[k]? = some v := by
  unfold firstValue
  cases obs with
  | nil => simp
  | cons o os =>
    cases h : o[k]? with
    | none => simp [h]
    | some w => simp [h]

theorem checkBlock_ok (k : Nat) (v : ℝ) (obs : List (List ℝ)) :
    checkBlock k v obs = .ok () ↔ ∀ b ∈ obs, b[k]? = some v := by
  induction obs with
  | nil => simp [checkBlock]
  | cons o os ih =>
    unfold checkBlock
    cases h : o[k]? with
    | none => simp [h]
    | some w =>
      simp only [ne_eq, ite_not]
      by_cases hw : w = v
      · rw [if_pos hw, ih]
        simp [h, hw]
      · rw [if_neg hw]
        simp [h, hw]

theorem block_ok (k : Nat) (t : Int) (obs : List (List ℝ)) (v : ℝ) :
    (firstValue k obs = .ok v ∧ checkBlock k v obs = .ok ()) ↔ BlockIs k (.block t obs) (t, v) := by
  rw [firstValue_ok, checkBlock_ok]
  unfold BlockIs
  constructor
  · rintro ⟨⟨o, os, rfl, h1⟩, h2⟩
    exact ⟨_, rfl, by simp, h2⟩
  · rintro ⟨obs', h, hne, hall⟩
    cases h
    obtain ⟨o, os, rfl⟩ := List.exists_cons_of_ne_nil hne
    exact ⟨⟨o, os, rfl, hall o (by simp)⟩, hall⟩

theorem collect_ok (tref : Int) (k : Nat) (eof : Bool) (rs : List Read) (f g : Filter) :
    collect tref k eof rs f = .ok g ↔
      eof = true ∧ ∃ os, List.Forall₂ (BlockIs k) rs os ∧ g = f.run (os.map fun o => (t2d tref o.1, o.2)) := by
  induction rs generalizing f with
  | nil =>
    unfold collect
    cases eof <;> simp [Filter.run, eq_comm]
  | cons r rs ih =>
    cases r with
    | bad =>
      simp only [collect, reduceCtorEq, false_iff, not_and, not_exists]
      intro _ os h _
      cases h with
      | cons h _ =>
        obtain ⟨_, h, _⟩ := h
        cases h
    | block t obs =>
      unfold collect
      simp only [Res.bind_ok]
      constructor
      · rintro ⟨v, h1, u, h2, h3⟩
        obtain ⟨he, os, h4, h5⟩ := (ih _).1 h3
        exact ⟨he, (t, v) :: os, .cons ((block_ok k t obs v).1 ⟨h1, h2⟩) h4, by simpa [Filter.run] using h5⟩
      · rintro ⟨he, os, h4, h5⟩
        cases h4 with
        | cons h h4 =>
          rename_i o os
          obtain ⟨t', v⟩ := o
          have ht : t' = t := by
            obtain ⟨_, h, _⟩ := h
            cases h
            rfl
          subst ht
          obtain ⟨a, b⟩ := (block_ok k t' obs v).2 h
          exact ⟨v, a, (), b, (ih _).2 ⟨he, os, h4, by simpa [Filter.run] using h5⟩⟩

theorem rinexRfo_ok (tref : Int) (fl : File) (f g : Filter) :
    rinexRfo tref fl f = .ok g ↔ ∃ os, FileIs fl os ∧ g = f.run (os.map fun o => (t2d tref o.1, o.2)) := by
  unfold rinexRfo FileIs
  by_cases ho : fl.opens = true
  · rw [if_pos ho]
    cases hk : findex fl with
    | none =>
      simp only [reduceCtorEq, false_iff, not_exists, not_and]
      rintro os ⟨_, _, k, hk', _⟩
      rw [(findex_iff fl k).2 hk'] at hk
      exact absurd hk (by simp)
    | some k =>
      simp only
      rw [collect_ok]
      constructor
      · rintro ⟨he, os, h1, h2⟩
        exact ⟨os, ⟨ho, he, k, (findex_iff fl k).1 hk, h1⟩, h2⟩
      · rintro ⟨os, ⟨_, he, k', hk', h1⟩, h2⟩
        have : k' = k := by
          have := (findex_iff fl k').2 hk'
          rw [hk] at this
          exact (Option.some.inj this).symm
        subst this
        exact ⟨he, os, h1, h2⟩
  · rw [if_neg ho]
    simp [ho]

theorem overFiles_ok (tref : Int) (fs : List File) (f g : Filter) :
    overFiles tref fs f = .ok g ↔
      ∃ oss, List.Forall₂ FileIs fs oss ∧ g = f.run (oss.flatten.map fun o => (t2d tref o.1, o.2)) := by
  induction fs generalizing f with
  | nil => simp [overFiles, Filter.run, eq_comm]
  | cons fl fs ih =>
    unfold overFiles
    rw [Res.bind_ok]
    constructor
    · rintro ⟨h, h1, h2⟩
      obtain ⟨os, h3, rfl⟩ := (rinexRfo_ok tref fl f h).1 h1
      obtain ⟨oss, h4, h5⟩ := (ih _).1 h2
      refine ⟨os :: oss, .cons h3 h4, ?_⟩
      rw [h5]
      simp [Filter.run, List.foldl_append]
    · rintro ⟨oss, h1, h2⟩
      cases h1 with
      | cons h3 h4 =>
        rename_i os oss
        refine ⟨_, (rinexRfo_ok tref fl f _).2 ⟨os, h3, rfl⟩, (ih _).2 ⟨oss, h4, ?_⟩⟩
        rw [h2]
        simp [Filter.run, List.foldl_append]

/-! ### C91 -/

/-- **C91** The fit succeeds exactly when every file can be read to its end, the first one has a block, and in each
block there are beacons and all of them give the same frequency offset.  The filter is then that of the blocks of all
files, each taken once, in order, at their days since the first block, starting from the offset of the first block and
the drift 3. -/
theorem fit_ok_iff (files : List File) (sx sv sz : ℝ) (g : Filter) :
    fit files sx sv sz = .ok g ↔
      ∃ t0 v0 os oss, List.Forall₂ FileIs files (((t0, v0) :: os) :: oss) ∧
        g = (Filter.new v0 3 sx sv sz).run
          ((((t0, v0) :: os) :: oss).flatten.map fun o => (((o.1 - t0 : Int) : ℝ) / (86400 * 10 ^ 9), o.2)) := by
  cases files with
  | nil => simp [fit]
  | cons fl fs =>
    unfold fit
    simp only [Res.bind_ok, overFiles_ok]
    constructor
    · rintro ⟨⟨v, t⟩, h1, oss, h2, h3⟩
      cases h2 with
      | cons h4 h5 =>
        rename_i os oss
        obtain ⟨ho, he, k, hk, h6⟩ := h4
        unfold starting at h1
        rw [if_pos ho, (findex_iff fl k).2 hk] at h1
        generalize hr : fl.reads = l at h6 h1
        cases h6 with
        | nil => simp at h1
        | cons hb hrest =>
          rename_i r o rs os
          obtain ⟨obs, rfl, hne, hall⟩ := hb
          simp only [Res.bind_ok, Res.ok.injEq, Prod.mk.injEq] at h1
          obtain ⟨w, h7, rfl, rfl⟩ := h1
          obtain ⟨b, bs, rfl, h8⟩ := (firstValue_ok k obs w).1 h7
          have hw : o.2 = w := by
            have := hall b (by simp)
            rw [h8] at this
            exact (Option.some.inj this).symm
          obtain ⟨t0, v0⟩ := o
          simp only at hw
          subst hw
          exact ⟨t0, v0, os, oss, .cons ⟨ho, he, k, hk, by rw [hr]; exact .cons ⟨_, rfl, hne, hall⟩ hrest⟩ h5, h3⟩
    · rintro ⟨t0, v0, os, oss, h1, h2⟩
      refine ⟨(v0, t0), ?_, _, h1, h2⟩
      cases h1 with
      | cons h3 h4 =>
        obtain ⟨ho, he, k, hk, h6⟩ := h3
        unfold starting
        rw [if_pos ho, (findex_iff fl k).2 hk]
        generalize fl.reads = l at h6
        cases h6 with
        | cons hb hrest =>
          obtain ⟨obs, rfl, hne, hall⟩ := hb
          simp only [Res.bind_ok, Res.ok.injEq, Prod.mk.injEq]
          obtain ⟨b, bs, rfl⟩ := List.exists_cons_of_ne_nil hne
          exact ⟨v0, (firstValue_ok k _ v0).2 ⟨b, bs, rfl, hall b (by simp)⟩, by simp⟩

/-- **C91** So the result is the least-squares estimate: prior information of the start values plus that of every
block. -/
theorem fit_least_squares (files : List File) (sx sv sz : ℝ) (g : Filter) (hx : sx ≠ 0) (hv : sv ≠ 0) (hz : sz ≠ 0)
    (h : fit files sx sv sz = .ok g) :
    ∃ t0 v0 os oss, List.Forall₂ FileIs files (((t0, v0) :: os) :: oss) ∧ Valid g ∧
      info g = total (sz * sz) (info (Filter.new v0 3 sx sv sz))
        ((((t0, v0) :: os) :: oss).flatten.map fun o => (((o.1 - t0 : Int) : ℝ) / (86400 * 10 ^ 9), o.2)) := by
  obtain ⟨t0, v0, os, oss, h1, rfl⟩ := (fit_ok_iff files sx sv sz g).1 h
  obtain ⟨a, -, b⟩ := run_info (Filter.new v0 3 sx sv sz) (new_valid v0 3 sx sv sz hx hv hz) _
  exact ⟨t0, v0, os, oss, h1, a, b⟩

/-- A file with two blocks. -/
def exFile : File :=
  ⟨true, [.phase, .frequencyOffset], [.block 0 [[1, 7], [2, 7]], .block 86400000000000 [[3, 8]]], true⟩

example : fit [exFile] 1 1 1 = .ok ((Filter.new 7 3 1 1 1).run [(0, 7), (1, 8)]) := by
  rw [fit_ok_iff]
  refine ⟨0, 7, [(86400000000000, 8)], [], .cons ⟨rfl, rfl, 1, ⟨rfl, ?_⟩, ?_⟩ .nil, ?_⟩
  · intro j hj
    obtain rfl : j = 0 := by omega
    simp [exFile]
  · refine .cons ⟨_, rfl, by simp, ?_⟩ (.cons ⟨_, rfl, by simp, ?_⟩ .nil)
    · simp
    · simp
  · norm_num

/-- A first file whose header cannot be read ends the program: the exception of the constructor leaves
`get_starting_rfo`, which is declared `noexcept`, so the handler of the caller is never reached. -/
theorem unreadable_first_counterexample (f : File) (fs : List File) (sx sv sz : ℝ) (h : f.opens = false) :
    fit (f :: fs) sx sv sz = .terminate := by
  simp [fit, starting, h, Res.bind]

/-- A block without beacons is read outside the array of observations. -/
theorem empty_block_counterexample (sx sv sz : ℝ) :
    fit [⟨true, [.frequencyOffset], [.block 0 []], true⟩] sx sv sz = .undefined := by
  simp [fit, starting, findex, firstValue, Res.bind]

/-- A block in which the frequency offset is missing for all beacons is used as if the mark for a missing
value were measured: of two blocks, the second without value, both enter the filter. -/
theorem missing_counterexample (miss sx sv sz : ℝ) :
    fit [⟨true, [.frequencyOffset], [.block 0 [[7]], .block 86400000000000 [[miss], [miss]]], true⟩] sx sv sz =
      .ok ((Filter.new 7 3 sx sv sz).run [(0, 7), (1, miss)]) := by
  rw [fit_ok_iff]
  refine ⟨0, 7, [(86400000000000, miss)], [], .cons ⟨rfl, rfl, 0, ⟨rfl, ?_⟩, ?_⟩ .nil, ?_⟩
  · intro j hj
    omega
  · refine .cons ⟨_, rfl, by simp, ?_⟩ (.cons ⟨_, rfl, by simp, ?_⟩ .nil)
    · simp
    · simp
  · norm_num

end Verif.Filters.Rfo
