import Verif.Pod.SetupModel
import Verif.Yaml.Props
import Verif.Filters.LayoutProps
import Verif.Rinex.DataProps
import Mathlib.Tactic.Linarith
import Mathlib.Tactic.FieldSimp

/-! C144: what the orbit determination program takes from its configuration, starts with and ends with. -/
namespace Verif.Pod.Setup

open Verif.Yaml Verif.Filters Verif.Astro Verif.Forces

/-! ### Names of files -/

/-- The configuration has this name for a file. -/
def Configured (conv : Tree → Option (List Char)) (root : Tree) (r : Res) (name : List Char) : Prop :=
  ∃ v x, At root r.path v ∧ conv v = some x ∧ name = x.takeWhile (· ≠ '\x00')

theorem cstr_strcpy (buf s b : List Char) (h : strcpy buf s = some b) : cstr b = cstr s := by
  unfold strcpy at h
  dsimp only at h
  split at h
  · rw [Option.some.injEq] at h
    rw [← h]
    clear h
    unfold cstr
    have hk : ∀ (l m : List Char), (l.takeWhile (· ≠ '\x00') ++ ['\x00'] ++ m).takeWhile (· ≠ '\x00') =
        l.takeWhile (· ≠ '\x00') := by
      intro l m
      induction l with
      | nil => simp
      | cons c cs ih =>
        by_cases hc : c = '\x00'
        · simp [hc]
        · rw [List.takeWhile_cons_of_pos (by simp [hc]), List.cons_append, List.cons_append,
            List.takeWhile_cons_of_pos (by simp [hc]), ih]
    exact hk s _
  · cases h

theorem depth2s_ref (conv : Tree → Option (List Char)) (root : Tree) (a b : String) (buf buf' : List Char) (st : Nat)
    (h : depth2s conv (.node root) a b buf = some (st, buf')) :
    (st = 0 ∧ ∃ v x, At root [a, b] v ∧ conv v = some x ∧ cstr buf' = cstr x) ∨
      (st = 1 ∧ buf' = buf ∧ ¬ ∃ v x, At root [a, b] v ∧ conv v = some x) := by
  unfold depth2s at h
  cases hl : ((getNode (.node root) a).bind fun n => (getNode n b).bind (asT conv)) with
  | some x =>
    rw [hl] at h
    obtain ⟨v, hv, hx⟩ := (lookup_iff conv root a b x).mp hl
    cases hs : strcpy buf x with
    | none => simp [hs] at h
    | some c =>
      simp only [hs, Option.map_some, Option.some.injEq, Prod.mk.injEq] at h
      refine Or.inl ⟨h.1.symm, v, x, hv, hx, ?_⟩
      rw [← h.2]
      exact cstr_strcpy _ _ _ hs
  | none =>
    rw [hl] at h
    simp only [Option.some.injEq, Prod.mk.injEq] at h
    refine Or.inr ⟨h.1.symm, h.2.symm, ?_⟩
    rintro ⟨v, x, hv, hx⟩
    have := (lookup_iff conv root a b x).mpr ⟨v, hv, hx⟩
    rw [hl] at this
    cases this

/-- What a look-up leaves in the buffer: the name in the configuration, or what was there. -/
theorem ask_spec (conv : Tree → Option (List Char)) (root : Tree) (r : Res) (buf buf' : List Char) (st : Nat)
    (h : ask conv root r.path buf = some (st, buf')) :
    (st = 0 ∧ Configured conv root r (cstr buf')) ∨
      (st = 1 ∧ buf' = buf ∧ ¬ ∃ n, Configured conv root r n) := by
  have h2 : ∀ a b, depth2s conv (.node root) a b buf = some (st, buf') → r.path = [a, b] →
      (st = 0 ∧ Configured conv root r (cstr buf')) ∨
      (st = 1 ∧ buf' = buf ∧ ¬ ∃ n, Configured conv root r n) := by
    intro a b h hp
    rcases depth2s_ref conv root a b buf buf' st h with ⟨h0, v, x, hv, hx, hc⟩ | ⟨h1, hb, hn⟩
    · exact Or.inl ⟨h0, v, x, hp ▸ hv, hx, hc⟩
    · refine Or.inr ⟨h1, hb, ?_⟩
      rintro ⟨n, v, x, hv, hx, _⟩
      exact hn ⟨v, x, hp ▸ hv, hx⟩
  have h3 : ∀ a b c, depth3s conv (.node root) a b c buf = some (st, buf') → r.path = [a, b, c] →
      (st = 0 ∧ Configured conv root r (cstr buf')) ∨
      (st = 1 ∧ buf' = buf ∧ ¬ ∃ n, Configured conv root r n) := by
    intro a b c h hp
    unfold depth3s at h
    cases hn : getNode (.node root) a with
    | none => rw [hn] at h; cases h
    | some n =>
      rw [hn] at h
      dsimp only at h
      cases n with
      | zombie =>
        simp only [depth2s, getNode, Option.bind_none, Option.some.injEq, Prod.mk.injEq] at h
        refine Or.inr ⟨h.1.symm, h.2.symm, ?_⟩
        rintro ⟨n, v, x, hv, _, _⟩
        rw [hp, at_cons] at hv
        obtain ⟨u, hu, _⟩ := hv
        rw [hn] at hu
        cases hu
      | node u =>
        rcases depth2s_ref conv u b c buf buf' st h with ⟨h0, v, x, hv, hx, hc⟩ | ⟨h1, hb, hno⟩
        · exact Or.inl ⟨h0, v, x, by rw [hp, at_cons]; exact ⟨u, hn, hv⟩, hx, hc⟩
        · refine Or.inr ⟨h1, hb, ?_⟩
          rintro ⟨n, v, x, hv, hx, _⟩
          rw [hp, at_cons] at hv
          obtain ⟨u', hu, hv⟩ := hv
          rw [hn] at hu
          simp only [Option.some.injEq, Ref.node.injEq] at hu
          subst hu
          exact hno ⟨v, x, hv, hx⟩
  cases r
  all_goals first
    | exact h2 _ _ h rfl
    | exact h3 _ _ _ h rfl

/-- A list of files used: each by its own name or, if the look-up is not tested and the configuration has no name,
by the name used before. -/
def Good (conv : Tree → Option (List Char)) (root : Tree) : List Char → List (Res × List Char) → Prop
  | _, [] => True
  | prev, (r, n) :: l =>
    (Configured conv root r n ∨ (r.checked = false ∧ (¬ ∃ m, Configured conv root r m) ∧ n = prev)) ∧
      Good conv root n l

theorem setup_spec (conv : Tree → Option (List Char)) (ok : Res → List Char → Bool) (root : Tree) (rs : List Res) :
    ∀ (buf : List Char) (used : List (Res × List Char)),
      setup conv ok root rs buf used = .crashed ∨
      ∃ ext, Good conv root (cstr buf) ext ∧
        ((setup conv ok root rs buf used = .ready (used ++ ext) ∧ ext.map Prod.fst = rs ∧
            ∀ p ∈ ext, ok p.1 p.2 = true) ∨
          (setup conv ok root rs buf used = .stopped (used ++ ext) ∧ ext.map Prod.fst <+: rs)) := by
  induction rs with
  | nil =>
    intro buf used
    exact Or.inr ⟨[], trivial, Or.inl ⟨by simp [setup], rfl, by simp⟩⟩
  | cons r rs ih =>
    intro buf used
    rw [setup]
    cases ha : ask conv root r.path buf with
    | none => exact Or.inl rfl
    | some q =>
      obtain ⟨st, buf'⟩ := q
      dsimp only
      have hs := ask_spec conv root r buf buf' st ha
      by_cases h1 : (r.checked && st != 0) = true
      · rw [if_pos h1]
        exact Or.inr ⟨[], trivial, Or.inr ⟨by simp, by simp⟩⟩
      · rw [if_neg h1]
        have hg : Configured conv root r (cstr buf') ∨
            (r.checked = false ∧ (¬ ∃ m, Configured conv root r m) ∧ cstr buf' = cstr buf) := by
          rcases hs with ⟨_, hc⟩ | ⟨h0, hb, hn⟩
          · exact Or.inl hc
          · right
            refine ⟨?_, hn, by rw [hb]⟩
            subst h0
            simpa using h1
        by_cases h2 : ok r (cstr buf') = true
        · rw [if_pos h2]
          rcases ih buf' (used ++ [(r, cstr buf')]) with hc | ⟨ext, he, h⟩
          · exact Or.inl hc
          · refine Or.inr ⟨(r, cstr buf') :: ext, ⟨hg, he⟩, ?_⟩
            rw [List.append_assoc, List.singleton_append] at h
            rcases h with ⟨h, hm, hk⟩ | ⟨h, hm⟩
            · refine Or.inl ⟨h, by simp [hm], ?_⟩
              intro p hp
              rcases List.mem_cons.mp hp with rfl | hp
              · exact h2
              · exact hk p hp
            · refine Or.inr ⟨h, ?_⟩
              rw [List.map_cons]
              exact List.cons_prefix_cons.mpr ⟨rfl, hm⟩
        · rw [if_neg h2]
          refine Or.inr ⟨[(r, cstr buf')], ⟨hg, trivial⟩, Or.inr ⟨rfl, ?_⟩⟩
          exact List.cons_prefix_cons.mpr ⟨rfl, List.nil_prefix⟩

theorem good_get (conv : Tree → Option (List Char)) (root : Tree) : ∀ (l : List (Res × List Char)) (prev : List Char),
    Good conv root prev l → ∀ i r n, l[i]? = some (r, n) →
      Configured conv root r n ∨ (r.checked = false ∧ (¬ ∃ m, Configured conv root r m) ∧
        ((i = 0 ∧ n = prev) ∨ ∃ j r', i = j + 1 ∧ l[j]? = some (r', n))) := by
  intro l
  induction l with
  | nil => intro prev _ i r n h; simp at h
  | cons p l ih =>
    intro prev hg i r n h
    obtain ⟨r0, n0⟩ := p
    cases i with
    | zero =>
      simp only [List.getElem?_cons_zero, Option.some.injEq, Prod.mk.injEq] at h
      obtain ⟨rfl, rfl⟩ := h
      rcases hg.1 with h | ⟨h1, h2, h3⟩
      · exact Or.inl h
      · exact Or.inr ⟨h1, h2, Or.inl ⟨rfl, h3⟩⟩
    | succ i =>
      rw [List.getElem?_cons_succ] at h
      rcases ih n0 hg.2 i r n h with h | ⟨h1, h2, h3⟩
      · exact Or.inl h
      · refine Or.inr ⟨h1, h2, Or.inr ?_⟩
        rcases h3 with ⟨rfl, rfl⟩ | ⟨j, r', rfl, hj⟩
        · exact ⟨0, r0, rfl, rfl⟩
        · exact ⟨j + 1, r', rfl, by rw [List.getElem?_cons_succ]; exact hj⟩

/-- The files used, whether the program goes on or stops. -/
def Ended.files : Ended → List (Res × List Char)
  | .crashed => []
  | .stopped l => l
  | .ready l => l

/-- **C144** Whatever the configuration: every file used has the name the configuration gives it or, where the look-up
is not tested and there is no such name, that of the file used before it. -/
theorem names (conv : Tree → Option (List Char)) (ok : Res → List Char → Bool) (root : Tree) (buf : List Char)
    (i : Nat) (r : Res) (n : List Char) (h : (setup conv ok root order buf []).files[i]? = some (r, n)) :
    order[i]? = some r ∧ (Configured conv root r n ∨
      (r.checked = false ∧ (¬ ∃ m, Configured conv root r m) ∧
        ∃ j r', i = j + 1 ∧ (setup conv ok root order buf []).files[j]? = some (r', n))) := by
  rcases setup_spec conv ok root order buf [] with hc | ⟨ext, hg, hr⟩
  · rw [hc] at h; simp [Ended.files] at h
  · have hf : (setup conv ok root order buf []).files = ext ∧ ext.map Prod.fst <+: order := by
      rcases hr with ⟨hr, hm, _⟩ | ⟨hr, hm⟩
      · rw [hr]; exact ⟨by simp [Ended.files], by rw [hm]⟩
      · rw [hr]; exact ⟨by simp [Ended.files], hm⟩
    rw [hf.1] at h ⊢
    have ho : order[i]? = some r := by
      have h1 : (ext.map Prod.fst)[i]? = some r := by simp [h]
      obtain ⟨t, ht⟩ := hf.2
      rw [← ht, List.getElem?_append_left]
      · exact h1
      · by_contra hlt
        rw [List.getElem?_eq_none (by omega)] at h1
        cases h1
    refine ⟨ho, ?_⟩
    rcases good_get conv root ext _ hg i r n h with h | ⟨h1, h2, h3⟩
    · exact Or.inl h
    · refine Or.inr ⟨h1, h2, ?_⟩
      rcases h3 with ⟨rfl, _⟩ | h3
      · exfalso
        simp only [order, List.getElem?_cons_zero, Option.some.injEq] at ho
        subst ho
        cases h1
      · exact h3

/-- **C144** A file whose look-up is tested is used by its own name only. -/
theorem checked_names (conv : Tree → Option (List Char)) (ok : Res → List Char → Bool) (root : Tree) (buf : List Char)
    (r : Res) (n : List Char) (hr : r.checked = true) (h : (r, n) ∈ (setup conv ok root order buf []).files) :
    Configured conv root r n := by
  obtain ⟨i, hi⟩ := List.mem_iff_getElem?.mp h
  rcases (names conv ok root buf i r n hi).2 with h | ⟨h, _⟩
  · exact h
  · rw [hr] at h; cases h

/-- **C144** (partial: the configuration must name every file) The program goes on with all thirteen files, each by
its own name.  Missing: a configuration without one of the five names whose look-ups are not tested, see
`stale_name_counterexample`. -/
theorem own_names_partial (conv : Tree → Option (List Char)) (ok : Res → List Char → Bool) (root : Tree)
    (buf : List Char) (hall : ∀ r, ∃ n, Configured conv root r n) (used : List (Res × List Char))
    (h : setup conv ok root order buf [] = .ready used) :
    used.map Prod.fst = order ∧ ∀ r n, (r, n) ∈ used → Configured conv root r n ∧ ok r n = true := by
  have hfiles : (setup conv ok root order buf []).files = used := by rw [h]; rfl
  rcases setup_spec conv ok root order buf [] with hc | ⟨ext, _, ⟨hr, hm, hk⟩ | ⟨hr, _⟩⟩
  · rw [h] at hc; cases hc
  · rw [h, Ended.ready.injEq, List.nil_append] at hr
    subst hr
    refine ⟨hm, fun r n hn => ⟨?_, hk _ hn⟩⟩
    obtain ⟨i, hi⟩ := List.mem_iff_getElem?.mp hn
    rw [← hfiles] at hi
    rcases (names conv ok root buf i r n hi).2 with h | ⟨_, h, _⟩
    · exact h
    · exact absurd (hall r) h
  · rw [h] at hr; cases hr

/-- The name given to a file in the sample. -/
def sampleName (r : Res) : String := r.path.getLastD ""

/-- An entry of the sample, unless it is the one left out. -/
def entry (left : Option Res) (r : Res) : List (Tree × Tree) :=
  if left = some r then [] else [(.scalar (sampleName r), .scalar (sampleName r))]

/-- A configuration with all files but (possibly) one. -/
def sample (left : Option Res) : Tree :=
  .map [
    (.scalar "naif-kernels", .map (entry left .spk ++ entry left .lsk ++ entry left .pck)),
    (.scalar "data", .map (entry left .rinex ++ entry left .sp3 ++ entry left .beacons)),
    (.scalar "eop-info", .map (entry left .eop)),
    (.scalar "gravity", .map (entry left .gravity)),
    (.scalar "reference-frame", .map (entry left .sinex)),
    (.scalar "troposphere", .map [(.scalar "vmf3", .map (entry left .vmf3))]),
    (.scalar "attitude", .map (entry left .quat ++ entry left .mass)),
    (.scalar "force-model", .map [(.scalar "atmospheric-drag", .map (entry left .atmo))])]

/-- Nothing left out: thirteen files, each with its name. -/
example : setup strConv (fun _ _ => true) (sample none) order (List.replicate 256 'x') [] =
    .ready (order.map fun r => (r, (sampleName r).toList)) := by decide +kernel

/-- A tested name left out: the program stops. -/
example : setup strConv (fun _ _ => true) (sample (some .rinex)) order (List.replicate 256 'x') [] =
    .stopped [(.spk, "spk".toList), (.lsk, "lsk".toList)] := by decide +kernel

/-- The file used before another. -/
def before : Res → Res
  | .sp3 => .rinex
  | .beacons => .sinex
  | .vmf3 => .beacons
  | .quat => .vmf3
  | .atmo => .pck
  | r => r

/-- **C144 is false for five of the thirteen files**: without a name for the orbit (SP3), the table of beacons, the
grid of the troposphere, the quaternions or the solar activity, the program goes on and opens the file named
before it – the observations as the orbit, the coordinates as the table of beacons, a SPICE kernel as the solar
activity. -/
theorem stale_name_counterexample (r : Res) (hr : r.checked = false) :
    before r ≠ r ∧ ∃ used, setup strConv (fun _ _ => true) (sample (some r)) order (List.replicate 256 'x') [] =
      .ready used ∧ (r, (sampleName (before r)).toList) ∈ used := by
  cases r
  case sp3 =>
    exact ⟨by decide, _, by decide +kernel, show _ ∈ [(Res.spk, "spk".toList), (.lsk, "lsk".toList),
      (.rinex, "doris-rinex".toList), (.sp3, "doris-rinex".toList), (.eop, "eop-file".toList),
      (.gravity, "model".toList), (.sinex, "station-coordinates".toList),
      (.beacons, "beacon-information".toList), (.vmf3, "grid".toList), (.quat, "body-quaternion".toList),
      (.mass, "mass-cog".toList), (.pck, "pck".toList), (.atmo, "atmo-data-csv".toList)] by decide⟩
  case beacons =>
    exact ⟨by decide, _, by decide +kernel, show _ ∈ [(Res.spk, "spk".toList), (.lsk, "lsk".toList),
      (.rinex, "doris-rinex".toList), (.sp3, "sp3".toList), (.eop, "eop-file".toList),
      (.gravity, "model".toList), (.sinex, "station-coordinates".toList),
      (.beacons, "station-coordinates".toList), (.vmf3, "grid".toList), (.quat, "body-quaternion".toList),
      (.mass, "mass-cog".toList), (.pck, "pck".toList), (.atmo, "atmo-data-csv".toList)] by decide⟩
  case vmf3 =>
    exact ⟨by decide, _, by decide +kernel, show _ ∈ [(Res.spk, "spk".toList), (.lsk, "lsk".toList),
      (.rinex, "doris-rinex".toList), (.sp3, "sp3".toList), (.eop, "eop-file".toList),
      (.gravity, "model".toList), (.sinex, "station-coordinates".toList),
      (.beacons, "beacon-information".toList), (.vmf3, "beacon-information".toList), (.quat, "body-quaternion".toList),
      (.mass, "mass-cog".toList), (.pck, "pck".toList), (.atmo, "atmo-data-csv".toList)] by decide⟩
  case quat =>
    exact ⟨by decide, _, by decide +kernel, show _ ∈ [(Res.spk, "spk".toList), (.lsk, "lsk".toList),
      (.rinex, "doris-rinex".toList), (.sp3, "sp3".toList), (.eop, "eop-file".toList),
      (.gravity, "model".toList), (.sinex, "station-coordinates".toList),
      (.beacons, "beacon-information".toList), (.vmf3, "grid".toList), (.quat, "grid".toList),
      (.mass, "mass-cog".toList), (.pck, "pck".toList), (.atmo, "atmo-data-csv".toList)] by decide⟩
  case atmo =>
    exact ⟨by decide, _, by decide +kernel, show _ ∈ [(Res.spk, "spk".toList), (.lsk, "lsk".toList),
      (.rinex, "doris-rinex".toList), (.sp3, "sp3".toList), (.eop, "eop-file".toList),
      (.gravity, "model".toList), (.sinex, "station-coordinates".toList),
      (.beacons, "beacon-information".toList), (.vmf3, "grid".toList), (.quat, "body-quaternion".toList),
      (.mass, "mass-cog".toList), (.pck, "pck".toList), (.atmo, "pck".toList)] by decide⟩
  all_goals cases hr

/-- **C144** The coefficients are created with the degree of the configuration if there is one; the status is 0 exactly
if there are both degree and order. -/
theorem degree_partial (conv : Tree → Option Int) (root : Tree) (junk : Int × Int) :
    (∀ v d, At root ["gravity", "degree"] v → conv v = some d → (harmonics conv root junk).1 = d) ∧
    ((harmonics conv root junk).2 = 0 ↔ (∃ v d, At root ["gravity", "degree"] v ∧ conv v = some d) ∧
      (∃ v o, At root ["gravity", "order"] v ∧ conv v = some o)) := by
  unfold harmonics
  dsimp only
  constructor
  · intro v d hv hd
    rw [(depth2_spec conv root _ _ _).1 v d hv hd]
  · by_cases hd : ∃ v d, At root ["gravity", "degree"] v ∧ conv v = some d
    · by_cases ho : ∃ v o, At root ["gravity", "order"] v ∧ conv v = some o
      · obtain ⟨v, d, h1, h2⟩ := hd
        obtain ⟨w, o, h3, h4⟩ := ho
        rw [(depth2_spec conv root _ _ _).1 v d h1 h2, (depth2_spec conv root _ _ _).1 w o h3 h4]
        exact ⟨fun _ => ⟨⟨v, d, h1, h2⟩, ⟨w, o, h3, h4⟩⟩, fun _ => rfl⟩
      · rw [(depth2_spec conv root "gravity" "order" _).2 ho]
        constructor
        · intro h; exact absurd h (by omega)
        · intro h; exact absurd h.2 ho
    · rw [(depth2_spec conv root "gravity" "degree" _).2 hd]
      constructor
      · intro h; exact absurd h (by omega)
      · intro h; exact absurd h.1 hd

/-- **C144 is false without a degree in the configuration**: the coefficients are created – memory for
`(n + 1) (n + 2) / 2` of them – with whatever the uninitialised variable holds, before the status is looked at. -/
theorem degree_counterexample (conv : Tree → Option Int) (junk : Int × Int) :
    harmonics conv (.map []) junk = (junk.1, 2) := rfl

/-! ### Initial covariances -/

/-- The standard deviations the constants of the program stand for, squared. -/
def wanted : Param → ℚ
  | .state _ => 1
  | .force _ => (3 / 4) ^ 2
  | .tropo _ => (1 / 2) ^ 2
  | .rfoff _ => 1
  | .drift _ => 1

/-- **C144** The diagonal of the first covariance matrix, entry by entry: among the entries of the beacons a quarter
is at every second place of the first two thirds, instead of every third place of all. -/
theorem covariance_eq (ns : Nat) : ∃ x, covariance ns = some x ∧ (∀ i, i < 6 → x i = 1) ∧ x 6 = 9 / 16 ∧
    ∀ i, i < 3 * ns → x (7 + i) = if i % 2 = 0 ∧ i < 2 * ns then 1 / 4 else 1 := by
  obtain ⟨x1, h1, ha1, hb1⟩ := putAll2_spec (numParams .linear 1 ns) 3 (by omega) (1 * 1) (1 * 1) ns
    (rfoffIndex .linear 1 0) (fun _ => 1) (fun i hi => by simp only [numParams, rfoffIndex]; omega)
  obtain ⟨x2, h2, ha2, hb2⟩ := putAll_spec (numParams .linear 1 ns) 2 (by omega) ((1 / 2) * (1 / 2)) ns
    (tropoIndex .linear 1 0) x1 (fun i hi => by simp only [numParams, tropoIndex]; omega)
  obtain ⟨x3, h3⟩ := put_some (n := numParams .linear 1 ns) (i := dragIndex) x2 ((3 / 4) * (3 / 4))
    (by simp only [numParams, dragIndex]; omega)
  have hx1 : ∀ j, x1 j = 1 := by
    intro j
    by_cases hj : ∃ i, i < ns ∧ (j = rfoffIndex .linear 1 0 + i * 3 ∨ j = rfoffIndex .linear 1 0 + i * 3 + 1)
    · obtain ⟨i, hi, rfl | rfl⟩ := hj
      · rw [(ha1 i hi).1]; norm_num
      · rw [(ha1 i hi).2]; norm_num
    · rw [hb1 j fun i hi => ⟨fun h => hj ⟨i, hi, Or.inl h⟩, fun h => hj ⟨i, hi, Or.inr h⟩⟩]
  refine ⟨x3, ?_, ?_, ?_, ?_⟩
  · simp only [covariance, setRfoffLinear, setTropo, setDrag, tropoStep]
    rw [h1, Option.bind_some, h2, Option.bind_some, h3]
  · intro i hi
    rw [(put_spec h3).2, if_neg (by simp only [dragIndex]; omega),
      hb2 i (fun b hb => by simp only [tropoIndex]; omega), hx1]
  · rw [(put_spec h3).2, if_pos (by rfl)]; norm_num
  · intro i hi
    rw [(put_spec h3).2, if_neg (by simp only [dragIndex]; omega)]
    by_cases hc : i % 2 = 0 ∧ i < 2 * ns
    · rw [if_pos hc]
      have hk := ha2 (i / 2) (by omega)
      rw [show tropoIndex .linear 1 0 + i / 2 * 2 = 7 + i by simp only [tropoIndex]; omega] at hk
      rw [hk]; norm_num
    · rw [if_neg hc, hb2 (7 + i) (fun b hb h => hc (by simp only [tropoIndex] at h; omega)), hx1]

/-- **C144** All variances are the intended ones exactly with at most one beacon. -/
theorem covariance_iff (ns : Nat) :
    (∃ x, covariance ns = some x ∧ ∀ p : Param, p.Valid .linear 1 ns → x (slot .linear 1 p) = wanted p) ↔
      ns ≤ 1 := by
  obtain ⟨x, hx, hs, hd, hb⟩ := covariance_eq ns
  constructor
  · rintro ⟨y, hy, hw⟩
    rw [hx, Option.some.injEq] at hy
    subst hy
    by_contra hn
    have h1 := hw (.drift 0) ⟨by omega, rfl⟩
    have h2 := hb 2 (by omega)
    rw [if_pos ⟨by omega, by omega⟩] at h2
    simp only [slot, rfoffIndex, wanted] at h1
    norm_num at h1
    rw [show (9 : ℕ) = 7 + 2 from rfl, h2] at h1
    norm_num at h1
  · intro hn
    refine ⟨x, hx, ?_⟩
    intro p hp
    cases p with
    | state i => exact hs i hp
    | force i =>
      have : i = 0 := by simp only [Param.Valid] at hp; omega
      subst this
      simp only [slot, dragIndex, wanted, Nat.add_zero]
      rw [hd]; norm_num
    | tropo b =>
      have hb0 : b = 0 ∧ ns = 1 := by simp only [Param.Valid] at hp; omega
      obtain ⟨rfl, rfl⟩ := hb0
      have := hb 0 (by omega)
      simp only [slot, tropoIndex, wanted]
      norm_num at this ⊢
      exact this
    | rfoff b =>
      have hb0 : b = 0 ∧ ns = 1 := by simp only [Param.Valid] at hp; omega
      obtain ⟨rfl, rfl⟩ := hb0
      have := hb 1 (by omega)
      simp only [slot, rfoffIndex, wanted]
      norm_num at this ⊢
      exact this
    | drift b =>
      have hb0 : b = 0 ∧ ns = 1 := by simp only [Param.Valid] at hp; omega
      obtain ⟨rfl, rfl⟩ := hb0
      have := hb 2 (by omega)
      simp only [slot, rfoffIndex, wanted]
      norm_num at this ⊢
      exact this

/-- **C144 is false for the covariances**: of fifty beacons the first has a quarter as the variance of its drift and
of the second the zenith delay starts with a variance of 1. -/
theorem covariance_counterexample : ∃ x, covariance 50 = some x ∧
    x (slot .linear 1 (.drift 0)) = 1 / 4 ∧ x (slot .linear 1 (.tropo 1)) = 1 ∧
    x (slot .linear 1 (.rfoff 1)) = 1 / 4 := by
  obtain ⟨x, hx, _, _, hb⟩ := covariance_eq 50
  refine ⟨x, hx, ?_, ?_, ?_⟩
  · exact (hb 2 (by omega)).trans (if_pos (by omega))
  · exact (hb 3 (by omega)).trans (if_neg (by omega))
  · exact (hb 4 (by omega)).trans (if_pos (by omega))

/-- **C144** The estimates the loop starts with: a drag coefficient of 2, nothing else (the state is set in the
loop). -/
theorem estimates_eq (ns : Nat) : ∃ x, estimates ns = some x ∧
    ∀ i, x i = if i = slot .linear 1 (.force 0) then 2 else 0 := by
  obtain ⟨x1, h1, ha1, hb1⟩ := putAll2_spec (numParams .linear 1 ns) 3 (by omega) 0 0 ns
    (rfoffIndex .linear 1 0) (fun _ => 0) (fun i hi => by simp only [numParams, rfoffIndex]; omega)
  obtain ⟨x3, h3⟩ := put_some (n := numParams .linear 1 ns) (i := dragIndex) x1 2
    (by simp only [numParams, dragIndex]; omega)
  refine ⟨x3, ?_, ?_⟩
  · simp only [estimates, setRfoffLinear, setDrag]
    rw [h1, Option.bind_some, h3]
  · intro j
    rw [(put_spec h3).2, show slot .linear 1 (.force 0) = dragIndex from rfl]
    by_cases hd : j = dragIndex
    · rw [if_pos hd, if_pos hd]
    · rw [if_neg hd, if_neg hd]
      by_cases hj : ∃ i, i < ns ∧ (j = rfoffIndex .linear 1 0 + i * 3 ∨ j = rfoffIndex .linear 1 0 + i * 3 + 1)
      · obtain ⟨i, hi, rfl | rfl⟩ := hj
        · rw [(ha1 i hi).1]
        · rw [(ha1 i hi).2]
      · rw [hb1 j fun i hi => ⟨fun h => hj ⟨i, hi, Or.inl h⟩, fun h => hj ⟨i, hi, Or.inr h⟩⟩]

/-! ### The loop over the blocks -/

/-- Twelve hours in nanoseconds. -/
def halfDay : Int := 43200000000000

theorem blocks_spec (goto go : Int → Bool) (first : Int) (e t' : Int) (he : e ≠ 0) (rest : List (Int × Int)) :
    ∀ (ts done : List Int), (∀ t ∈ ts, go t = true) → (∀ t ∈ ts, goto t = true) →
      blocks goto go first (ts.map (fun t => (0, t)) ++ (e, t') :: rest) done =
        some (done ++ ts.takeWhile (fun t => t - first ≤ halfDay) ++
          (ts.dropWhile (fun t => t - first ≤ halfDay)).take 1, 0) := by
  intro ts
  induction ts with
  | nil => intro done _ _; simp [blocks, he]
  | cons t ts ih =>
    intro done h1 h2
    rw [List.map_cons, List.cons_append, blocks, if_neg (by simp), if_neg (by simp [h2 t (by simp)]),
      if_neg (by simp [h1 t (by simp)])]
    by_cases hl : t - first ≤ halfDay
    · rw [if_neg (by simp only [halfDay] at hl; omega), ih (done ++ [t]) (fun t ht => h1 t (by simp [ht]))
        (fun t ht => h2 t (by simp [ht])), List.takeWhile_cons_of_pos (by simpa using hl),
        List.dropWhile_cons_of_pos (by simpa using hl)]
      simp
    · rw [if_pos (by simp only [halfDay] at hl; omega), List.takeWhile_cons_of_neg (by simpa using hl),
        List.dropWhile_cons_of_neg (by simpa using hl)]
      simp

/-- **C144** The loop returns 1 when the SP3 reader does not find the epoch of the first block; no block is done. -/
theorem first_block_missing (goto go : Int → Bool) (first t : Int) (rest : List (Int × Int)) (h : goto t = false) :
    blocks goto go first ((0, t) :: rest) [] = some ([], 1) := by
  rw [blocks, if_neg (by simp), if_pos ⟨rfl, h⟩]

/-- **C144** The loop returns 1 at the first block within twelve hours whose integration fails; the blocks before it
are done. -/
theorem failed_block (goto go : Int → Bool) (first t : Int) (rest : List (Int × Int)) (ht : go t = false) :
    ∀ (ts done : List Int), (∀ x ∈ ts, go x = true ∧ x - first ≤ halfDay) → (∀ x ∈ t :: ts, goto x = true) →
      blocks goto go first (ts.map (fun x => (0, x)) ++ (0, t) :: rest) done = some (done ++ ts, 1) := by
  intro ts
  induction ts with
  | nil => intro done _ h2; simp [blocks, ht]
  | cons x ts ih =>
    intro done h1 h2
    have hx := h1 x (by simp)
    rw [List.map_cons, List.cons_append, blocks, if_neg (by simp), if_neg (by simp [h2 x (by simp)]),
      if_neg (by simp [hx.1]), if_neg (by have := hx.2; simp only [halfDay] at this; omega),
      ih (done ++ [x]) (fun y hy => h1 y (by simp [hy]))
        (fun y hy => h2 y (by rcases List.mem_cons.mp hy with h | h <;> simp [h]))]
    simp

example : blocks (fun _ => true) (fun t => t ≠ 30) 0 ((0, 10) :: (0, 20) :: (0, 30) :: []) [] = some ([10, 20], 1) :=
  failed_block (fun _ => true) (fun t => t ≠ 30) 0 30 [] (by decide) [10, 20] [] (by decide) (by decide)

/-- **C144** If every integration succeeds: the blocks done are those up to the end of the twelfth hour and one more;
the value returned is 0. -/
theorem blocks_done (goto go : Int → Bool) (first : Int) (e t' : Int) (he : e ≠ 0) (ts : List Int)
    (h1 : ∀ t ∈ ts, go t = true) (h2 : ∀ t ∈ ts, goto t = true) :
    blocks goto go first (ts.map (fun t => (0, t)) ++ [(e, t')]) [] =
      some (ts.takeWhile (fun t => t - first ≤ halfDay) ++
        (ts.dropWhile (fun t => t - first ≤ halfDay)).take 1, 0) := by
  rw [blocks_spec goto go first e t' he [] ts [] h1 h2, List.nil_append]

/-- **C144** (partial: all blocks but the last within twelve hours of the first observation of the header) All blocks
are done.  Missing: longer files, see `half_day_counterexample`. -/
theorem blocks_partial (goto go : Int → Bool) (first : Int) (e t' : Int) (he : e ≠ 0) (ts : List Int) (last : Int)
    (h1 : ∀ t ∈ ts ++ [last], go t = true) (h2 : ∀ t ∈ ts ++ [last], goto t = true)
    (hl : ∀ t ∈ ts, t - first ≤ halfDay) :
    blocks goto go first ((ts ++ [last]).map (fun t => (0, t)) ++ [(e, t')]) [] = some (ts ++ [last], 0) := by
  rw [blocks_done goto go first e t' he _ h1 h2]
  have hp : ∀ l : List Int, (∀ t ∈ l, t - first ≤ halfDay) →
      (l ++ [last]).takeWhile (fun t => t - first ≤ halfDay) ++
        ((l ++ [last]).dropWhile (fun t => t - first ≤ halfDay)).take 1 = l ++ [last] := by
    intro l
    induction l with
    | nil =>
      intro _
      by_cases h : last - first ≤ halfDay
      · rw [List.nil_append, List.takeWhile_cons_of_pos (by simpa using h),
          List.dropWhile_cons_of_pos (by simpa using h)]
        rfl
      · rw [List.nil_append, List.takeWhile_cons_of_neg (by simpa using h),
          List.dropWhile_cons_of_neg (by simpa using h)]
        rfl
    | cons a l ih =>
      intro h
      rw [List.cons_append, List.takeWhile_cons_of_pos (by simpa using h a (by simp)),
        List.dropWhile_cons_of_pos (by simpa using h a (by simp)), List.cons_append,
        ih fun t ht => h t (by simp [ht])]
  rw [hp ts hl]

theorem cut (k m : Nat) (f : Nat → Int) (h : ∀ i, i < k → f i ≤ halfDay) (h' : ¬ f k ≤ halfDay) :
    blocks (fun _ => true) (fun _ => true) 0
      (((List.range (k + (m + 1))).map f).map (fun t => (0, t)) ++ [(-1, 0)]) [] =
      some (((List.range (k + (m + 1))).map f).take (k + 1), 0) := by
  rw [blocks_done _ _ _ _ _ (by decide) _ (fun _ _ => rfl) (fun _ _ => rfl)]
  have htw : ∀ (l m : List Int) (a : Int), (∀ t ∈ l, t - 0 ≤ halfDay) → ¬ (a - 0 ≤ halfDay) →
      (l ++ a :: m).takeWhile (fun t => t - 0 ≤ halfDay) ++
        ((l ++ a :: m).dropWhile (fun t => t - 0 ≤ halfDay)).take 1 = (l ++ a :: m).take (l.length + 1) := by
    intro l m a hl ha
    induction l with
    | nil =>
      rw [List.nil_append, List.takeWhile_cons_of_neg (by simpa using ha),
        List.dropWhile_cons_of_neg (by simpa using ha)]
      simp
    | cons b l ih =>
      rw [List.cons_append, List.takeWhile_cons_of_pos (by simpa using hl b (by simp)),
        List.dropWhile_cons_of_pos (by simpa using hl b (by simp)), List.cons_append,
        ih fun t ht => hl t (by simp [ht])]
      simp
  have hsplit : (List.range (k + (m + 1))).map f =
      (List.range k).map f ++ f k :: (List.range m).map (fun i => f (k + (i + 1))) := by
    rw [List.range_add, List.map_append, List.map_map, List.range_succ_eq_map, List.map_cons, List.map_map]
    rfl
  rw [hsplit, htw]
  · rw [List.length_map, List.length_range]
  · intro t ht
    rw [List.mem_map] at ht
    obtain ⟨i, hi, rfl⟩ := ht
    rw [List.mem_range] at hi
    simpa using h i hi
  · simpa using h'

/-- Epochs every ten seconds. -/
def everyTen (i : Nat) : Int := i * 10000000000

/-- **C144 is false for a whole day**: of blocks every ten seconds over twenty-four hours those after the first one
beyond the twelfth hour are not looked at, and the value returned does not tell. -/
theorem half_day_counterexample : ∃ ts : List Int, ts.length = 8640 ∧
    blocks (fun _ => true) (fun _ => true) 0 (ts.map (fun t => (0, t)) ++ [(-1, 0)]) [] = some (ts.take 4322, 0) := by
  have h := cut 4321 4318 everyTen (fun i hi => by simp only [halfDay, everyTen]; omega)
    (by simp only [halfDay, everyTen]; omega)
  have hn : ∀ n, ((List.range n).map everyTen).length = n := by
    intro n; rw [List.length_map, List.length_range]
  exact ⟨_, hn _, h⟩

/-- **C144 is false for a file that cannot be read to its end**: whatever the status of the reader, an error in the
middle of the file included, the program returns 0. -/
theorem read_error_counterexample (goto go : Int → Bool) (first : Int) (e t' : Int) (he : e ≠ 0)
    (rest : List (Int × Int)) : blocks goto go first ((e, t') :: rest) [] = some ([], 0) := by
  simp [blocks, he]

example : blocks (fun _ => true) (fun _ => true) 0 [(0, 5), (0, 15), (2, 15), (0, 25)] [] = some ([5, 15], 0) := by
  decide

/-! ### Observables -/

/-- **C144** Status 0 exactly if the file has all five observables; the indices are then those of their first places
in the list. -/
theorem indexes_spec (codes : List SystemInfo.ObsCode) :
    ((indexes codes).2 = 0 ↔ ∀ c ∈ [(⟨.phase, 1⟩ : SystemInfo.ObsCode), ⟨.phase, 2⟩, ⟨.frequencyOffset, 0⟩,
      ⟨.powerLevel, 1⟩, ⟨.powerLevel, 2⟩], c ∈ codes) ∧
    ((indexes codes).2 = 0 → ∃ a b c d e : Nat, (indexes codes).1 = ((a : Int), (b : Int), (c : Int), (d : Int), (e : Int)) ∧
      codes[a]? = some ⟨.phase, 1⟩ ∧ codes[b]? = some ⟨.phase, 2⟩ ∧ codes[c]? = some ⟨.frequencyOffset, 0⟩ ∧
      codes[d]? = some ⟨.powerLevel, 1⟩ ∧ codes[e]? = some ⟨.powerLevel, 2⟩) := by
  have hk : ∀ c, (Rinex.codeIndex codes c < 0 ∧ c ∉ codes) ∨
      (∃ i : Nat, Rinex.codeIndex codes c = i ∧ codes[i]? = some c ∧ c ∈ codes) := by
    intro c
    rcases Rinex.code_lookup codes c with ⟨h1, h2⟩ | ⟨i, h1, h2⟩
    · exact Or.inl ⟨by omega, h1⟩
    · exact Or.inr ⟨i, h1, h2.1, List.mem_of_getElem? h2.1⟩
  unfold indexes
  dsimp only
  rcases hk ⟨.phase, 1⟩ with ⟨h1, m1⟩ | ⟨i1, h1, g1, m1⟩
  · simp [h1, m1]
  rcases hk ⟨.phase, 2⟩ with ⟨h2, m2⟩ | ⟨i2, h2, g2, m2⟩
  · simp [h2, m2]
  rcases hk ⟨.frequencyOffset, 0⟩ with ⟨h3, m3⟩ | ⟨i3, h3, g3, m3⟩
  · simp [h3, m3]
  rcases hk ⟨.powerLevel, 1⟩ with ⟨h4, m4⟩ | ⟨i4, h4, g4, m4⟩
  · simp [h4, m4]
  rcases hk ⟨.powerLevel, 2⟩ with ⟨h5, m5⟩ | ⟨i5, h5, g5, m5⟩
  · simp [h5, m5]
  rw [h1, h2, h3, h4, h5, if_neg (by omega)]
  refine ⟨by simp [m1, m2, m3, m4, m5], fun _ => ⟨i1, i2, i3, i4, i5, rfl, g1, g2, g3, g4, g5⟩⟩

example : indexes [⟨.phase, 1⟩, ⟨.phase, 2⟩, ⟨.pseudorange, 1⟩, ⟨.powerLevel, 1⟩, ⟨.powerLevel, 2⟩,
    ⟨.frequencyOffset, 0⟩] = ((0, 1, 5, 3, 4), 0) := by decide

/-! ### Relativity -/

/-- Velocity in the celestial frame (in the axes of the Earth) of a point with position `r` and velocity `v` on an
Earth that turns at the rate `w`. -/
def inertial (w : ℝ) (r v : V3) : V3 := v.add ((⟨0, 0, w⟩ : V3).cross r)

/-- The difference of the clock rates of satellite and beacon (times the speed of light): potential and half the
square of the velocity *in the celestial frame*. -/
noncomputable def clockRate (c w : ℝ) (lat : V3 → ℝ) (r v b : V3) (Re GM J2 : ℝ) : ℝ :=
  clockJ2 c lat r (inertial w r v) GM J2 Re - clock c b (inertial w b ⟨0, 0, 0⟩) GM

/-- **C144** What the correction lacks: the velocity of the rotation, of the satellite and of the beacon. -/
theorem relativity_error (c w : ℝ) (lat : V3 → ℝ) (r v b : V3) (Re GM J2 : ℝ) :
    clockRate c w lat r v b Re GM J2 = relativity c lat r v b Re GM J2 +
      (w * (r.x * v.y - r.y * v.x) + w ^ 2 * (r.x ^ 2 + r.y ^ 2) / 2 - w ^ 2 * (b.x ^ 2 + b.y ^ 2) / 2) / c := by
  unfold clockRate relativity clock clockJ2 inertial
  simp only [V3.dot, V3.add, V3.cross]
  ring

/-- **C144 is false for the velocities**: for a satellite over the equator on a circular orbit of 7700 km, eastwards
with 7200 m/s in the celestial frame, and a beacon at the pole, the correction is too small by more than a
centimetre per second. -/
theorem relativity_counterexample (lat : V3 → ℝ) (b : V3) (hb : b.x = 0 ∧ b.y = 0) (Re GM J2 : ℝ) :
    inertial (7292115e-11) ⟨7700000, 0, 0⟩ ⟨0, 7200 - 7292115e-11 * 7700000, 0⟩ = ⟨0, 7200, 0⟩ ∧
    relativity 299792458 lat ⟨7700000, 0, 0⟩ ⟨0, 7200 - 7292115e-11 * 7700000, 0⟩ b Re GM J2 + 1 / 100 <
      clockRate 299792458 (7292115e-11) lat ⟨7700000, 0, 0⟩ ⟨0, 7200 - 7292115e-11 * 7700000, 0⟩ b Re GM J2 := by
  constructor
  · ext <;> simp [inertial, V3.add, V3.cross]
  · rw [relativity_error, hb.1, hb.2]
    norm_num

/-- A count with the clocks at different rates: the frequency received is higher by the relative difference
`d / C`.  (Phases as in the article the formula is taken from; no other errors.) -/
structure Clocks (k : Count) (d : ℝ) : Prop where
  phase : k.ndopDt = -(k.frT - k.feN * (1 - (k.cur.s.norm - k.prev.s.norm) / k.dt / k.C + d / k.C))
  ion : k.cur.diono = k.prev.diono

/-- **C144** The range rate the program forms is right exactly if the *change* of the correction per second is the
correction itself. -/
theorem clocks_iff (k : Count) (d : ℝ) (h : Clocks k d) (hfe : k.feN ≠ 0) (hC : k.C ≠ 0) :
    k.uobs = (k.cur.s.norm - k.prev.s.norm) / k.dt ↔ (k.cur.drel - k.prev.drel) / k.dt = d := by
  have hu : k.uobs = (k.cur.s.norm - k.prev.s.norm) / k.dt - d + (k.cur.drel - k.prev.drel) / k.dt := by
    unfold Count.uobs Count.dion
    rw [h.phase, h.ion]
    generalize (k.cur.s.norm - k.prev.s.norm) / k.dt = q
    generalize (k.cur.drel - k.prev.drel) / k.dt = p
    field_simp
    ring
  rw [hu]
  constructor <;> intro h <;> linarith

/-- **C144 is false for the use of the correction**: it is a range rate already, but its change per second is added
in its place; while it is constant (a circular orbit over the equator) nothing is corrected. -/
theorem clock_difference_counterexample (k : Count) (d : ℝ) (hd : d ≠ 0) (h : Clocks k d) (hfe : k.feN ≠ 0)
    (hC : k.C ≠ 0) (hp : k.prev.drel = d) (hc : k.cur.drel = d) :
    k.uobs ≠ (k.cur.s.norm - k.prev.s.norm) / k.dt := by
  rw [ne_eq, clocks_iff k d h hfe hC, hp, hc, sub_self, zero_div]
  exact fun h => hd h.symm

example : Clocks ⟨1, 1, 1, 1, ⟨0, 0, 3, 0, 0, 0, ⟨0, 0, 0⟩⟩, ⟨3, 0, 3, 0, 0, 0, ⟨0, 0, 0⟩⟩, M3.one⟩ 3 := by
  constructor
  · norm_num [Count.ndopDt]
  · rfl

end Verif.Pod.Setup
