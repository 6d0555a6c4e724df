import Verif.Spice.Model
import Mathlib.Tactic.Tauto

/-
C70: kernels are loaded once.
-/
namespace Verif.Spice

theorem strnEq_iff (f name : Name) : strnEq f name name.length = true ↔ name <+: f := by
  induction name generalizing f with
  | nil => simp [strnEq]
  | cons c cs ih =>
    cases f with
    | nil => simp [strnEq]
    | cons d ds =>
      simp only [strnEq, List.length_cons, Bool.and_eq_true, beq_iff_eq, ih, List.cons_prefix_cons]
      exact and_congr_left fun _ => eq_comm

/-- The number of times a kernel is loaded. -/
def timesLoaded (pool : Pool) (name : Name) : Nat := (pool.map Prod.fst).count name

/-- The category of every loaded kernel is that of its file. -/
def Typed (typeOf : Name → Kind) (pool : Pool) : Prop := ∀ e ∈ pool, e.2 = typeOf e.1

/-- No name is the proper beginning of another one. -/
def PrefixFree (names : List Name) : Prop := ∀ a ∈ names, ∀ b ∈ names, a <+: b → a = b

/-- A call of the right function finds the kernel exactly if it is loaded. -/
theorem found_iff (typeOf : Name → Kind) (pool : Pool) (ht : Typed typeOf pool) (k : Kind) (name : Name)
    (hk : typeOf name = k) (hlen : name.length < filLen)
    (hp : ∀ b ∈ pool.map Prod.fst, name <+: b → name = b) :
    ((listed pool k).any fun f => strnEq f name name.length) = true ↔ name ∈ pool.map Prod.fst := by
  simp only [List.any_eq_true, listed, List.mem_map, List.mem_filter, decide_eq_true_eq]
  constructor
  · rintro ⟨f, ⟨e, ⟨he, -⟩, rfl⟩, hf⟩
    rw [strnEq_iff] at hf
    exact ⟨e, he, (hp _ (List.mem_map_of_mem he) (hf.trans (List.take_prefix _ _))).symm⟩
  · rintro ⟨e, he, rfl⟩
    refine ⟨e.1, ⟨e, ⟨he, (ht e he).trans hk⟩, List.take_of_length_le (by omega)⟩, ?_⟩
    exact (strnEq_iff _ _).mpr (List.prefix_refl _)

/-- One call. -/
theorem loadIfUnloaded_spec (typeOf : Name → Kind) (pool : Pool) (ht : Typed typeOf pool) (k : Kind)
    (name : Name) (hk : typeOf name = k) (hlen : name.length < filLen)
    (hp : ∀ b ∈ pool.map Prod.fst, name <+: b → name = b) :
    loadIfUnloaded typeOf k pool name =
      if name ∈ pool.map Prod.fst then pool else pool ++ [(name, typeOf name)] := by
  unfold loadIfUnloaded furnish
  by_cases h : name ∈ pool.map Prod.fst
  · rw [if_pos h, if_pos ((found_iff typeOf pool ht k name hk hlen hp).mpr h)]
  · rw [if_neg h, if_neg]
    exact fun h' => h ((found_iff typeOf pool ht k name hk hlen hp).mp h')

/-- **C70.**  After any sequence of calls, each made with the function for the category of its file,
with names that fit the buffers and of which none is the beginning of another: every requested kernel is
loaded; what was loaded before still is, as often as before; every other kernel is loaded at most once;
and nothing is loaded that was not requested. -/
theorem kernels_once_partial (typeOf : Name → Kind) (rs : List (Kind × Name)) :
    ∀ (pool : Pool), Typed typeOf pool →
      (∀ r ∈ rs, typeOf r.2 = r.1 ∧ r.2.length < filLen) →
      PrefixFree (pool.map Prod.fst ++ rs.map Prod.snd) →
      (∀ r ∈ rs, 1 ≤ timesLoaded (requests typeOf pool rs) r.2) ∧
      (∀ n, 1 ≤ timesLoaded pool n → timesLoaded (requests typeOf pool rs) n = timesLoaded pool n) ∧
      (∀ n, timesLoaded pool n = 0 → timesLoaded (requests typeOf pool rs) n ≤ 1) ∧
      (∀ n, timesLoaded pool n = 0 → (∀ r ∈ rs, r.2 ≠ n) →
        timesLoaded (requests typeOf pool rs) n = 0) := by
  induction rs with
  | nil =>
    intro pool _ _ _
    refine ⟨by simp, fun n _ => rfl, fun n h => ?_, fun n h _ => h⟩
    show timesLoaded pool n ≤ 1
    omega
  | cons r rs ih =>
    obtain ⟨k, name⟩ := r
    intro pool ht hr hp
    have h1 := hr (k, name) List.mem_cons_self
    have hpn : ∀ b ∈ pool.map Prod.fst, name <+: b → name = b := fun b hb =>
      hp name (by simp) b (List.mem_append_left _ hb)
    have hs := loadIfUnloaded_spec typeOf pool ht k name h1.1 h1.2 hpn
    simp only [requests]
    by_cases hm : name ∈ pool.map Prod.fst
    · rw [hs, if_pos hm]
      obtain ⟨a, b, c, d⟩ := ih pool ht (fun r h => hr r (List.mem_cons_of_mem _ h)) (by
        intro x hx y hy
        refine hp x ?_ y ?_
        · rcases List.mem_append.mp hx with h | h
          · exact List.mem_append_left _ h
          · exact List.mem_append_right _ (List.mem_cons_of_mem _ h)
        · rcases List.mem_append.mp hy with h | h
          · exact List.mem_append_left _ h
          · exact List.mem_append_right _ (List.mem_cons_of_mem _ h))
      have hc : 1 ≤ timesLoaded pool name := List.count_pos_iff.mpr hm
      refine ⟨?_, b, c, fun n hn h => d n hn fun r hr => h r (List.mem_cons_of_mem _ hr)⟩
      intro r hr
      rcases List.mem_cons.mp hr with rfl | hr
      · rw [b _ hc]; exact hc
      · exact a r hr
    · rw [hs, if_neg hm]
      have ht' : Typed typeOf (pool ++ [(name, typeOf name)]) := by
        intro e he
        rcases List.mem_append.mp he with h | h
        · exact ht e h
        · rw [List.mem_singleton.mp h]
      obtain ⟨a, b, c, d⟩ := ih (pool ++ [(name, typeOf name)]) ht'
        (fun r h => hr r (List.mem_cons_of_mem _ h)) (by
        intro x hx y hy
        have aux : ∀ z, z ∈ (pool ++ [(name, typeOf name)]).map Prod.fst ++ rs.map Prod.snd →
            z ∈ pool.map Prod.fst ++ ((k, name) :: rs).map Prod.snd := by
          intro z hz
          simp only [List.map_append, List.map_cons, List.map_nil, List.mem_append, List.mem_cons,
            List.not_mem_nil, or_false] at hz ⊢
          tauto
        exact hp x (aux x hx) y (aux y hy))
      have hnew : timesLoaded (pool ++ [(name, typeOf name)]) name = 1 := by
        simp only [timesLoaded, List.map_append, List.map_cons, List.map_nil, List.count_append]
        rw [List.count_eq_zero_of_not_mem hm]
        simp
      have hold : ∀ n, n ≠ name → timesLoaded (pool ++ [(name, typeOf name)]) n = timesLoaded pool n := by
        intro n hn
        simp only [timesLoaded, List.map_append, List.map_cons, List.map_nil, List.count_append]
        rw [List.count_eq_zero_of_not_mem (l := [name])]
        · rfl
        · simpa using hn
      have hz : timesLoaded pool name = 0 := List.count_eq_zero_of_not_mem hm
      refine ⟨?_, ?_, ?_, ?_⟩
      · intro r hr
        rcases List.mem_cons.mp hr with rfl | hr
        · exact Nat.le_of_eq ((b name (Nat.le_of_eq hnew.symm)).trans hnew).symm
        · exact a r hr
      · intro n hn
        have hne : n ≠ name := by rintro rfl; omega
        rw [b n (by rw [hold n hne]; exact hn), hold n hne]
      · intro n hn
        by_cases hne : n = name
        · subst hne; rw [b n (by omega)]; omega
        · exact c n (by rw [hold n hne]; exact hn)
      · intro n hn h
        have hne : n ≠ name := fun e => h (k, name) List.mem_cons_self e.symm
        exact d n (by rw [hold n hne]; exact hn) fun r hr => h r (List.mem_cons_of_mem _ hr)

/-- File categories by extension, as for the kernels used by the programs in /repo/test. -/
def byExt (n : Name) : Kind :=
  if ".bsp".toList <:+ n then .spk else if ".bpc".toList <:+ n then .pck else .text

example : PrefixFree (([] : Pool).map Prod.fst ++
    [(Kind.text, "naif0012.tls".toList), (.spk, "de421.bsp".toList), (.text, "naif0012.tls".toList)].map
      Prod.snd) := by
  unfold PrefixFree; decide

example : requests byExt [] [(.text, "naif0012.tls".toList), (.spk, "de421.bsp".toList),
    (.text, "naif0012.tls".toList)] =
    [("naif0012.tls".toList, .text), ("de421.bsp".toList, .spk)] := by decide +kernel

/-- **C70 is false for a text PCK requested through `load_if_unloaded_pck`** (as `get_sun_moon_GM` does
with the constants file, src/planets/cspice_utils.cpp:77-80): it is loaded at every call. -/
theorem text_pck_counterexample :
    timesLoaded (requests byExt [] [(.pck, "gm_de431.tpc".toList), (.pck, "gm_de431.tpc".toList)])
      "gm_de431.tpc".toList = 2 := by decide +kernel

/-- **C70 is false if a loaded name continues the requested one**: the kernel is not loaded. -/
theorem prefix_counterexample :
    timesLoaded (requests byExt [] [(.spk, "de421.bsp.new.bsp".toList), (.spk, "de421.bsp".toList)])
      "de421.bsp".toList = 0 := by decide +kernel

/-- **C70 is false for names that do not fit the buffer**: they never compare equal. -/
theorem long_name_counterexample :
    timesLoaded (requests byExt [] [(.spk, List.replicate 124 'a' ++ ".bsp".toList),
      (.spk, List.replicate 124 'a' ++ ".bsp".toList)]) (List.replicate 124 'a' ++ ".bsp".toList) = 2 := by
  decide +kernel

/-- The comparison in general: the first `n` characters agree, a terminator ending both. -/
theorem strnEq_take (a b : Name) (n : Nat) : strnEq a b n = true ↔ a.take n = b.take n := by
  induction n generalizing a b with
  | zero => simp [strnEq]
  | succ n ih =>
    cases a with
    | nil => cases b <;> simp [strnEq]
    | cons x a =>
      cases b with
      | nil => simp [strnEq]
      | cons y b => simp [strnEq, ih]

end Verif.Spice
