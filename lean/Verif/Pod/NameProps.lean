import Verif.Pod.NameModel
import Verif.Pod.SetupProps

/-! C169: names of files kept in arrays of 256 characters. -/
namespace Verif.Pod.Name

open Verif.Yaml Verif.Pod.Setup

/-- **C169 (a)** The constructor stays inside the array exactly for names of at most 255 characters, and the file
opened later is the file named. -/
theorem construct_iff (mem arg : List Char) (hm : mem.length = cap) :
    ((construct mem arg).isSome ↔ (cstr arg).length ≤ 255) ∧
      ∀ m, construct mem arg = some m → m.length = cap ∧ opened m = cstr arg := by
  constructor
  · unfold construct strcpy cstr
    simp only [hm, cap, List.length_append, List.length_singleton]
    split
    · simp only [Option.isSome_some, true_iff]; omega
    · simp only [Option.isSome_none, Bool.false_eq_true, false_iff]; omega
  · intro m h
    refine ⟨?_, cstr_strcpy _ _ _ h⟩
    unfold construct strcpy at h
    dsimp only at h
    split at h
    · rw [Option.some.injEq] at h
      rw [← h, List.length_append, List.length_drop]
      omega
    · cases h

/-- The buffer has its length and a NUL. -/
def Term (b : List Char) : Prop := b.length = bufsz ∧ (cstr b).length < bufsz

theorem strcpy_term (buf s b : List Char) (hb : buf.length = bufsz) (h : strcpy buf s = some b) : Term b := by
  have hm := (construct_iff buf s hb).2 b h
  have hs := (construct_iff buf s hb).1.1 (by rw [show construct buf s = some b from h]; rfl)
  refine ⟨hm.1, ?_⟩
  have : cstr b = cstr s := hm.2
  rw [this]
  unfold bufsz
  omega

theorem depth2s_term (conv : Tree → Option (List Char)) (root : Ref) (a b : String) (buf buf' : List Char) (st : Nat)
    (hb : buf.length = bufsz) (h : depth2s conv root a b buf = some (st, buf')) :
    (st = 0 ∧ Term buf') ∨ (st = 1 ∧ buf' = buf) := by
  unfold depth2s at h
  split at h
  · rename_i s _
    cases hs : strcpy buf s with
    | none => rw [hs] at h; cases h
    | some c =>
      simp only [hs, Option.map_some, Option.some.injEq, Prod.mk.injEq] at h
      exact Or.inl ⟨h.1.symm, h.2 ▸ strcpy_term buf s c hb hs⟩
  · simp only [Option.some.injEq, Prod.mk.injEq] at h
    exact Or.inr ⟨h.1.symm, h.2.symm⟩

theorem ask_term (conv : Tree → Option (List Char)) (root : Tree) (path : List String) (buf buf' : List Char) (st : Nat)
    (hb : buf.length = bufsz) (h : ask conv root path buf = some (st, buf')) :
    (st = 0 ∧ Term buf') ∨ (st = 1 ∧ buf' = buf) := by
  unfold ask at h
  split at h
  · exact depth2s_term _ _ _ _ _ _ _ hb h
  · unfold depth3s at h
    split at h
    · cases h
    · exact depth2s_term _ _ _ _ _ _ _ hb h
  · simp only [Option.some.injEq, Prod.mk.injEq] at h
    exact Or.inr ⟨h.1.symm, h.2.symm⟩

/-- The files used, however the reading of the configuration ends. -/
def files : Ended → List (Res × List Char)
  | .crashed => []
  | .stopped u => u
  | .ready u => u

theorem setup_short (conv : Tree → Option (List Char)) (ok : Res → List Char → Bool) (root : Tree) :
    ∀ (rs : List Res) (buf : List Char) (used : List (Res × List Char)),
      buf.length = bufsz → (Term buf ∨ ∀ r, rs.head? = some r → r.checked = true) →
      (∀ p ∈ used, p.2.length ≤ 255) →
      ∀ p ∈ files (setup conv ok root rs buf used), p.2.length ≤ 255
  | [], _, used, _, _, hu => by simpa [setup, files] using hu
  | r :: rs, buf, used, hb, hT, hu => by
    rw [setup]
    cases ha : ask conv root r.path buf with
    | none => simp [files]
    | some q =>
      obtain ⟨st, buf'⟩ := q
      dsimp only
      have hask := ask_term conv root r.path buf buf' st hb ha
      by_cases h1 : (r.checked && st != 0) = true
      · rw [if_pos h1]; exact hu
      · rw [if_neg h1]
        have ht : Term buf' := by
          rcases hask with ⟨_, h⟩ | ⟨h0, h⟩
          · exact h
          · rcases hT with hT | hT
            · rw [h]; exact hT
            · exact absurd (by rw [hT r rfl, h0]; rfl) h1
        have hu' : ∀ p ∈ used ++ [(r, cstr buf')], p.2.length ≤ 255 := by
          intro p hp
          rcases List.mem_append.1 hp with hp | hp
          · exact hu p hp
          · rw [List.mem_singleton.1 hp]
            have := ht.2
            unfold bufsz at this
            show (cstr buf').length ≤ 255
            omega
        split
        · exact setup_short conv ok root rs buf' _ ht.1 (Or.inl ht) hu'
        · exact hu'

/-- **C169 (b)** In the program every name that reaches a consumer fits the arrays, whatever the configuration holds
and whatever the buffer held before; so the constructors write inside them and the file named is the file opened. -/
theorem program_fits (conv : Tree → Option (List Char)) (ok : Res → List Char → Bool) (root : Tree)
    (buf mem : List Char) (hb : buf.length = bufsz) (hm : mem.length = cap) :
    ∀ p ∈ files (setup conv ok root order buf []), ∃ m, construct mem p.2 = some m ∧ opened m = cstr p.2 := by
  intro p hp
  have h := setup_short conv ok root order buf [] hb (Or.inr (by intro r h; cases h; rfl)) (by simp) p hp
  have hc := construct_iff mem p.2 hm
  have hle : (cstr p.2).length ≤ p.2.length := (List.takeWhile_sublist _).length_le
  obtain ⟨m, hs⟩ := Option.isSome_iff_exists.1 (hc.1.2 (by omega))
  exact ⟨m, hs, (hc.2 m hs).2⟩

/-- A configuration with the first two names: two files are used, then the program stops. -/
example : files (setup (fun t => match t with | .scalar s => some s.toList | _ => none) (fun _ _ => true)
    (.map [(.scalar "naif-kernels", .map [(.scalar "spk", .scalar "de"), (.scalar "lsk", .scalar "ls")])])
    order (List.replicate 256 'x') []) = [(.spk, "de".toList), (.lsk, "ls".toList)] := by decide +kernel

/-- **C169** The constructors themselves take any name: one of 256 characters is written past the end of the array. -/
theorem construct_overflow_counterexample (mem : List Char) (hm : mem.length = cap) :
    ∃ arg : List Char, arg.length = 256 ∧ '\x00' ∉ arg ∧ construct mem arg = none := by
  refine ⟨List.replicate 256 'a', List.length_replicate,
    fun h => absurd (List.eq_of_mem_replicate h) (by decide), ?_⟩
  have h := (construct_iff mem (List.replicate 256 'a') hm).1
  cases hc : construct mem (List.replicate 256 'a') with
  | none => rfl
  | some m =>
    rw [hc] at h
    have h2 := h.1 rfl
    have : (cstr (List.replicate 256 'a')).length = 256 := by decide +kernel
    omega

/-- An array of the length. -/
example : (List.replicate 256 '?').length = cap := by decide +kernel

end Verif.Pod.Name
