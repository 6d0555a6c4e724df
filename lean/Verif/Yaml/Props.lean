import Verif.Yaml.Model

/-
C73: configuration look-ups.
-/
namespace Verif.Yaml

/-- Specification: the subtree under a path of keys; the first of several equal keys counts. -/
inductive At : Tree → List String → Tree → Prop
  | here (t : Tree) : At t [] t
  | step {pre post : List (Tree × Tree)} {k : String} {t v : Tree} {ks : List String} :
      (∀ e ∈ pre, ∀ s, e.1 = .scalar s → s ≠ k) → At t ks v →
      At (.map (pre ++ (.scalar k, t) :: post)) (k :: ks) v

theorem isKey_iff (k : String) (t : Tree) : isKey k t = true ↔ t = .scalar k := by
  cases t <;> simp [isKey]

theorem find_iff (k : String) (es : List (Tree × Tree)) (v : Tree) :
    find k es = some v ↔ ∃ pre post, es = pre ++ (.scalar k, v) :: post ∧
      ∀ e ∈ pre, ∀ s, e.1 = .scalar s → s ≠ k := by
  induction es with
  | nil => simp [find]
  | cons e es ih =>
    obtain ⟨a, b⟩ := e
    unfold find
    by_cases h : isKey k a = true
    · rw [if_pos h]
      rw [isKey_iff] at h
      subst h
      constructor
      · intro h
        cases h
        exact ⟨[], es, rfl, by simp⟩
      · rintro ⟨pre, post, he, hp⟩
        cases pre with
        | nil => cases he; rfl
        | cons p pre =>
          simp only [List.cons_append, List.cons.injEq] at he
          exact absurd rfl (hp p List.mem_cons_self k (by rw [← he.1]))
    · rw [if_neg h, ih]
      constructor
      · rintro ⟨pre, post, rfl, hp⟩
        refine ⟨(a, b) :: pre, post, rfl, ?_⟩
        intro e he s hs
        rcases List.mem_cons.mp he with rfl | he
        · rintro rfl
          exact h ((isKey_iff _ _).mpr hs)
        · exact hp e he s hs
      · rintro ⟨pre, post, he, hp⟩
        cases pre with
        | nil =>
          simp only [List.nil_append, List.cons.injEq, Prod.mk.injEq] at he
          exact absurd ((isKey_iff k a).mpr he.1.1) h
        | cons p pre =>
          simp only [List.cons_append, List.cons.injEq] at he
          exact ⟨pre, post, he.2, fun e h => hp e (List.mem_cons_of_mem _ h)⟩

theorem at_cons (t : Tree) (k : String) (ks : List String) (v : Tree) :
    At t (k :: ks) v ↔ ∃ u, getNode (.node t) k = some (.node u) ∧ At u ks v := by
  constructor
  · intro h
    cases h with
    | step hp hv =>
      rename_i pre post u
      refine ⟨u, ?_, hv⟩
      have := (find_iff k (pre ++ (.scalar k, u) :: post) u).mpr ⟨pre, post, rfl, hp⟩
      simp [getNode, this]
  · rintro ⟨u, h, hv⟩
    cases t with
    | null => simp [getNode] at h
    | scalar s => simp [getNode] at h
    | seq l => simp [getNode] at h
    | map es =>
      simp only [getNode, Option.some.injEq] at h
      cases hf : find k es with
      | none => simp [hf] at h
      | some w =>
        simp only [hf, Ref.node.injEq] at h
        subst h
        obtain ⟨pre, post, rfl, hp⟩ := (find_iff k es w).mp hf
        exact .step hp hv

theorem at_nil (t v : Tree) : At t [] v ↔ t = v := by
  constructor
  · intro h; cases h; rfl
  · rintro rfl; exact .here _

/-- The look-up of two keys followed by a conversion. -/
theorem lookup_iff {T : Type} (conv : Tree → Option T) (root : Tree) (k1 k2 : String) (x : T) :
    ((getNode (.node root) k1).bind fun n => (getNode n k2).bind (asT conv)) = some x ↔
      ∃ v, At root [k1, k2] v ∧ conv v = some x := by
  simp only [at_cons, at_nil]
  constructor
  · intro h
    simp only [Option.bind_eq_some_iff] at h
    obtain ⟨n, hn, m, hm, hx⟩ := h
    cases n with
    | zombie => simp [getNode] at hm
    | node u =>
      cases m with
      | zombie => simp [asT] at hx
      | node w => exact ⟨w, ⟨u, hn, w, hm, rfl⟩, hx⟩
  · rintro ⟨v, ⟨u, hu, w, hw, rfl⟩, hx⟩
    simp only [hu, Option.bind_some, hw]
    exact hx

/-- **C73 (two keys).**  Status 0 and the converted value exactly if the path exists and converts;
otherwise status 1 and the output unchanged. -/
theorem depth2_spec {T : Type} (conv : Tree → Option T) (root : Tree) (k1 k2 : String) (val : T) :
    (∀ v x, At root [k1, k2] v → conv v = some x → depth2 conv (.node root) k1 k2 val = (0, x)) ∧
      ((¬ ∃ v x, At root [k1, k2] v ∧ conv v = some x) →
        depth2 conv (.node root) k1 k2 val = (1, val)) := by
  constructor
  · intro v x hv hx
    have := (lookup_iff conv root k1 k2 x).mpr ⟨v, hv, hx⟩
    simp only [depth2, this]
  · intro h
    cases hl : ((getNode (.node root) k1).bind fun n => (getNode n k2).bind (asT conv)) with
    | some x =>
      obtain ⟨v, hv, hx⟩ := (lookup_iff conv root k1 k2 x).mp hl
      exact absurd ⟨v, x, hv, hx⟩ h
    | none => simp only [depth2, hl]

/-- An invalid handle gives status 1 too. -/
theorem depth2_zombie {T : Type} (conv : Tree → Option T) (k1 k2 : String) (val : T) :
    depth2 conv .zombie k1 k2 val = (1, val) := rfl

/-- **C73 (three keys).**  The same, if the root is not a scalar. -/
theorem depth3_partial {T : Type} (conv : Tree → Option T) (root : Tree) (k1 k2 k3 : String) (val : T)
    (hr : ∀ s, root ≠ .scalar s) :
    (∀ v x, At root [k1, k2, k3] v → conv v = some x →
        depth3 conv (.node root) k1 k2 k3 val = some (0, x)) ∧
      ((¬ ∃ v x, At root [k1, k2, k3] v ∧ conv v = some x) →
        depth3 conv (.node root) k1 k2 k3 val = some (1, val)) := by
  constructor
  · intro v x hv hx
    obtain ⟨u, hu, hv⟩ := (at_cons _ _ _ _).mp hv
    simp only [depth3, hu]
    rw [(depth2_spec conv u k2 k3 val).1 v x hv hx]
  · intro h
    unfold depth3
    cases hn : getNode (.node root) k1 with
    | none =>
      cases root with
      | scalar s => exact absurd rfl (hr s)
      | null => simp [getNode] at hn
      | seq l => simp [getNode] at hn
      | map es => simp [getNode] at hn
    | some n =>
      cases n with
      | zombie => rfl
      | node u =>
        dsimp only
        rw [(depth2_spec conv u k2 k3 val).2]
        rintro ⟨v, x, hv, hx⟩
        exact h ⟨v, x, (at_cons _ _ _ _).mpr ⟨u, hn, hv⟩, hx⟩

/-- **C73 (strings).**  If the value fits the buffer: the buffer holds it (up to its first NUL) as a C
string, the rest of the buffer is unchanged. -/
theorem depth2s_partial (conv : Tree → Option (List Char)) (root : Tree) (k1 k2 : String)
    (buf : List Char) :
    (∀ v x, At root [k1, k2] v → conv v = some x → '\x00' ∉ x → x.length < buf.length →
        depth2s conv (.node root) k1 k2 buf = some (0, x ++ '\x00' :: buf.drop (x.length + 1))) ∧
      ((¬ ∃ v x, At root [k1, k2] v ∧ conv v = some x) →
        depth2s conv (.node root) k1 k2 buf = some (1, buf)) := by
  constructor
  · intro v x hv hx h0 hlen
    have := (lookup_iff conv root k1 k2 x).mpr ⟨v, hv, hx⟩
    simp only [depth2s, this]
    have ht : x.takeWhile (· ≠ '\x00') = x := by
      clear this hx hlen
      induction x with
      | nil => rfl
      | cons c cs ih =>
        simp only [List.mem_cons, not_or] at h0
        rw [List.takeWhile_cons, if_pos (by simp [Ne.symm h0.1]), ih h0.2]
    simp only [strcpy, ht]
    rw [if_pos (by simp; omega)]
    simp
  · intro h
    cases hl : ((getNode (.node root) k1).bind fun n => (getNode n k2).bind (asT conv)) with
    | some x =>
      obtain ⟨v, hv, hx⟩ := (lookup_iff conv root k1 k2 x).mp hl
      exact absurd ⟨v, x, hv, hx⟩ h
    | none => simp only [depth2s, hl]

/-- Scalars as strings. -/
def strConv : Tree → Option (List Char)
  | .scalar s => some s.toList
  | _ => none

/-- A configuration. -/
def sample : Tree := .map [(.scalar "data", .map [(.scalar "a", .scalar "3"), (.scalar "b", .scalar "four")]),
  (.scalar "n", .null)]

example : At sample ["data", "b"] (.scalar "four") :=
  .step (pre := []) (by simp) (.step (pre := [(.scalar "a", .scalar "3")]) (by simp) (.here _))

example : depth2s strConv (.node sample) "data" "b" (List.replicate 6 'x') =
    some (0, ['f', 'o', 'u', 'r', '\x00', 'x']) := by decide

example : depth2s strConv (.node sample) "n" "b" ['x'] = some (1, ['x']) := by decide

/-- **C73 is false for strings that do not fit**: `strcpy` writes past the buffer. -/
theorem overflow_counterexample :
    depth2s strConv (.node sample) "data" "b" (List.replicate 4 'x') = none := by decide

/-- **C73 is false for three keys if the document is a scalar**: an exception leaves the function. -/
theorem scalar_root_counterexample :
    depth3 strConv (.node (.scalar "just text")) "a" "b" "c" [] = none := by decide

/-- A scalar further down is reported as an error. -/
example : depth3 strConv (.node sample) "data" "a" "c" [] = some (1, []) := by decide

end Verif.Yaml
