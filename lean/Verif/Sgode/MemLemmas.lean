import Verif.Sgode.MemModel
import Verif.Sgode.Props

/-! Lemmas for the memory accesses of the integrator. -/
namespace Verif.Sgode
open Arr Ev

/-- The first and the last index of an array as declared (sgode.hpp:48-108; `Phi` has 16 columns,
sgode.hpp:15; `gstr` and the arrays of `intrp` have 13 elements). -/
def InBounds : Arr → Int → Prop
  | .psi, i | .alpha, i | .beta, i | .v, i | .w, i => 0 ≤ i ∧ i < 12
  | .sig, i | .g, i | .gstr, i | .ig, i | .iw, i | .irho, i => 0 ≤ i ∧ i < 13
  | .diff, i => 0 ≤ i ∧ i < 14
  | .rnd, i => 14 ≤ i ∧ i < 16

/-- Elements that have a value. -/
abbrev Mem := Arr → Int → Prop

/-- The elements with a value after the accesses. -/
def after (W : Mem) : List Ev → Mem
  | [] => W
  | .rd _ _ :: l => after W l
  | .wr a i :: l => after (fun b j => W b j ∨ (b = a ∧ j = i)) l

/-- Every access is in bounds and nothing is read before it has a value. -/
def Ok (W : Mem) : List Ev → Prop
  | [] => True
  | .rd a i :: l => InBounds a i ∧ W a i ∧ Ok W l
  | .wr a i :: l => InBounds a i ∧ Ok (fun b j => W b j ∨ (b = a ∧ j = i)) l

theorem after_append : ∀ (l m : List Ev) (W : Mem), after W (l ++ m) = after (after W l) m
  | [], _, _ => rfl
  | .rd _ _ :: l, m, W => after_append l m W
  | .wr _ _ :: l, m, _ => after_append l m _

theorem ok_append : ∀ (l m : List Ev) (W : Mem), Ok W (l ++ m) ↔ Ok W l ∧ Ok (after W l) m
  | [], _, _ => by simp [Ok, after]
  | .rd a i :: l, m, W => by simp [Ok, after, ok_append l m W, and_assoc]
  | .wr a i :: l, m, W => by simp [Ok, after, ok_append l m, and_assoc]

theorem after_mono : ∀ (l : List Ev) (W : Mem) (a : Arr) (i : Int), W a i → after W l a i
  | [], _, _, _, h => h
  | .rd _ _ :: l, W, a, i, h => after_mono l W a i h
  | .wr _ _ :: l, _, a, i, h => after_mono l _ a i (Or.inl h)

/-- What is proved of a piece of code: it is safe, and leaves `Q`. -/
def Safely (W : Mem) (l : List Ev) (Q : Mem → Prop) : Prop := Ok W l ∧ Q (after W l)

theorem Safely.append {W : Mem} {l m : List Ev} {P Q : Mem → Prop} (h : Safely W l P)
    (h' : ∀ W', P W' → Safely W' m Q) : Safely W (l ++ m) Q := by
  obtain ⟨h1, h2⟩ := h' _ h.2
  exact ⟨(ok_append l m W).2 ⟨h.1, h1⟩, by rw [after_append]; exact h2⟩

theorem Safely.weaken {W : Mem} {l : List Ev} {P Q : Mem → Prop} (h : Safely W l P) (h' : ∀ W', P W' → Q W') :
    Safely W l Q := ⟨h.1, h' _ h.2⟩

theorem upTo_succ (a : Int) (m : Nat) : upTo a (a + (m : Int) + 1) = upTo a (a + m) ++ [a + m] := by
  have h1 : (a + (m : Int) + 1 - a).toNat = m + 1 := by omega
  have h2 : (a + (m : Int) - a).toNat = m := by omega
  unfold upTo
  rw [h1, h2, List.range_succ, List.map_append]
  rfl

theorem upTo_empty (a b : Int) (h : b ≤ a) : upTo a b = [] := by
  have : (b - a).toNat = 0 := by omega
  simp [upTo, this]

/-- Rule for loops: `P i` holds before the pass with index `i`. -/
theorem loop_rule (P : Int → Mem → Prop) (body : Int → List Ev) (a : Int) {W : Mem} (h0 : P a W) :
    ∀ (m : Nat), (∀ (i : Int) (V : Mem), a ≤ i → i < a + m → P i V → Safely V (body i) (P (i + 1))) →
      Safely W ((upTo a (a + m)).flatMap body) (P (a + m))
  | 0, _ => by
    rw [upTo_empty a _ (by simp)]
    simpa [Safely, Ok, after] using h0
  | m + 1, h => by
    have ih := loop_rule P body a h0 m (fun i V h1 h2 => h i V h1 (by push_cast; omega))
    have he : (a + ((m + 1 : Nat) : Int)) = a + (m : Int) + 1 := by push_cast; omega
    rw [he, upTo_succ, List.flatMap_append]
    refine ih.append fun V hV => ?_
    simpa using h (a + m) V (by omega) (by push_cast; omega) hV

/-- The same with the upper bound as the code has it. -/
theorem for_rule (P : Int → Mem → Prop) (body : Int → List Ev) (a b : Int) (hab : a ≤ b) {W : Mem} (h0 : P a W)
    (h : ∀ (i : Int) (V : Mem), a ≤ i → i < b → P i V → Safely V (body i) (P (i + 1))) :
    Safely W ((upTo a b).flatMap body) (P b) := by
  have he : b = a + ((b - a).toNat : Int) := by omega
  rw [he]
  exact loop_rule P body a h0 _ fun i V h1 h2 => h i V h1 (by omega)

/-- The elements below `m` have values. -/
def Upto (W : Mem) (a : Arr) (m : Int) : Prop := ∀ i : Int, 0 ≤ i → i < m → W a i

theorem after_iff : ∀ (l : List Ev) (W : Mem) (a : Arr) (i : Int), after W l a i ↔ W a i ∨ wr a i ∈ l
  | [], _, _, _ => by simp [after]
  | .rd _ _ :: l, W, a, i => by simp [after, after_iff l W a i]
  | .wr b j :: l, W, a, i => by
    simp only [after, after_iff l, List.mem_cons, Ev.wr.injEq, or_assoc]

theorem Upto.keep {W : Mem} {a : Arr} {m : Int} (h : Upto W a m) (l : List Ev) : Upto (after W l) a m :=
  fun i h1 h2 => after_mono l W a i (h i h1 h2)

theorem Upto.le {W : Mem} {a : Arr} {m m' : Int} (h : Upto W a m) (hm : m' ≤ m) : Upto W a m' :=
  fun i h1 h2 => h i h1 (by omega)

theorem Upto.grow {W : Mem} {a : Arr} {m : Int} (h : Upto W a m) (l : List Ev) (m' : Int)
    (hw : ∀ i, 0 ≤ i → m ≤ i → i < m' → wr a i ∈ l) : Upto (after W l) a m' := fun i h1 h2 => by
  rw [after_iff]
  by_cases h3 : i < m
  · exact Or.inl (h i h1 h3)
  · exact Or.inr (hw i h1 (by omega) h2)

theorem mem_upTo (a b i : Int) : i ∈ upTo a b ↔ a ≤ i ∧ i < b := by
  simp only [upTo, List.mem_map, List.mem_range]
  constructor
  · rintro ⟨j, h1, h2⟩
    omega
  · rintro ⟨h1, h2⟩
    exact ⟨(i - a).toNat, by omega, by omega⟩

/-- Writing a range. -/
theorem wr_range {W : Mem} (a : Arr) : ∀ (l : List Int), (∀ i ∈ l, InBounds a i) → Ok W (l.map (wr a))
  | [], _ => trivial
  | i :: l, h => ⟨h i (by simp), wr_range a l fun j hj => h j (by simp [hj])⟩

/-- The regions that have values: `m` elements of the four coefficient arrays, `m+1` of `sig` and
`g`, `m+2` differences; column 14 of `Phi` unless `r`. -/
structure Reg (m : Int) (r : Bool) (W : Mem) : Prop where
  psi : Upto W psi m
  alpha : Upto W alpha m
  beta : Upto W beta m
  v : Upto W v m
  sig : Upto W sig (m + 1)
  g : Upto W g (m + 1)
  g2 : Upto W Arr.g 2
  diff : Upto W diff (m + 2)
  gstr : Upto W gstr 13
  rnd : r = false → W rnd 14

end Verif.Sgode
