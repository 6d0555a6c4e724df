import Verif.Var.ProtoModel
import Verif.Sgode.Inv
import Verif.Harmonic.Props
import Verif.Pcv.Props

/-
C168: the prototypes of var/ agree with the parts of the library they became.
-/
namespace Verif.Var.Proto

/-! ### Step size -/

section
open Verif.Sgode
variable {K : Type} [Field K] [LinearOrder K] {n : Nat}

theorem two_eq (k : Nat) (h : k ≤ 12) : (two : List K)[k]? = some (2 ^ (k + 1)) := by
  rcases k with _ | _ | _ | _ | _ | _ | _ | _ | _ | _ | _ | _ | _ | k
  all_goals first
    | omega
    | (simp only [two]; norm_num)

/-- **C168 (a)** The prototype chooses the step size of the library and does not read behind its table of powers, at
every order the integrator can have. -/
theorem nextH_agrees (e : Ext K n) (p5eps erk absh : K) (phase1 : Bool) (s : St K n) (h : s.k ≤ 12) :
    nextH e p5eps erk absh phase1 s = some (Sgode.nextH e p5eps erk absh phase1 s) := by
  unfold nextH Sgode.nextH
  rw [two_eq s.k h]
  cases phase1
  · simp only [Bool.false_eq_true, if_false, false_or]
    split
    · rw [two_mul]
    · split <;> rfl
  · simp [two_mul]

/-- The order twelve is reached by the table, the order thirteen would not be. -/
example : (two : List ℚ)[12]? = some 8192 ∧ (two : List ℚ)[13]? = none := by decide +kernel

/-- **C168 (a)** The whole of the fourth block: from an order between one and twelve the prototype and the library
leave the same state, and the prototype reads inside its table. -/
theorem accept_agrees [IsStrictOrderedRing K] (e : Ext K n) (p5eps : K) (q : Est K) (s : St K n) (h1 : 1 ≤ s.k) (h12 : s.k ≤ 12)
    (hq : 1 ≤ q.knew) : accept e p5eps q s = some (Sgode.accept e p5eps q s) := by
  have hk : (corrected e s).k = s.k := rfl
  have := (nextOrder_range e q (corrected e s) (hk ▸ h1) (hk ▸ h12) hq).2.1
  unfold accept Sgode.accept
  simp only
  rw [nextH_agrees _ _ _ _ _ _ this]
  rfl

end

/-! ### De-normalisation -/

section
open Verif.Harmonic

theorem prod_range' (start : Nat) : ∀ k : Nat,
    ((List.range' start k).map fun (j : Nat) => (j : ℝ)).prod = sumLoop start k
  | 0 => rfl
  | k + 1 => by
    rw [List.range'_concat, List.map_append, List.prod_append, prod_range' start k]
    simp [sumLoop]

theorem facs_eq (n m i : Nat) (h : i ≤ m) : (facs n m).getD i 0 = fac n i := by
  unfold facs fac sumFac
  rw [List.getD_eq_getElem?_getD, List.getElem?_map, List.getElem?_range (by omega)]
  simp only [Option.map_some, Option.getD_some, prod_range']

theorem foldl_congr_mem {α β : Type} (f g : α → β → α) : ∀ (l : List β) (a : α),
    (∀ a, ∀ b ∈ l, f a b = g a b) → l.foldl f a = l.foldl g a
  | [], _, _ => rfl
  | b :: l, a, h => by
    rw [List.foldl_cons, List.foldl_cons, h a b (List.mem_cons_self ..)]
    exact foldl_congr_mem f g l _ fun a c hc => h a c (List.mem_cons_of_mem _ hc)

theorem denormRow_eq (N order : Nat) (t : Table) (n : Nat) :
    denormRow N order t n = Harmonic.denormRow N order t n := by
  unfold denormRow Harmonic.denormRow divAt
  simp only
  rw [foldl_congr_mem (fun t m => t.store (addrC N n m) (t (addrC N n m) / (facs n (min order n)).getD m 0))
    (fun t m => t.store (addrC N n m) (t (addrC N n m) / fac n m)) (List.range (min order n + 1)) t
    (fun a b hb => by rw [facs_eq n _ b (by have := List.mem_range.1 hb; omega)])]
  refine foldl_congr_mem _ _ _ _ fun a b hb => ?_
  rw [facs_eq n _ b (by have := List.mem_range'_1.1 hb; omega)]

/-- **C168 (b)** On a normalised table the prototype does what the library does: same status, same coefficients. -/
theorem denormalize_agrees (N : Nat) (t : Table) (order : Int) :
    Harmonic.denormalize ⟨N, true, t⟩ order =
      match denormalize N t order with
      | .abort => .abort
      | .ret s t' => .ret s ⟨N, if s = 0 then false else true, t'⟩ := by
  unfold denormalize Harmonic.denormalize
  simp only [Bool.true_eq_false, if_false]
  by_cases h : (if order < 0 then (N : Int) else order) > N
  · simp only [if_pos h]; rfl
  · simp only [if_neg h]
    by_cases h0 : N = 0
    · simp only [if_pos h0]
    · simp only [if_neg h0, if_true]
      rw [foldl_congr_mem _ _ _ _ fun a b _ => denormRow_eq N _ a b]

/-- Degree two, order two, a table of ones: status zero. -/
example : ∃ t', denormalize 2 (fun _ => 1) 2 = .ret 0 t' := ⟨_, by simp only [denormalize]; rw [if_neg (by norm_num), if_neg (by norm_num)]⟩

/-- **C168** A second call of the prototype scales the coefficients again; the library leaves them alone.  Here degree
one, `C(1,0) = 1`: after two calls 3 instead of the square root of 3. -/
theorem denormalize_twice_counterexample :
    ∃ t t1 t2 : Table, denormalize 1 t (-1) = .ret 0 t1 ∧ denormalize 1 t1 (-1) = .ret 0 t2 ∧
      t1 (1, 0) = Real.sqrt 3 ∧ t2 (1, 0) = 3 := by
  have key : ∀ t : Table, ∃ t', denormalize 1 t (-1) = .ret 0 t' ∧ t' (1, 0) = t (1, 0) * Real.sqrt 3 := by
    intro t
    obtain ⟨c', h1, -, -, h2⟩ := denormalize_spec ⟨1, true, t⟩ (-1) rfl (by simp) (by simp)
    rw [denormalize_agrees] at h1
    cases hd : denormalize 1 t (-1) with
    | abort => rw [hd] at h1; cases h1
    | ret s t' =>
      rw [hd] at h1
      simp only [Outcome.ret.injEq] at h1
      obtain ⟨hs, hc⟩ := h1
      refine ⟨t', by rw [hs], ?_⟩
      have := h2 (.C 1 0) ⟨by omega, by simp⟩
      rw [← hc] at this
      simp only [addr, addrC, expected, effOrder, normFactor] at this
      rw [this]
      norm_num
  obtain ⟨t1, a1, b1⟩ := key fun _ => 1
  obtain ⟨t2, a2, b2⟩ := key t1
  refine ⟨_, t1, t2, a1, a2, by rw [b1, one_mul], ?_⟩
  rw [b2, b1, one_mul, Real.mul_self_sqrt (by norm_num)]

end

/-! ### Phase laws -/

section
open Verif.SystemInfo (AntType)
open Verif.Pcv (Result rad2deg)

theorem table_eq (a : AntType) : Pcv.table a = (plarray a).map fun (i : Int) => (i : ℝ) / 100 := by
  cases a <;> simp only [Pcv.table, Pcv.alcatel1, Pcv.starec1, plarray, List.map] <;> norm_num

/-- **C168 (c)** The phase laws of the first frequency are those of the library, at every zenith angle, with the same
report. -/
theorem pcv1_agrees (a : AntType) (z : ℝ) : pcv1 a z = Pcv.pcv1 a z := by
  unfold pcv1 Pcv.pcv1
  simp only
  split
  · cases a <;> rfl
  · congr 1
    unfold Pcv.interpolate
    simp only [table_eq, List.getElem?_map]
    split
    · rfl
    · cases (plarray a)[⌊rad2deg z / 5⌋.toNat]? <;>
        cases (plarray a)[⌊rad2deg z / 5⌋.toNat + 1]? <;> rfl

/-- **C168 (d)** On the second frequency the values agree, and inside the range of zenith angles the reports too. -/
theorem pcv2_agrees_partial (a : AntType) (z : ℝ) :
    (pcv2 a z).value = (Pcv.pcv2 a z).value ∧
      (0 ≤ z → z ≤ Real.pi / 2 → (pcv2 a z).outOfBounds = (Pcv.pcv2 a z).outOfBounds) :=
  ⟨rfl, fun h0 h1 => (Pcv.pcv2_in_range a z h0 h1).2.symm⟩

/-- At the zenith both report nothing. -/
example : (pcv2 .alcatel 0).outOfBounds = (Pcv.pcv2 .alcatel 0).outOfBounds :=
  (pcv2_agrees_partial .alcatel 0).2 le_rfl (by have := Real.pi_pos; linarith)

/-- **C168** Below the horizon the prototype reports nothing on the second frequency; the library does. -/
theorem pcv2_flag_counterexample (a : AntType) :
    (pcv2 a Real.pi).outOfBounds = 0 ∧ (Pcv.pcv2 a Real.pi).outOfBounds ≠ 0 :=
  ⟨rfl, (Pcv.out_of_range_flagged a Real.pi (Or.inr (by have := Real.pi_pos; linarith))).2.2.1⟩

end

end Verif.Var.Proto
