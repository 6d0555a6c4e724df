import Verif.Harmonic.Lemmas
import Mathlib.Tactic.NormNum
import Mathlib.Tactic.Linarith

/-! C06 (addresses), C09 (denormalisation). -/
namespace Verif.Harmonic

/-! ### Specification -/

/-- A coefficient name: `C(n,m)` or `S(n,m)`. -/
inductive Name where
  | C (n m : Nat)
  | S (n m : Nat)
deriving DecidableEq, Repr

/-- The coefficients of a development of degree `N`: `C(n,m)` for `0 ≤ m ≤ n ≤ N`, `S(n,m)` for
`1 ≤ m ≤ n ≤ N`. -/
def Name.Valid (N : Nat) : Name → Prop
  | .C n m => m ≤ n ∧ n ≤ N
  | .S n m => 1 ≤ m ∧ m ≤ n ∧ n ≤ N

/-- Where the class keeps a coefficient. -/
def addr (N : Nat) : Name → Nat × Nat
  | .C n m => addrC N n m
  | .S n m => addrS N n m

/-! ### C06 -/

/-- **C06 (a)** Every coefficient lies in allocated memory. -/
theorem addr_inBuffer (N : Nat) (a : Name) (h : a.Valid N) : InBuffer N (addr N a) := by
  cases a with
  | C n m => simp only [Name.Valid] at h; exact ⟨h.2, by simp [addr, addrC]; omega⟩
  | S n m =>
    simp only [Name.Valid] at h
    refine ⟨?_, ?_⟩ <;> simp only [addr, addrS_eq] <;> omega

/-- **C06 (b)** No two coefficients share a slot. -/
theorem addr_inj (N : Nat) (a b : Name) (ha : a.Valid N) (hb : b.Valid N)
    (h : addr N a = addr N b) : a = b := by
  cases a <;> cases b <;>
    simp only [Name.Valid, addr, addrC, addrS_eq, Prod.mk.injEq] at ha hb h
  · rw [h.1, h.2]
  · omega
  · omega
  · congr 1 <;> omega

/-- **C06 (c)** Every slot of the `(N+1) × (N+1)` cells is some coefficient. -/
theorem addr_surj (N : Nat) (s : Nat × Nat) (h : InBuffer N s) :
    ∃ a : Name, a.Valid N ∧ addr N a = s := by
  obtain ⟨r, c⟩ := s
  simp only [InBuffer] at h
  by_cases hc : c ≤ r
  · exact ⟨.C r c, ⟨hc, h.1⟩, rfl⟩
  · refine ⟨.S (N - r) (c - r), ⟨by omega, by omega, by omega⟩, ?_⟩
    simp only [addr, addrS_eq, Prod.mk.injEq]; omega

/-- A sequence of coefficient stores. -/
noncomputable def runStores (N : Nat) (t : Table) (l : List (Name × ℝ)) : Table :=
  l.foldl (fun t p => t.store (addr N p.1) p.2) t

/-- Specification: last value stored under a name. -/
noncomputable def lastStored (a : Name) (init : ℝ) (l : List (Name × ℝ)) : ℝ :=
  l.foldl (fun v p => if p.1 = a then p.2 else v) init

/-- **C06 (d)** After every sequence of stores, each coefficient reads back the last value
stored under its own name: stores of other coefficients never change it. -/
theorem runStores_spec (N : Nat) (l : List (Name × ℝ)) (hl : ∀ p ∈ l, p.1.Valid N)
    (a : Name) (ha : a.Valid N) : ∀ t : Table,
    runStores N t l (addr N a) = lastStored a (t (addr N a)) l := by
  unfold runStores lastStored
  induction l with
  | nil => intro t; rfl
  | cons p l ih =>
    intro t
    rw [List.foldl_cons, List.foldl_cons, ih (fun q hq => hl q (List.mem_cons_of_mem _ hq))]
    congr 1
    unfold Table.store
    by_cases h : p.1 = a
    · simp [h]
    · rw [if_neg, if_neg h]
      intro he
      exact h (addr_inj N _ _ (hl p (List.mem_cons_self ..)) ha he.symm)

/-- Why `S(n,0)` must not be used: it is stored on top of `C(N-n, N-n)`. -/
theorem addr_S_zero (N n : Nat) : addr N (.S n 0) = addr N (.C (N - n) (N - n)) := by
  simp [addr, addrC, addrS_eq]

example : (Name.S 3 2).Valid 4 ∧ addr 4 (.S 3 2) = (1, 3) := by
  constructor
  · simp [Name.Valid]
  · rfl

/-! ### C09 -/

/-- The geodetic normalisation factor `sqrt((2 - δ_{0m}) (2n+1) (n-m)!/(n+m)!)`. -/
noncomputable def normFactor (n m : Nat) : ℝ :=
  Real.sqrt ((if m = 0 then 1 else 2) * (2 * n + 1) * (Nat.factorial (n - m) : ℝ)
    / (Nat.factorial (n + m) : ℝ))

theorem inv_fac (n m : Nat) (h : m ≤ n) (x : ℝ) : x / fac n m = x * normFactor n m := by
  have h1 : (Nat.factorial (n - m) : ℝ) ≠ 0 := by exact_mod_cast Nat.factorial_ne_zero _
  have h2 : (Nat.factorial (n + m) : ℝ) ≠ 0 := by exact_mod_cast Nat.factorial_ne_zero _
  have h3 : (2 * (n : ℝ) + 1) ≠ 0 := by positivity
  unfold fac normFactor
  rw [sumFac_eq n m h, div_eq_mul_inv, ← Real.sqrt_inv]
  congr 2
  split
  · norm_num; field_simp
  · norm_num; field_simp

/-- Value expected of coefficient `(n, m)` after denormalising up to `order`. -/
noncomputable def expected (order n m : Nat) (v : ℝ) : ℝ :=
  if m ≤ order then v * normFactor n m else v

/-- The effective order of a call. -/
def effOrder (c : Coeffs) (order : Int) : Int := if order < 0 then c.degree else order

/-- **C09 (a)** Denormalising a normalised table of degree `≥ 1` up to any order `≤` degree
(default: the degree) succeeds, marks it un-normalised, and multiplies every coefficient of
order `m` up to the given order by the normalisation factor; higher orders are unchanged. -/
theorem denormalize_spec (c : Coeffs) (order : Int) (hn : c.normalized = true)
    (hd : 1 ≤ c.degree) (ho : order ≤ c.degree) :
    ∃ c', denormalize c order = .ret 0 c' ∧ c'.degree = c.degree ∧ c'.normalized = false ∧
      ∀ a : Name, a.Valid c.degree →
        c'.data (addr c.degree a) = match a with
          | .C n m => expected (effOrder c order).toNat n m (c.data (addr c.degree a))
          | .S n m => expected (effOrder c order).toNat n m (c.data (addr c.degree a)) := by
  have ho' : ¬ (effOrder c order > c.degree) := by unfold effOrder; split <;> omega
  refine ⟨{ c with
        data := (List.range' 1 c.degree).foldl
          (denormRow c.degree (effOrder c order).toNat) c.data
        normalized := false }, ?_, rfl, rfl, ?_⟩
  · unfold denormalize
    rw [if_neg (by simp [hn])]
    unfold effOrder at ho' ⊢
    simp only
    rw [if_neg ho', if_neg (by omega)]
  · intro a ha
    cases a with
    | C n m =>
      simp only [Name.Valid] at ha
      simp only [addr]
      rw [foldl_single _ _ n (m ≤ (effOrder c order).toNat) (fac n m) _ List.nodup_range'
        (by intro t k hk; rw [denormRow_C _ _ _ _ _ _ ha.1]
            by_cases h : n = k
            · subst h; rfl
            · simp [h])]
      unfold expected
      simp only [List.mem_range'_1]
      by_cases h0 : n = 0
      · subst h0
        have hm : m = 0 := by omega
        subst hm
        simp [normFactor]
      · have hn' : 1 ≤ n ∧ n < 1 + c.degree := by omega
        by_cases hm : m ≤ (effOrder c order).toNat
        · rw [if_pos ⟨hn', hm⟩, if_pos hm, inv_fac n m ha.1]
        · rw [if_neg (fun h => hm h.2), if_neg hm]
    | S n m =>
      simp only [Name.Valid] at ha
      simp only [addr]
      rw [foldl_single _ _ n (m ≤ (effOrder c order).toNat) (fac n m) _ List.nodup_range'
        (by intro t k hk
            rw [List.mem_range'_1] at hk
            rw [denormRow_S _ _ _ _ _ _ ha.1 ha.2.1 ha.2.2 (by omega)]
            by_cases h : n = k
            · subst h; rfl
            · simp [h])]
      unfold expected
      simp only [List.mem_range'_1]
      have hn' : 1 ≤ n ∧ n < 1 + c.degree := by omega
      by_cases hm : m ≤ (effOrder c order).toNat
      · rw [if_pos ⟨hn', hm⟩, if_pos hm, inv_fac n m ha.2.1]
      · rw [if_neg (fun h => hm h.2), if_neg hm]

/-- **C09 (b)** Any call on an un-normalised table changes nothing and returns 0; in
particular a second call, whatever its order. -/
theorem denormalize_idem (c : Coeffs) (order order' : Int) (hn : c.normalized = true)
    (hd : 1 ≤ c.degree) (ho : order ≤ c.degree) :
    ∃ c', denormalize c order = .ret 0 c' ∧ denormalize c' order' = .ret 0 c' := by
  obtain ⟨c', h, -, hn', -⟩ := denormalize_spec c order hn hd ho
  exact ⟨c', h, by unfold denormalize; rw [if_pos hn']⟩

/-- **C09 (c)** An order above the degree is refused with status 1 and no change. -/
theorem denormalize_bad_order (c : Coeffs) (order : Int) (hn : c.normalized = true)
    (ho : (c.degree : Int) < order) : denormalize c order = .ret 1 c := by
  unfold denormalize
  rw [if_neg (by simp [hn])]
  have : ¬ order < 0 := by omega
  simp only [this, if_false]
  rw [if_pos ho]

/-- A table of degree 0 cannot be denormalised: the call aborts. -/
theorem denormalize_degree_zero (c : Coeffs) (hn : c.normalized = true) (hd : c.degree = 0) :
    denormalize c (-1) = .abort := by
  unfold denormalize
  rw [if_neg (by simp [hn])]
  simp [hd]

/-- Denormalising up to an order below the degree marks the whole table un-normalised, so a
later call cannot complete the work: coefficients above the first order stay normalised. -/
theorem denormalize_partial_order_sticks (c : Coeffs) (order order' : Int)
    (hn : c.normalized = true) (hd : 1 ≤ c.degree) (ho : order ≤ c.degree) (h0 : 0 ≤ order)
    (n m : Nat) (hv : m ≤ n ∧ n ≤ c.degree) (hm : order < m) :
    ∃ c' c'', denormalize c order = .ret 0 c' ∧ denormalize c' order' = .ret 0 c'' ∧
      c''.data (addr c.degree (.C n m)) = c.data (addr c.degree (.C n m)) := by
  obtain ⟨c', h, -, hn', hv'⟩ := denormalize_spec c order hn hd ho
  refine ⟨c', c', h, by unfold denormalize; rw [if_pos hn'], ?_⟩
  have := hv' (.C n m) hv
  simp only at this
  rw [this]
  unfold expected effOrder
  rw [if_neg]
  rw [if_neg (by omega)]; omega

/-- The hypotheses are satisfiable, and the factor is the textbook one: `C(2,0)` is multiplied
by `sqrt 5`. -/
example : normFactor 2 0 = Real.sqrt 5 := by
  unfold normFactor; norm_num [Nat.factorial]
example : ∃ c : Coeffs, c.normalized = true ∧ 1 ≤ c.degree ∧ (1 : Int) ≤ c.degree :=
  ⟨⟨3, true, fun _ => 1⟩, rfl, by decide, by decide⟩

end Verif.Harmonic
