import Verif.Gravity.Sums
import Mathlib.Analysis.Real.Sqrt
import Mathlib.Tactic.LinearCombination
import Mathlib.Algebra.BigOperators.Fin

/- C52, C53, C54. -/
namespace Verif.Gravity

open Verif.Mat2D Finset

variable {K : Type} [Field K]

/-! ### C52 -/

/-- Both arrays of the shape the size check asks for, contents arbitrary. -/
structure Arrays (rows cols : Nat) (V W : Mat K) : Prop where
  vShape : V.shape = ⟨rows, cols⟩
  vLen : V.data.length = numElements .trapezoid ⟨rows, cols⟩
  wShape : W.shape = ⟨rows, cols⟩
  wLen : W.data.length = numElements .trapezoid ⟨rows, cols⟩

/-- **C52 (a)** no access outside the arrays, status 0, and every cell of degree ≤ `l`, order ≤ `k`
holds the harmonic of that degree and order, whatever the arrays held before. -/
theorem lagrange_safe (g : Geo K) (l k rows cols : Nat) (V W : Mat K) (hA : Arrays rows cols V W)
    (hk : k ≤ l) (hr : l < rows) (hr2 : 1 < rows) (hc : k < cols) :
    ∃ V' W', lagrange g l k V W = some (0, V', W') ∧ Arrays rows cols V' W' ∧
      Reads l k (specV g) V' ∧ Reads l k (specW g) W' := by
  obtain ⟨V', W', e, hV, hW⟩ := lagrange_spec g l k hk ⟨rows, cols⟩ V W hA.vShape hA.vLen hA.wShape hA.wLen
    hr hr2 hc
  exact ⟨V', W', e, ⟨hV.shape, hV.len, hW.shape, hW.len⟩, reads_of_has hV, reads_of_has hW⟩

/-- **C52 (b)** order above degree is refused and nothing is written. -/
theorem lagrange_rejects (g : Geo K) (l k : Nat) (V W : Mat K) (hk : l < k) :
    lagrange g l k V W = some (1, V, W) := by
  unfold lagrange; rw [if_pos hk]

/-- The two calls made in the library (egravity.hpp 162-195): the checks on the array sizes suffice. -/
theorem wrapper_accel_safe (g : Geo K) (degree order rows cols : Nat) (V W : Mat K) (hA : Arrays rows cols V W)
    (ho : order ≤ degree) (hr : degree + 2 ≤ rows) (hc : order + 2 ≤ cols) :
    ∃ V' W', lagrange g (degree + 1) (order + 1) V W = some (0, V', W') ∧ Arrays rows cols V' W' ∧
      Reads (degree + 1) (order + 1) (specV g) V' ∧ Reads (degree + 1) (order + 1) (specW g) W' :=
  lagrange_safe g _ _ rows cols V W hA (by omega) (by omega) (by omega) (by omega)

theorem wrapper_partials_safe (g : Geo K) (degree order rows cols : Nat) (V W : Mat K) (hA : Arrays rows cols V W)
    (ho : order ≤ degree) (hr : rows = degree + 3) (hc : cols = order + 3) :
    ∃ V' W', lagrange g (degree + 2) (order + 2) V W = some (0, V', W') ∧ Arrays rows cols V' W' ∧
      Reads (degree + 2) (order + 2) (specV g) V' ∧ Reads (degree + 2) (order + 2) (specW g) W' :=
  lagrange_safe g _ _ rows cols V W hA (by omega) (by omega) (by omega) (by omega)

/-- **C52 (c)** `W(n,0) = 0`. -/
theorem lagrange_zonal_W (g : Geo K) (l k rows cols : Nat) (V W V' W' : Mat K) (hA : Arrays rows cols V W)
    (hk : k ≤ l) (hr : l < rows) (hr2 : 1 < rows) (hc : k < cols)
    (h : lagrange g l k V W = some (0, V', W')) (n : Nat) (hn : n ≤ l) : rd W' n 0 = some 0 := by
  obtain ⟨V1, W1, e, -, -, hW⟩ := lagrange_safe g l k rows cols V W hA hk hr hr2 hc
  rw [e] at h; cases h
  rw [hW n 0 hn (by omega) (by omega), specW_zero]

theorem sect_plane (g : Geo K) (hy : g.y0 = 0) (m : Nat) : (sect g m).2 = 0 := by
  induction m with
  | zero => rfl
  | succ m ih => show _ * (_ * _ + _ * _) = (0 : K); rw [ih, hy]; ring

theorem col_plane (g : Geo K) (hy : g.y0 = 0) (m d : Nat) : (col g m d).2 = 0 ∧ (col g m (d + 1)).2 = 0 := by
  induction d with
  | zero => exact ⟨sect_plane g hy m, by show _ * _ * (sect g m).2 = 0; rw [sect_plane g hy]; ring⟩
  | succ d ih =>
    refine ⟨ih.2, ?_⟩
    show nextInColumn g m d _ _ = 0
    rw [ih.1, ih.2]; unfold nextInColumn; simp

/-- **C52 (d)** on the plane `y = 0` all `W` are zero. -/
theorem lagrange_plane (g : Geo K) (hy : g.y0 = 0) (l k rows cols : Nat) (V W V' W' : Mat K)
    (hA : Arrays rows cols V W) (hk : k ≤ l) (hr : l < rows) (hr2 : 1 < rows) (hc : k < cols)
    (h : lagrange g l k V W = some (0, V', W')) (n m : Nat) (hn : n ≤ l) (hm : m ≤ k) (hmn : m ≤ n) :
    rd W' n m = some 0 := by
  obtain ⟨V1, W1, e, -, -, hW⟩ := lagrange_safe g l k rows cols V W hA hk hr hr2 hc
  rw [e] at h; cases h
  rw [hW n m hn hmn hm]
  exact congrArg some (col_plane g hy m _).1

/-- The mirrored position. -/
def Geo.flipZ (g : Geo K) : Geo K := { g with z0 := -g.z0 }

theorem sect_flip (g : Geo K) (m : Nat) : sect g.flipZ m = sect g m := by
  induction m with
  | zero => rfl
  | succ m ih => simp only [sect, ih]; rfl

theorem col_flip (g : Geo K) (m d : Nat) :
    (col g.flipZ m d = ((-1) ^ d * (col g m d).1, (-1) ^ d * (col g m d).2)) ∧
    (col g.flipZ m (d + 1) = ((-1) ^ (d + 1) * (col g m (d + 1)).1, (-1) ^ (d + 1) * (col g m (d + 1)).2)) := by
  induction d with
  | zero =>
    refine ⟨by show sect g.flipZ m = _; rw [sect_flip]; simp [col], ?_⟩
    refine Prod.ext ?_ ?_
    · show _ * -g.z0 * (sect g.flipZ m).1 = _ * (_ * g.z0 * (sect g m).1)
      rw [sect_flip]; ring
    · show _ * -g.z0 * (sect g.flipZ m).2 = _ * (_ * g.z0 * (sect g m).2)
      rw [sect_flip]; ring
  | succ d ih =>
    refine ⟨ih.2, ?_⟩
    have h : ∀ a b : K, nextInColumn g.flipZ m d ((-1) ^ (d + 1) * a) ((-1) ^ d * b) =
        (-1) ^ (d + 1 + 1) * nextInColumn g m d a b := by
      intro a b
      unfold nextInColumn
      show ((_ * -g.z0 * _) - _ * g.rho * _) / _ = _
      rw [pow_succ, pow_succ]
      ring
    refine Prod.ext ?_ ?_
    · show nextInColumn g.flipZ m d _ _ = _
      rw [ih.1, ih.2]; exact h _ _
    · show nextInColumn g.flipZ m d _ _ = _
      rw [ih.1, ih.2]; exact h _ _

/-- **C52 (e)** parity: mirroring the position in the equatorial plane multiplies the entry of degree
`n`, order `m` by `(-1)^(n-m)`. -/
theorem lagrange_parity (g : Geo K) (l k rows cols : Nat) (V W V' W' Va Wa Va' Wa' : Mat K)
    (hA : Arrays rows cols V W) (hB : Arrays rows cols Va Wa)
    (hk : k ≤ l) (hr : l < rows) (hr2 : 1 < rows) (hc : k < cols)
    (h : lagrange g l k V W = some (0, V', W')) (h' : lagrange g.flipZ l k Va Wa = some (0, Va', Wa'))
    (n m : Nat) (hn : n ≤ l) (hm : m ≤ k) (hmn : m ≤ n) :
    ∃ v w, rd V' n m = some v ∧ rd W' n m = some w ∧
      rd Va' n m = some ((-1) ^ (n - m) * v) ∧ rd Wa' n m = some ((-1) ^ (n - m) * w) := by
  obtain ⟨V1, W1, e, -, hV, hW⟩ := lagrange_safe g l k rows cols V W hA hk hr hr2 hc
  obtain ⟨V2, W2, e', -, hV', hW'⟩ := lagrange_safe g.flipZ l k rows cols Va Wa hB hk hr hr2 hc
  rw [e] at h; cases h
  rw [e'] at h'; cases h'
  refine ⟨_, _, hV n m hn hmn hm, hW n m hn hmn hm, ?_, ?_⟩
  · rw [hV' n m hn hmn hm]
    unfold specV
    rw [(col_flip g m (n - m)).1]
  · rw [hW' n m hn hmn hm]
    unfold specW
    rw [(col_flip g m (n - m)).1]

/-- Degree 0 needs a second row all the same: with one row the recursion writes past the buffer. -/
theorem lagrange_one_row_counterexample (g : Geo ℚ) :
    lagrange g 0 0 ⟨⟨1, 1⟩, [0]⟩ ⟨⟨1, 1⟩, [0]⟩ = none := by
  simp [lagrange, wr, rd, Mat.set?, Mat.get?, offset, trapOffset, trapSlice, ptsInRow]

/-! ### C53 -/

/-- **C53 (a)** the overloads agree on the acceleration, for any arrays, coefficients and sizes for
which the longer one has a result. -/
theorem foldlM_sim {σ τ : Type} (f : σ → Nat → Option σ) (h : τ → Nat → Option τ) (π : σ → τ)
    (H : ∀ s n t, f s n = some t → h (π s) n = some (π t)) (l : List Nat) :
    ∀ s t, l.foldlM f s = some t → l.foldlM h (π s) = some (π t) := by
  induction l with
  | nil => intro s t e; cases e; rfl
  | cons n l ih =>
    intro s t e
    rw [List.foldlM_cons] at e ⊢
    cases hn : f s n with
    | none => rw [hn] at e; cases e
    | some s1 =>
      rw [hn] at e
      rw [H s n s1 hn]
      exact ih s1 t e

theorem par0_sim (V W : Mat K) (C : Nat → Nat → K) (s : (K × K × K) × Par K × K) (n : Nat) (t)
    (h : par0Step V W C s n = some t) : acc0Step V W C s.1 n = some t.1 := by
  unfold par0Step at h
  unfold acc0Step
  cases h1 : rd V (n + 1) 0 with
  | none => rw [h1] at h; cases h
  | some a =>
    cases h2 : rd V (n + 1) 1 with
    | none => rw [h1, h2] at h; cases h
    | some b =>
      cases h3 : rd W (n + 1) 1 with
      | none => rw [h1, h2, h3] at h; cases h
      | some d =>
        rw [h1, h2, h3] at h
        simp only [Option.bind_eq_bind, Option.bind_some, Option.bind_eq_some_iff] at h ⊢
        obtain ⟨_, -, _, -, _, -, _, -, _, -, h⟩ := h
        cases h
        refine congrArg some (Prod.ext ?_ (Prod.ext ?_ ?_)) <;> (show _ = _; ring)

theorem par2_sim (V W : Mat K) (C S : Nat → Nat → K) (i : Nat) (s : (K × K × K) × Par K × Facs K) (n : Nat) (t)
    (h : par2Step V W C S i s n = some t) : acc1Step V W C S i s.1 n = some t.1 := by
  have e : acc1Step V W C S i s.1 n = acc2Step V W C S i s.1 n := rfl
  rw [e]
  unfold par2Step at h
  cases h1 : acc2Step V W C S i s.1 n with
  | none => rw [h1] at h; cases h
  | some a =>
    rw [h1] at h
    simp only [Option.bind_eq_bind, Option.bind_some] at h
    split at h
    · rw [Option.bind_eq_some_iff] at h
      obtain ⟨_, -, h⟩ := h
      cases h; rfl
    · cases h; rfl

theorem overloads_agree (degree order : Nat) (Re GM : K) (V W : Mat K) (C S : Nat → Nat → K) (inp out : Mat33 K)
    (a : K × K × K) (h : accelPartials degree order Re GM V W C S inp = some (a, out)) :
    accel degree order Re GM V W C S = some a := by
  unfold accelPartials at h
  cases h0 : (List.range (degree + 1)).foldlM (par0Step V W C) ((0, 0, 0), Par.zero, 2) with
  | none => rw [h0] at h; cases h
  | some r0 =>
    rw [h0] at h
    simp only [Option.bind_eq_bind, Option.bind_some] at h
    cases h1 : (List.range' 1 degree).foldlM (par1Step V W C S) (Par.zero, 2) with
    | none => rw [h1] at h; cases h
    | some r1 =>
      rw [h1] at h
      simp only [Option.bind_some] at h
      cases h2 : (List.range' 1 degree).foldlM (par2Row V W C S order) ((0, 0, 0), Par.zero) with
      | none => rw [h2] at h; cases h
      | some r2 =>
        rw [h2] at h
        simp only [Option.bind_some] at h
        cases h
        have e0 := foldlM_sim _ (acc0Step V W C) (fun s : (K × K × K) × Par K × K => s.1)
          (par0_sim V W C) _ _ _ h0
        have e2 := foldlM_sim _
          (fun s i => (List.range' 1 (min i order)).foldlM (acc1Step V W C S i) s)
          (fun s : (K × K × K) × Par K => s.1) (by
            intro s i t ht
            unfold par2Row at ht
            simp only [Option.bind_eq_bind, Option.bind_eq_some_iff] at ht
            obtain ⟨r, hr, ht⟩ := ht
            cases ht
            exact foldlM_sim _ (acc1Step V W C S i) (fun s : (K × K × K) × Par K × Facs K => s.1)
              (par2_sim V W C S i) _ _ _ hr) _ _ _ h2
        unfold accel
        simp only [e0, Option.bind_eq_bind, Option.bind_some]
        erw [e2]
        rfl

/-- **C53 (b)** on arrays of the required size the acceleration has a result. -/
theorem accel_safe (degree order rows cols : Nat) (Re GM : K) (V W : Mat K) (C S : Nat → Nat → K)
    (hA : Arrays rows cols V W) (hr : degree + 2 ≤ rows) (hc : order + 2 ≤ cols) :
    ∃ a, accel degree order Re GM V W C S = some a := by
  have hV := reads_fresh V (by rw [hA.vShape]; exact hA.vLen) (degree + 1) (order + 1)
    (by rw [hA.vShape]; exact hr) (by rw [hA.vShape]; exact hc)
  have hW := reads_fresh W (by rw [hA.wShape]; exact hA.wLen) (degree + 1) (order + 1)
    (by rw [hA.wShape]; exact hr) (by rw [hA.wShape]; exact hc)
  exact ⟨_, accel_eq degree order Re GM V W C S _ _ hV hW⟩

theorem tessSum_lin (degree order : Nat) (t t1 t2 : Nat → Nat → K) (a b : K)
    (h : ∀ i j, t i j = a * t1 i j + b * t2 i j) :
    tessSum degree order t = a * tessSum degree order t1 + b * tessSum degree order t2 := by
  unfold tessSum
  rw [mul_sum, mul_sum, ← sum_add_distrib]
  refine sum_congr rfl fun i _ => ?_
  rw [mul_sum, mul_sum, ← sum_add_distrib]
  exact sum_congr rfl fun j _ => h _ _

theorem rangeSum_lin (n : Nat) (t t1 t2 : Nat → K) (a b : K) (h : ∀ i, t i = a * t1 i + b * t2 i) :
    ∑ i ∈ range n, t i = a * ∑ i ∈ range n, t1 i + b * ∑ i ∈ range n, t2 i := by
  rw [mul_sum, mul_sum, ← sum_add_distrib]
  exact sum_congr rfl fun i _ => h i

/-- **C53 (c)** linear in the coefficients. -/
theorem accel_linear (degree order rows cols : Nat) (Re GM : K) (V W : Mat K) (C S C1 S1 C2 S2 : Nat → Nat → K)
    (a b : K) (hA : Arrays rows cols V W) (hr : degree + 2 ≤ rows) (hc : order + 2 ≤ cols)
    (hC : ∀ i j, C i j = a * C1 i j + b * C2 i j) (hS : ∀ i j, S i j = a * S1 i j + b * S2 i j) :
    ∃ r s, accel degree order Re GM V W C1 S1 = some r ∧ accel degree order Re GM V W C2 S2 = some s ∧
      accel degree order Re GM V W C S =
        some (a * r.1 + b * s.1, a * r.2.1 + b * s.2.1, a * r.2.2 + b * s.2.2) := by
  have hV := reads_fresh V (by rw [hA.vShape]; exact hA.vLen) (degree + 1) (order + 1)
    (by rw [hA.vShape]; exact hr) (by rw [hA.vShape]; exact hc)
  have hW := reads_fresh W (by rw [hA.wShape]; exact hA.wLen) (degree + 1) (order + 1)
    (by rw [hA.wShape]; exact hr) (by rw [hA.wShape]; exact hc)
  generalize (fun i j => (rd V i j).getD 0) = v at hV
  generalize (fun i j => (rd W i j).getD 0) = w at hW
  refine ⟨_, _, accel_eq degree order Re GM V W C1 S1 _ _ hV hW, accel_eq degree order Re GM V W C2 S2 _ _ hV hW, ?_⟩
  rw [accel_eq degree order Re GM V W C S _ _ hV hW]
  congr 1
  refine Prod.ext ?_ (Prod.ext ?_ ?_)
  · show _ = _
    rw [rangeSum_lin _ (tx0 C v) (tx0 C1 v) (tx0 C2 v) a b (fun i => by simp only [tx0, hC]; ring),
      tessSum_lin _ _ (tx1 C S v w) (tx1 C1 S1 v w) (tx1 C2 S2 v w) a b
        (fun i j => by simp only [tx1, hC, hS]; ring)]
    dsimp only; ring
  · show _ = _
    rw [rangeSum_lin _ (ty0 C w) (ty0 C1 w) (ty0 C2 w) a b (fun i => by simp only [ty0, hC]; ring),
      tessSum_lin _ _ (ty1 C S v w) (ty1 C1 S1 v w) (ty1 C2 S2 v w) a b
        (fun i j => by simp only [ty1, hC, hS]; ring)]
    dsimp only; ring
  · show _ = _
    rw [rangeSum_lin _ (tz0 C v) (tz0 C1 v) (tz0 C2 v) a b (fun i => by simp only [tz0, hC]; ring),
      tessSum_lin _ _ (tz1 C S v w) (tz1 C1 S1 v w) (tz1 C2 S2 v w) a b
        (fun i j => by simp only [tz1, hC, hS]; ring)]
    dsimp only; ring

/-- The normalised position of lines 81-90. -/
noncomputable def Geo.ofPos (R x y z : ℝ) : Geo ℝ :=
  let r2 := x * x + y * y + z * z
  ⟨R * x / r2, R * y / r2, R * z / r2, R * R / r2, R / Real.sqrt r2⟩

/-- **C53 (d)** degree 0: exactly the attraction of a point mass. -/
theorem accel_central (R GM x y z : ℝ) (hR : R ≠ 0) (rows cols : Nat) (V W : Mat ℝ) (C S : Nat → Nat → ℝ)
    (hA : Arrays rows cols V W) (hr : 2 ≤ rows) (hc : 2 ≤ cols) :
    ∃ V' W', lagrange (Geo.ofPos R x y z) 1 1 V W = some (0, V', W') ∧
      accel 0 0 R GM V' W' C S =
        some (-(GM * C 0 0) * x / Real.sqrt (x * x + y * y + z * z) ^ 3,
          -(GM * C 0 0) * y / Real.sqrt (x * x + y * y + z * z) ^ 3,
          -(GM * C 0 0) * z / Real.sqrt (x * x + y * y + z * z) ^ 3) := by
  obtain ⟨V', W', e, -, hV, hW⟩ := lagrange_safe (Geo.ofPos R x y z) 1 1 rows cols V W hA (by omega) (by omega)
    (by omega) (by omega)
  refine ⟨V', W', e, ?_⟩
  rw [accel_eq 0 0 R GM V' W' C S _ _ hV hW]
  have hsq : Real.sqrt (x * x + y * y + z * z) ^ 2 = x * x + y * y + z * z :=
    Real.sq_sqrt (by nlinarith [mul_self_nonneg x, mul_self_nonneg y, mul_self_nonneg z])
  have v11 : specV (Geo.ofPos R x y z) 1 1 = R * x / (x * x + y * y + z * z) * (R / Real.sqrt (x * x + y * y + z * z)) := by
    simp [specV, col, sect, Geo.ofPos]
  have w11 : specW (Geo.ofPos R x y z) 1 1 = R * y / (x * x + y * y + z * z) * (R / Real.sqrt (x * x + y * y + z * z)) := by
    simp [specW, col, sect, Geo.ofPos]
  have v10 : specV (Geo.ofPos R x y z) 1 0 = R * z / (x * x + y * y + z * z) * (R / Real.sqrt (x * x + y * y + z * z)) := by
    simp [specV, col, sect, Geo.ofPos]
  simp only [tessSum, sum_range_zero, add_zero, sum_range_succ, tx0, ty0, tz0, Nat.zero_add, zero_add,
    v11, w11, v10, Nat.cast_one]
  have key : ∀ c : ℝ, R * c / (x * x + y * y + z * z) * (R / Real.sqrt (x * x + y * y + z * z)) * (GM / (R * R)) =
      GM * c / Real.sqrt (x * x + y * y + z * z) ^ 3 := by
    intro c
    rw [show Real.sqrt (x * x + y * y + z * z) ^ 3 =
      Real.sqrt (x * x + y * y + z * z) ^ 2 * Real.sqrt (x * x + y * y + z * z) from by ring, hsq]
    generalize Real.sqrt (x * x + y * y + z * z) = q
    generalize x * x + y * y + z * z = r2
    by_cases h2 : r2 = 0
    · subst h2; simp
    · by_cases hq : q = 0
      · subst hq; simp
      · field_simp
  congr 1
  refine Prod.ext ?_ (Prod.ext ?_ ?_)
  · show _ = _
    linear_combination -C 0 0 * key x
  · show _ = _
    linear_combination -C 0 0 * key y
  · show _ = _
    linear_combination -C 0 0 * key z

/-! ### C54 -/

/-- **C54 (a)** the returned matrix has zero trace, and its lower triangle does not depend on the
previous contents of the output matrix.  Missing: the upper triangle. -/
theorem partials_trace_partial (degree order : Nat) (Re GM : K) (V W : Mat K) (C S : Nat → Nat → K)
    (inp out : Mat33 K) (a : K × K × K)
    (h : accelPartials degree order Re GM V W C S inp = some (a, out)) :
    out 0 0 + out 1 1 + out 2 2 = 0 ∧
    ∀ inp', ∃ out', accelPartials degree order Re GM V W C S inp' = some (a, out') ∧
      ∀ i j, j ≤ i → i ≤ 2 → out' i j = out i j := by
  unfold accelPartials at h ⊢
  simp only [Option.bind_eq_bind, Option.bind_eq_some_iff] at h
  obtain ⟨r0, h0, r1, h1, r2, h2, h⟩ := h
  cases h
  refine ⟨by
    have e : ∀ x z q : K, x * q + -(x + z) * q + z * q = 0 := fun x z q => by ring
    exact e _ _ _, ?_⟩
  intro inp'
  simp only [h0, h1, h2, Option.bind_eq_bind, Option.bind_some]
  refine ⟨_, rfl, ?_⟩
  intro i j hj hi
  have : i = 0 ∨ i = 1 ∨ i = 2 := by omega
  have : j = 0 ∨ j = 1 ∨ j = 2 := by omega
  rcases ‹i = 0 ∨ _› with rfl | rfl | rfl <;> rcases ‹j = 0 ∨ _› with rfl | rfl | rfl <;>
    first | rfl | omega

/-- On arrays of the required size and with order at least 1 there is a result. -/
theorem partials_safe [CharZero K] (degree order : Nat) (ho : 1 ≤ order) (Re GM : K) (V W : Mat K)
    (C S : Nat → Nat → K) (inp : Mat33 K) (hA : Arrays (degree + 3) (order + 3) V W) :
    ∃ a out, accelPartials degree order Re GM V W C S inp = some (a, out) := by
  have hV := reads_fresh V (by rw [hA.vShape]; exact hA.vLen) (degree + 2) (order + 2)
    (by rw [hA.vShape]; show _ < degree + 3; omega) (by rw [hA.vShape]; show _ < order + 3; omega)
  have hW := reads_fresh W (by rw [hA.wShape]; exact hA.wLen) (degree + 2) (order + 2)
    (by rw [hA.wShape]; show _ < degree + 3; omega) (by rw [hA.wShape]; show _ < order + 3; omega)
  exact ⟨_, _, accelPartials_eq degree order ho Re GM V W C S _ _ inp hV hW⟩

/-- **C54 refuted, independence and symmetry**: whatever the inputs, the upper triangle is what the
caller's matrix held, scaled.  So another caller's matrix gives another result … -/
theorem partials_upper (degree order : Nat) (Re GM : K) (V W : Mat K) (C S : Nat → Nat → K)
    (inp out : Mat33 K) (a : K × K × K)
    (h : accelPartials degree order Re GM V W C S inp = some (a, out)) :
    out 0 1 = inp 0 1 * (GM / Re / Re / Re) ∧ out 0 2 = inp 0 2 * (GM / Re / Re / Re) ∧
    out 1 2 = inp 1 2 * (GM / Re / Re / Re) := by
  unfold accelPartials at h
  simp only [Option.bind_eq_bind, Option.bind_eq_some_iff] at h
  obtain ⟨r0, h0, r1, h1, r2, h2, h⟩ := h
  cases h
  exact ⟨rfl, rfl, rfl⟩

/-- … and for every model with non-zero `GM / Re³` there is a caller's matrix for which the result is
not symmetric. -/
theorem partials_symmetry_counterexample (degree order : Nat) (Re GM : K) (hR : Re ≠ 0) (hG : GM ≠ 0)
    (V W : Mat K) (C S : Nat → Nat → K) (inp out : Mat33 K) (a : K × K × K)
    (h : accelPartials degree order Re GM V W C S inp = some (a, out)) :
    ∃ inp' out', accelPartials degree order Re GM V W C S inp' = some (a, out') ∧ out' 0 1 ≠ out' 1 0 := by
  obtain ⟨out', e, hl⟩ := (partials_trace_partial degree order Re GM V W C S inp out a h).2
    (fun _ _ => (out 1 0 + 1) / (GM / Re / Re / Re))
  refine ⟨_, out', e, ?_⟩
  rw [(partials_upper degree order Re GM V W C S _ out' a e).1, hl 1 0 (by omega) (by omega),
    div_mul_cancel₀]
  · intro hh; exact one_ne_zero (add_eq_left.1 hh)
  · exact div_ne_zero (div_ne_zero (div_ne_zero hG hR) hR) hR

/-- **Order 0 refuted**: with order 0 and degree at least 1, on arrays of the required size, the
order-1 loop reads column 3 of the last row, which lies past the end of the buffer. -/
theorem partials_order0_counterexample (degree : Nat) (hd : 1 ≤ degree) (Re GM : K) (V W : Mat K)
    (C S : Nat → Nat → K) (inp : Mat33 K) (hA : Arrays (degree + 3) 3 V W) :
    accelPartials degree 0 Re GM V W C S inp = none := by
  have hoob : rd V (degree + 2) 3 = none := by
    unfold rd Mat.get?
    rw [List.getElem?_eq_none_iff, hA.vLen, hA.vShape]
    simp only [numElements, trapNumElements_eq, offset, trapOffset]
    rw [if_pos (by omega)]
    show trapSlice _ (degree + 2) + ptsInRow _ (degree + 2) ≤ _
    simp only [ptsInRow]
    omega
  have hlast : ∀ s, par1Step V W C S s degree = none := by
    intro s; unfold par1Step; rw [hoob]; rfl
  have hfold : ∀ s, (List.range' 1 degree).foldlM (par1Step V W C S) s = none := by
    intro s
    obtain ⟨r, rfl⟩ : ∃ r, degree = r + 1 := ⟨degree - 1, by omega⟩
    rw [List.range'_1_concat, List.foldlM_append]
    cases (List.range' 1 r).foldlM (par1Step V W C S) s with
    | none => rfl
    | some t =>
      simp only [Option.bind_eq_bind, Option.bind_some, List.foldlM_cons, Nat.add_comm 1 r, hlast]
      rfl
  unfold accelPartials
  rw [hfold]
  cases (List.range (degree + 1)).foldlM (par0Step V W C) ((0, 0, 0), Par.zero, 2) <;> rfl

/-! Concrete instances. -/

/-- A position on the sphere of radius 2 times `R`-ish: exact rational geometry `x = (2, 3, 6)`,
`r = 7`, `R = 7`. -/
def exG : Geo ℚ := ⟨2 / 7, 3 / 7, 6 / 7, 1, 1⟩

def blank (r c : Nat) : Mat ℚ := ⟨⟨r, c⟩, List.replicate (numElements .trapezoid ⟨r, c⟩) 5⟩

theorem blank_arrays (r c : Nat) : Arrays r c (blank r c) (blank r c) :=
  ⟨rfl, List.length_replicate, rfl, List.length_replicate⟩

example : ∃ V' W', lagrange exG 4 3 (blank 5 4) (blank 5 4) = some (0, V', W') ∧
    Reads 4 3 (specV exG) V' ∧ Reads 4 3 (specW exG) W' := by
  obtain ⟨V', W', e, -, h⟩ := lagrange_safe exG 4 3 5 4 _ _ (blank_arrays 5 4) (by omega) (by omega) (by omega)
    (by omega)
  exact ⟨V', W', e, h⟩
example : specV exG 2 0 = 1 / 2 * (3 * (6 / 7) ^ 2 - 1) := by decide +kernel
example : specW exG 1 1 = 3 / 7 := by decide +kernel
example : specV exG 2 2 = 3 * ((2 / 7) ^ 2 - (3 / 7) ^ 2) := by decide +kernel
example : accelPartials (K := ℚ) 2 0 1 1 (blank 5 3) (blank 5 3) (fun _ _ => 1) (fun _ _ => 0) (fun _ _ => 0) = none :=
  partials_order0_counterexample 2 (by omega) 1 1 _ _ _ _ _ (blank_arrays 5 3)
example : ∃ a out, accelPartials (K := ℚ) 2 2 1 1 (blank 5 5) (blank 5 5) (fun _ _ => 1) (fun _ _ => 0)
    (fun _ _ => 0) = some (a, out) :=
  partials_safe 2 2 (by omega) 1 1 _ _ _ _ _ (blank_arrays 5 5)

end Verif.Gravity
