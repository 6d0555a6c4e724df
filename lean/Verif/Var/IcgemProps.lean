import Verif.Var.IcgemModel
import Verif.Gravity.Gradient
import Verif.Harmonic.Props

/- C142. -/
namespace Verif.Var.Icgem

open Verif.Mat2D Verif.Gravity Finset

variable {K : Type} [Field K]

/-! ### The acceleration -/

/-- What a term adds to the y component in the older copy. -/
def tyOld (C S v w : Nat → Nat → K) (i j : Nat) : K :=
  1 / 2 * (-C i j * w (i + 1) (j + 1) + S i j * v (i + 1) (j + 1)) +
    fac2 K i j * (-C i j * v (i + 1) (j - 1) + S i j * w (i + 1) (j - 1))

/-- The sum by which the y component is off. -/
def yError (degree order : Nat) (C S v w : Nat → Nat → K) : K :=
  tessSum degree order (fun i j => fac2 K i j * (C i j + S i j) * (w (i + 1) (j - 1) - v (i + 1) (j - 1)))

theorem old_eq (degree order : Nat) (Re GM : K) (V W : Mat K) (C S v w : Nat → Nat → K)
    (hV : Reads (degree + 1) (order + 1) v V) (hW : Reads (degree + 1) (order + 1) w W) :
    accelOld degree order Re GM V W C S =
      some ((∑ i ∈ range (degree + 1), tx0 C v i + tessSum degree order (tx1 C S v w)) * (GM / (Re * Re)),
        (∑ i ∈ range (degree + 1), ty0 C w i + tessSum degree order (tyOld C S v w)) * (GM / (Re * Re)),
        (∑ i ∈ range (degree + 1), tz0 C v i + tessSum degree order (tz1 C S v w)) * (GM / (Re * Re))) := by
  have h0 : (List.range (degree + 1)).foldlM (acc0Step V W C) (0, 0, 0) =
      some (∑ i ∈ range (degree + 1), tx0 C v i, ∑ i ∈ range (degree + 1), ty0 C w i,
        ∑ i ∈ range (degree + 1), tz0 C v i) := by
    rw [List.range_eq_range', foldlM_add3 _ (tx0 C v) (ty0 C w) (tz0 C v)]
    · simp only [Nat.zero_add, zero_add]
    · intro n _ hn s
      simp only [acc0Step, hV (n + 1) 0 (by omega) (by omega) (by omega),
        hV (n + 1) 1 (by omega) (by omega) (by omega), hW (n + 1) 1 (by omega) (by omega) (by omega),
        Option.bind_eq_bind, Option.bind_some, tx0, ty0, tz0]
  have h1 : ∀ z : K, (List.range' 1 degree).foldlM
      (fun s i => (List.range' 1 (min i order)).foldlM (tessStep V W C S i) s) (0, 0, z) =
      some (tessSum degree order (tx1 C S v w), tessSum degree order (tyOld C S v w),
        z + tessSum degree order (tz1 C S v w)) := by
    intro z
    rw [foldlM_add3 _ (fun i => ∑ j ∈ range (min i order), tx1 C S v w i (1 + j))
      (fun i => ∑ j ∈ range (min i order), tyOld C S v w i (1 + j))
      (fun i => ∑ j ∈ range (min i order), tz1 C S v w i (1 + j))]
    · simp only [zero_add, tessSum, Nat.add_comm 1]
    · intro n h1 h2 s
      rw [foldlM_add3 _ (tx1 C S v w n) (tyOld C S v w n) (tz1 C S v w n)]
      intro j h3 h4 s
      simp only [tessStep, hV (n + 1) (j - 1) (by omega) (by omega) (by omega),
        hV (n + 1) j (by omega) (by omega) (by omega), hV (n + 1) (j + 1) (by omega) (by omega) (by omega),
        hW (n + 1) (j - 1) (by omega) (by omega) (by omega),
        hW (n + 1) j (by omega) (by omega) (by omega), hW (n + 1) (j + 1) (by omega) (by omega) (by omega),
        Option.bind_eq_bind, Option.bind_some, tx1, tyOld, tz1, fac2]
  unfold accelOld
  rw [h0]
  simp only [Option.bind_eq_bind, Option.bind_some]
  rw [h1]
  rfl

theorem old_sum (degree order : Nat) (C S v w : Nat → Nat → K) :
    tessSum degree order (tyOld C S v w) =
      tessSum degree order (ty1 C S v w) + yError degree order C S v w := by
  unfold yError tessSum
  simp only [← sum_add_distrib]
  refine sum_congr rfl fun i _ => sum_congr rfl fun j _ => ?_
  unfold tyOld ty1
  ring

/-- **C142 (a)** on arrays of the required size, whatever they hold, both copies have a result; the x and
z components are the same, and the y components differ by exactly the sum of
`fac (C + S) (W_{n+1,m-1} - V_{n+1,m-1})`, scaled. -/
theorem old_against_new (degree order rows cols : Nat) (Re GM : K) (V W : Mat K) (C S : Nat → Nat → K)
    (hA : Arrays rows cols V W) (hr : degree + 2 ≤ rows) (hc : order + 2 ≤ cols) :
    ∃ a b, accel degree order Re GM V W C S = some a ∧ accelOld degree order Re GM V W C S = some b ∧
      b.1 = a.1 ∧ b.2.2 = a.2.2 ∧
      b.2.1 = a.2.1 + yError degree order C S (fun i j => (rd V i j).getD 0) (fun i j => (rd W i j).getD 0) *
        (GM / (Re * Re)) := by
  have hV := reads_fresh V (by rw [hA.vShape]; exact hA.vLen) (degree + 1) (order + 1)
    (by rw [hA.vShape]; exact hr) (by rw [hA.vShape]; exact hc)
  have hW := reads_fresh W (by rw [hA.wShape]; exact hA.wLen) (degree + 1) (order + 1)
    (by rw [hA.wShape]; exact hr) (by rw [hA.wShape]; exact hc)
  refine ⟨_, _, accel_eq degree order Re GM V W C S _ _ hV hW, old_eq degree order Re GM V W C S _ _ hV hW,
    rfl, rfl, ?_⟩
  dsimp only
  rw [old_sum]
  ring

theorem compute_eq {g : Geo K} {degree order : Nat} {Re GM : K} {V W V' W' : Mat K} {C S : Nat → Nat → K}
    {a : K × K × K} (e : lagrange g (degree + 1) (order + 1) V W = some (0, V', W'))
    (ea : accelOld degree order Re GM V' W' C S = some a) :
    compute g degree order Re GM V W C S = some (some a) := by
  unfold compute
  rw [e, Option.bind_eq_bind, Option.bind_some, if_neg (by simp), ea]
  rfl

/-- `acc` is the gradient of the potential at `(x, y, z)`: its product with any direction is the
derivative of the potential in that direction. -/
def IsGradient (degree order : Nat) (Re GM x y z : ℝ) (C S : Nat → Nat → ℝ) (acc : ℝ × ℝ × ℝ) : Prop :=
  ∀ a b c : ℝ, HasDerivAt
    (fun s => potential degree order Re GM C S (Geo.ofPos Re (x + s * a) (y + s * b) (z + s * c)))
    (a * acc.1 + b * acc.2.1 + c * acc.2.2) 0

theorem gradient_unique (degree order : Nat) (Re GM x y z : ℝ) (C S : Nat → Nat → ℝ) (p q : ℝ × ℝ × ℝ)
    (hp : IsGradient degree order Re GM x y z C S p) (hq : IsGradient degree order Re GM x y z C S q) :
    p = q := by
  have h1 := (hp 1 0 0).unique (hq 1 0 0)
  have h2 := (hp 0 1 0).unique (hq 0 1 0)
  have h3 := (hp 0 0 1).unique (hq 0 0 1)
  simp only [one_mul, zero_mul, add_zero, zero_add] at h1 h2 h3
  exact Prod.ext h1 (Prod.ext h2 h3)

/-- **C142 (b)** the computation of the program always comes to a result, and for GM ≠ 0 that result is
the gradient of the potential (with the coefficients as they are in the file) exactly when the sum above
vanishes. -/
theorem compute_gradient_iff (degree order rows cols : Nat) (Re GM x y z : ℝ) (hR : Re ≠ 0) (hG : GM ≠ 0)
    (hr : x * x + y * y + z * z ≠ 0) (V W : Mat ℝ) (C S : Nat → Nat → ℝ) (hA : Arrays rows cols V W)
    (ho : order ≤ degree) (hrow : degree + 2 ≤ rows) (hcol : order + 2 ≤ cols) :
    ∃ acc, compute (Geo.ofPos Re x y z) degree order Re GM V W C S = some (some acc) ∧
      (IsGradient degree order Re GM x y z C S acc ↔
        yError degree order C S (specV (Geo.ofPos Re x y z)) (specW (Geo.ofPos Re x y z)) = 0) := by
  obtain ⟨V', W', a, e, ea, hg⟩ := accel_is_gradient degree order rows cols Re GM x y z hR hr V W C S hA ho hrow hcol
  obtain ⟨V2, W2, e2, -, hV, hW⟩ :=
    wrapper_accel_safe (Geo.ofPos Re x y z) degree order rows cols V W hA ho hrow hcol
  obtain ⟨-, rfl, rfl⟩ : (0 : Nat) = 0 ∧ V' = V2 ∧ W' = W2 := by
    have := e.symm.trans e2
    simpa using this
  have ea2 := accel_eq degree order Re GM V' W' C S _ _ hV hW
  have eo := old_eq degree order Re GM V' W' C S _ _ hV hW
  refine ⟨_, compute_eq e eo, ?_⟩
  have hag : IsGradient degree order Re GM x y z C S a := hg
  have hay := Option.some.inj (ea.symm.trans ea2)
  have hf : GM / (Re * Re) ≠ 0 := div_ne_zero hG (mul_ne_zero hR hR)
  constructor
  · intro h
    have hu := gradient_unique degree order Re GM x y z C S _ _ h hag
    rw [hay] at hu
    have h2 := congrArg (fun p : ℝ × ℝ × ℝ => p.2.1) hu
    simp only [old_sum] at h2
    have h3 := mul_right_cancel₀ hf h2
    linarith
  · intro h
    rw [old_sum, h, add_zero, ← hay]
    exact hag

/-- **C142 (c)** with no terms of order 1 or more the result is the gradient. -/
theorem zonal_gradient (degree order rows cols : Nat) (Re GM x y z : ℝ) (hR : Re ≠ 0) (hG : GM ≠ 0)
    (hr : x * x + y * y + z * z ≠ 0) (V W : Mat ℝ) (C S : Nat → Nat → ℝ) (hA : Arrays rows cols V W)
    (ho : order ≤ degree) (hrow : degree + 2 ≤ rows) (hcol : order + 2 ≤ cols)
    (hz : order = 0 ∨ ∀ n m, 1 ≤ m → m ≤ n → C n m = 0 ∧ S n m = 0) :
    ∃ acc, compute (Geo.ofPos Re x y z) degree order Re GM V W C S = some (some acc) ∧
      IsGradient degree order Re GM x y z C S acc := by
  obtain ⟨acc, e, h⟩ := compute_gradient_iff degree order rows cols Re GM x y z hR hG hr V W C S hA ho hrow hcol
  refine ⟨acc, e, h.2 ?_⟩
  unfold yError tessSum
  rcases hz with rfl | hz
  · simp
  · refine sum_eq_zero fun i _ => sum_eq_zero fun j hj => ?_
    have hj' := mem_range.1 hj
    obtain ⟨h1, h2⟩ := hz (i + 1) (j + 1) (by omega) (by omega)
    dsimp only
    rw [h1, h2]
    ring

/-- Only `C_22 = 1`. -/
def onlyC22 : Nat → Nat → ℝ := fun n m => if n = 2 ∧ m = 2 then 1 else 0

/-- **C142 (d)** the y component is wrong as soon as there is a term of order 2: over the equator at
longitude 0, in a field whose only coefficient is `C_22` (symmetric in y, so that the y component of the
gradient is 0), the program does not give the gradient. -/
theorem y_component_counterexample (V W : Mat ℝ) (hA : Arrays 4 4 V W) :
    ∃ acc, compute (Geo.ofPos 1 1 0 0) 2 2 1 1 V W onlyC22 (fun _ _ => 0) = some (some acc) ∧
      ¬ IsGradient 2 2 1 1 1 0 0 onlyC22 (fun _ _ => 0) acc := by
  obtain ⟨acc, e, h⟩ := compute_gradient_iff 2 2 4 4 1 1 1 0 0 one_ne_zero one_ne_zero (by norm_num) V W onlyC22
    (fun _ _ => 0) hA (by omega) (by omega) (by omega)
  refine ⟨acc, e, fun hg => ?_⟩
  have h0 := h.1 hg
  simp [yError, tessSum, onlyC22, sum_range_succ, fac2, specV, specW, col, nextInColumn, sect, Geo.ofPos] at h0
  norm_num at h0

example : Arrays 4 4 (⟨⟨4, 4⟩, List.replicate (numElements .trapezoid ⟨4, 4⟩) 5⟩ : Mat ℝ)
    ⟨⟨4, 4⟩, List.replicate (numElements .trapezoid ⟨4, 4⟩) 7⟩ :=
  ⟨rfl, List.length_replicate, rfl, List.length_replicate⟩

/-! ### Normalised coefficients -/

/-- **C142 (e)** one call of the older `denormalize` does what the present one does to a normalised
table. -/
theorem denormalize_once (degree : Nat) (t : Harmonic.Table) (order : Int) (hd : 1 ≤ degree)
    (ho : order ≤ degree) :
    ∃ t', denormalizeOld degree t order = .ret 0 t' ∧
      Harmonic.denormalize ⟨degree, true, t⟩ order = .ret 0 ⟨degree, false, t'⟩ := by
  have ho' : ¬ ((if order < 0 then (degree : Int) else order) > degree) := by split <;> omega
  refine ⟨(List.range' 1 degree).foldl
    (Harmonic.denormRow degree (if order < 0 then (degree : Int) else order).toNat) t, ?_, ?_⟩
  · unfold denormalizeOld
    simp only
    rw [if_neg ho', if_neg (by omega)]
  · unfold Harmonic.denormalize
    rw [if_neg (by simp)]
    simp only
    rw [if_neg ho', if_neg (by omega)]

/-- **C142 (f)** a second call multiplies every coefficient by the factor once more (the present code
leaves the table alone, `Verif.Harmonic.denormalize_idem`). -/
theorem denormalize_twice (degree : Nat) (t : Harmonic.Table) (hd : 1 ≤ degree) :
    ∃ t' t'', denormalizeOld degree t (-1) = .ret 0 t' ∧ denormalizeOld degree t' (-1) = .ret 0 t'' ∧
      (∀ n m, m ≤ n → n ≤ degree → t'' (Harmonic.addrC degree n m) =
        t (Harmonic.addrC degree n m) * Harmonic.normFactor n m ^ 2) ∧
      (∀ n m, 1 ≤ m → m ≤ n → n ≤ degree → t'' (Harmonic.addrS degree n m) =
        t (Harmonic.addrS degree n m) * Harmonic.normFactor n m ^ 2) := by
  obtain ⟨t', e1, d1⟩ := denormalize_once degree t (-1) hd (by omega)
  obtain ⟨t'', e2, d2⟩ := denormalize_once degree t' (-1) hd (by omega)
  obtain ⟨c1, f1, -, -, g1⟩ := Harmonic.denormalize_spec ⟨degree, true, t⟩ (-1) rfl hd (by show (-1 : Int) ≤ degree; omega)
  obtain ⟨c2, f2, -, -, g2⟩ := Harmonic.denormalize_spec ⟨degree, true, t'⟩ (-1) rfl hd (by show (-1 : Int) ≤ degree; omega)
  have k1 : c1 = ⟨degree, false, t'⟩ := by
    have := f1.symm.trans d1
    simpa using this
  have k2 : c2 = ⟨degree, false, t''⟩ := by
    have := f2.symm.trans d2
    simpa using this
  subst k1 k2
  refine ⟨t', t'', e1, e2, ?_, ?_⟩
  · intro n m hm hn
    have a1 := g1 (.C n m) ⟨hm, hn⟩
    have a2 := g2 (.C n m) ⟨hm, hn⟩
    simp only [Harmonic.addr, Harmonic.expected, Harmonic.effOrder] at a1 a2
    rw [a2, a1]
    simp only [show ((-1 : Int) < 0) from by omega, if_true, Int.toNat_natCast]
    rw [if_pos (by omega), if_pos (by omega)]
    ring
  · intro n m h1 hm hn
    have a1 := g1 (.S n m) ⟨h1, hm, hn⟩
    have a2 := g2 (.S n m) ⟨h1, hm, hn⟩
    simp only [Harmonic.addr, Harmonic.expected, Harmonic.effOrder] at a1 a2
    rw [a2, a1]
    simp only [show ((-1 : Int) < 0) from by omega, if_true, Int.toNat_natCast]
    rw [if_pos (by omega), if_pos (by omega)]
    ring

/-- The table of degree 1 with every cell 1. -/
def ones : Harmonic.Table := fun _ => 1

/-- **C142 (g)** two calls in a row do not give the result of one. -/
theorem denormalize_twice_counterexample :
    ∃ t' t'', denormalizeOld 1 ones (-1) = .ret 0 t' ∧ denormalizeOld 1 t' (-1) = .ret 0 t'' ∧
      t' (Harmonic.addrC 1 1 0) = Real.sqrt 3 ∧ t'' (Harmonic.addrC 1 1 0) = 3 := by
  obtain ⟨t', t'', e1, e2, h, -⟩ := denormalize_twice 1 ones (le_refl 1)
  obtain ⟨u, f1, d1⟩ := denormalize_once 1 ones (-1) (le_refl 1) (by omega)
  obtain ⟨c1, g1, -, -, v1⟩ := Harmonic.denormalize_spec ⟨1, true, ones⟩ (-1) rfl (le_refl 1) (by decide)
  have k1 : c1 = ⟨1, false, t'⟩ := by
    have hu : u = t' := by
      have := f1.symm.trans e1
      simpa using this
    subst hu
    have := g1.symm.trans d1
    simpa using this
  subst k1
  have hf : Harmonic.normFactor 1 0 = Real.sqrt 3 := by
    unfold Harmonic.normFactor
    norm_num
  refine ⟨t', t'', e1, e2, ?_, ?_⟩
  · have a1 := v1 (.C 1 0) ⟨by omega, le_refl 1⟩
    simp only [Harmonic.addr, Harmonic.expected, Harmonic.effOrder] at a1
    rw [a1]
    simp [ones, hf]
  · rw [h 1 0 (by omega) (by omega), hf, Real.sq_sqrt (by norm_num)]
    simp [ones]

/-- Multiplying all coefficients multiplies the acceleration. -/
theorem accel_scale (degree order rows cols : Nat) (Re GM k : K) (V W : Mat K) (C S : Nat → Nat → K)
    (hA : Arrays rows cols V W) (hr : degree + 2 ≤ rows) (hc : order + 2 ≤ cols) :
    ∃ a, accelOld degree order Re GM V W C S = some a ∧
      accelOld degree order Re GM V W (fun n m => k * C n m) (fun n m => k * S n m) =
        some (k * a.1, k * a.2.1, k * a.2.2) := by
  have hV := reads_fresh V (by rw [hA.vShape]; exact hA.vLen) (degree + 1) (order + 1)
    (by rw [hA.vShape]; exact hr) (by rw [hA.vShape]; exact hc)
  have hW := reads_fresh W (by rw [hA.wShape]; exact hA.wLen) (degree + 1) (order + 1)
    (by rw [hA.wShape]; exact hr) (by rw [hA.wShape]; exact hc)
  refine ⟨_, old_eq degree order Re GM V W C S _ _ hV hW, ?_⟩
  rw [old_eq degree order Re GM V W _ _ _ _ hV hW]
  unfold tessSum
  dsimp only
  refine congrArg some (Prod.ext ?_ (Prod.ext ?_ ?_)) <;>
  · dsimp only
    rw [← mul_assoc, mul_add, mul_sum, mul_sum]
    congr 2
    · refine sum_congr rfl fun i _ => ?_
      simp only [tx0, ty0, tz0]
      ring
    · refine sum_congr rfl fun i _ => ?_
      rw [mul_sum]
      refine sum_congr rfl fun j _ => ?_
      simp only [tx1, tyOld, tz1]
      ring

/-- Only `C_n0 = c`. -/
def onlyZonal (n : Nat) (c : ℝ) : Nat → Nat → ℝ := fun i j => if i = n ∧ j = 0 then c else 0

/-- **C142 (h)** the coefficients are used as they stand in the file, where they are normalised: a field
of one zonal coefficient of degree `n` comes out too small by `sqrt (2 n + 1)`. -/
theorem zonal_too_small (n degree order rows cols : Nat) (Re GM c : ℝ) (V W : Mat ℝ)
    (hA : Arrays rows cols V W) (hr : degree + 2 ≤ rows) (hc : order + 2 ≤ cols) :
    ∃ a, accelOld degree order Re GM V W (onlyZonal n c) (fun _ _ => 0) = some a ∧
      accelOld degree order Re GM V W (onlyZonal n (c * Harmonic.normFactor n 0)) (fun _ _ => 0) =
        some (Real.sqrt (2 * n + 1) * a.1, Real.sqrt (2 * n + 1) * a.2.1, Real.sqrt (2 * n + 1) * a.2.2) := by
  have hf : Harmonic.normFactor n 0 = Real.sqrt (2 * n + 1) := by
    unfold Harmonic.normFactor
    rw [Nat.sub_zero, Nat.add_zero, if_pos rfl, one_mul, mul_div_assoc,
      div_self (by exact_mod_cast Nat.factorial_ne_zero n), mul_one]
  obtain ⟨a, e1, e2⟩ := accel_scale degree order rows cols Re GM (Real.sqrt (2 * n + 1)) V W (onlyZonal n c)
    (fun _ _ => 0) hA hr hc
  refine ⟨a, e1, ?_⟩
  rw [← e2]
  congr 1
  · funext i j
    unfold onlyZonal
    rw [hf]
    split
    · ring
    · ring
  · funext i j
    ring

/-- **C142 (i)** with `C_20` alone the program's z component at the pole is 3 (unit radius and GM), where
the coefficient stands for `3 sqrt 5`. -/
theorem normalised_counterexample (V W : Mat ℝ) (hA : Arrays 4 4 V W) :
    ∃ acc wanted, compute (Geo.ofPos 1 0 0 1) 2 2 1 1 V W (onlyZonal 2 (-1)) (fun _ _ => 0) = some (some acc) ∧
      compute (Geo.ofPos 1 0 0 1) 2 2 1 1 V W (onlyZonal 2 (-1 * Harmonic.normFactor 2 0)) (fun _ _ => 0) =
        some (some wanted) ∧ acc.2.2 = 3 ∧ wanted.2.2 = 3 * Real.sqrt 5 ∧ acc.2.2 ≠ wanted.2.2 := by
  obtain ⟨V', W', e, hA', hV, hW⟩ :=
    wrapper_accel_safe (Geo.ofPos 1 0 0 1) 2 2 4 4 V W hA (by omega) (by omega) (by omega)
  obtain ⟨a, e1, e2⟩ := zonal_too_small 2 2 2 4 4 1 1 (-1) V' W' hA' (by omega) (by omega)
  have ha := Option.some.inj (e1.symm.trans (old_eq 2 2 1 1 V' W' (onlyZonal 2 (-1)) (fun _ _ => 0) _ _ hV hW))
  have hz : a.2.2 = 3 := by
    rw [ha]
    simp [tessSum, onlyZonal, sum_range_succ, tz0, tz1, specV, specW, col, nextInColumn, sect, Geo.ofPos]
    norm_num
  have h5 : Real.sqrt (2 * (2 : Nat) + 1) = Real.sqrt 5 := by norm_num
  refine ⟨a, _, compute_eq e e1, compute_eq e e2, hz, ?_, ?_⟩
  · dsimp only
    rw [hz, h5]
    ring
  · dsimp only
    rw [hz, h5]
    intro h
    have h1 : Real.sqrt 5 = 1 := by linarith
    have h2 := Real.sq_sqrt (show (0 : ℝ) ≤ 5 by norm_num)
    rw [h1] at h2
    norm_num at h2

/-! ### The arguments -/

/-- What the usage text promises: a file, then optionally the degree, then optionally the order (by
default the degree); any other number of arguments shows the usage text. -/
def wanted : List Int → Int → Option (Int × Int)
  | [], d => some (d, d)
  | [n], _ => some (n, n)
  | [n, m], _ => some (n, m)
  | _, _ => none

/-- **C142 (j)** the usage text never appears. -/
theorem usage_never (argc : Nat) (d a2 a3 : Int) : start argc d a2 a3 ≠ .usage := by
  unfold start
  rw [if_neg (by omega)]
  split
  · exact fun h => Start.noConfusion h
  · dsimp only
    split
    · split <;> split <;> exact fun h => Start.noConfusion h
    · split <;> split <;> exact fun h => Start.noConfusion h

/-- **C142 (k)** with the file alone, or the file and a degree, the program runs with the degree and
order asked for whenever they are within the model, and stops at the assertion otherwise. -/
theorem arguments_partial (args : List Int) (d : Int) (h : args.length ≤ 1) :
    ∃ n m, wanted args d = some (n, m) ∧
      start (args.length + 2) d (args.getD 0 0) (args.getD 1 0) =
        if n ≤ d ∧ m ≤ n then .run n m else .abort := by
  match args, h with
  | [], _ => exact ⟨d, d, rfl, by simp [start]⟩
  | [n], _ => exact ⟨n, n, rfl, by simp [start]⟩

/-- **C142 (l)** with degree and order given, the degree of the file is used in place of the degree given:
the program does what was asked for exactly when the degree given is that of the file, or when the order
is above the file's degree (so that the request cannot be met anyway). -/
theorem degree_and_order_iff (n m d : Int) :
    start 4 d n m = (if n ≤ d ∧ m ≤ n then .run n m else .abort) ↔ n = d ∨ d < m := by
  unfold start
  simp only [if_false, show ¬ (4 < 2) from by omega,
    show ¬ ((4 : Nat) = 3) from by omega, if_true, le_refl, true_and]
  by_cases h1 : m ≤ d
  · rw [if_pos h1]
    by_cases h2 : n ≤ d ∧ m ≤ n
    · rw [if_pos h2]
      constructor
      · intro h; injection h with h _; left; omega
      · rintro (rfl | h)
        · rfl
        · omega
    · rw [if_neg h2]
      constructor
      · intro h; exact Start.noConfusion h
      · rintro (rfl | h) <;> omega
  · rw [if_neg h1, if_neg (show ¬ (n ≤ d ∧ m ≤ n) by omega)]
    exact ⟨fun _ => Or.inr (by omega), fun _ => rfl⟩

example : start 4 36 36 12 = .run 36 12 ∧ wanted [36, 12] 36 = some (36, 12) := by decide

/-- **C142 (m)** degree 20, order 10 of a model of degree 360 are taken for degree 360, order 10. -/
theorem degree_ignored_counterexample : start 4 360 20 10 = .run 360 10 := by decide

/-- **C142 (n)** without a file name the program goes on with a null name instead of the usage text; with
too many arguments it goes on and ignores all but the file. -/
theorem argument_count_counterexample (d a2 a3 : Int) :
    start 1 d a2 a3 = .noPath ∧ ∀ argc, 4 < argc → start argc d a2 a3 = .run d d := by
  refine ⟨rfl, fun argc h => ?_⟩
  unfold start
  rw [if_neg (by omega), if_neg (by omega)]
  simp [show ¬ argc = 3 by omega, show ¬ argc = 4 by omega]

end Verif.Var.Icgem
