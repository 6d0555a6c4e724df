import Verif.Float.PcvModel
import Verif.Pcv.Props
import Mathlib.Tactic.IntervalCases
import Mathlib.Analysis.Real.Pi.Bounds

/-! C154: the phase-centre variations in double arithmetic, for every double zenith angle. -/
namespace Verif.Float.Pcv
open Verif.SystemInfo (AntType)

variable {rnd : ℝ → ℝ}

/-! ### The cell is the right one -/

/-- A double below the integer `5 K` is a last digit below it. -/
theorem gap_below (K : ℤ) (q : ℤ) (hq : q ≤ 0) {a : ℝ} (ha : IsDouble a) (h : a < (K : ℝ))
    (hK : (2 : ℝ) ^ (q + 52) + 1 ≤ K) : a ≤ K - 2 ^ q := by
  obtain ⟨m, e, hm, he, rfl⟩ := ha
  have hp : (0 : ℝ) < 2 ^ q := zpow_pos (by norm_num) q
  have hq1 : (2 : ℝ) ^ q ≤ 1 := zpow_le_one_of_nonpos₀ (by norm_num) hq
  rcases le_or_gt q e with hqe | hqe
  · obtain ⟨n, hn⟩ : ∃ n : ℕ, e = q + n := ⟨(e - q).toNat, by omega⟩
    obtain ⟨r, hr⟩ : ∃ r : ℕ, q = -(r : ℤ) := ⟨(-q).toNat, by omega⟩
    have hK2 : (K : ℝ) = ((K * 2 ^ r : ℤ) : ℝ) * 2 ^ q := by
      rw [hr, zpow_neg, zpow_natCast]
      push_cast
      field_simp
    have ha2 : (m : ℝ) * 2 ^ e = ((m * 2 ^ n : ℤ) : ℝ) * 2 ^ q := by
      rw [hn, zpow_add₀ (by norm_num), zpow_natCast]
      push_cast
      ring
    rw [ha2, hK2] at h
    have hlt : m * 2 ^ n < K * 2 ^ r := by
      have := lt_of_mul_lt_mul_right h hp.le
      exact_mod_cast this
    have hle : ((m * 2 ^ n : ℤ) : ℝ) ≤ ((K * 2 ^ r : ℤ) : ℝ) - 1 := by
      have : m * 2 ^ n ≤ K * 2 ^ r - 1 := by omega
      exact_mod_cast this
    have := mul_le_mul_of_nonneg_right hle hp.le
    rw [ha2, hK2]
    linarith
  · have h1 : (m : ℝ) ≤ 2 ^ 53 := by
      have := (abs_lt.1 hm).2.le
      exact_mod_cast this
    have h2 : (m : ℝ) * 2 ^ e ≤ 2 ^ 53 * 2 ^ e := mul_le_mul_of_nonneg_right h1 (zpow_pos (by norm_num) e).le
    have h3 : (2 : ℝ) ^ 53 * 2 ^ e = 2 ^ (e + 53) := by
      rw [zpow_add₀ (by norm_num)]
      norm_num
      ring
    have h4 : (2 : ℝ) ^ (e + 53) ≤ 2 ^ (q + 52) := zpow_le_zpow_right₀ (by norm_num) (by omega)
    linarith

/-- Below `5 K` the rounded fifth stays below `K`. -/
theorem fifth_lt (hr : Nearest rnd) (K : ℤ) (q p : ℤ) (hq : q ≤ 0) {a : ℝ} (ha : IsDouble a) (h : a < 5 * (K : ℝ))
    (hK : (2 : ℝ) ^ (q + 52) + 1 ≤ 5 * (K : ℝ)) (hd : IsDouble ((K : ℝ) - 2 ^ p)) (hp : (2 : ℝ) ^ p < 2 / 5 * 2 ^ q) :
    rnd (a / 5) < K := by
  have h5 : ((5 * K : ℤ) : ℝ) = 5 * K := by push_cast; ring
  have h1 := gap_below (5 * K) q hq ha (by rw [h5]; exact h) (by rw [h5]; exact hK)
  rw [h5] at h1
  have hp0 : (0 : ℝ) < 2 ^ p := zpow_pos (by norm_num) p
  have hq0 : (0 : ℝ) < 2 ^ q := zpow_pos (by norm_num) q
  by_contra hc
  push Not at hc
  have h2 := hr.near (a / 5) _ hd
  have h3 : rnd (a / 5) - a / 5 ≤ |rnd (a / 5) - a / 5| := le_abs_self _
  rcases abs_cases ((K : ℝ) - 2 ^ p - a / 5) with ⟨e1, _⟩ | ⟨e1, _⟩ <;> rw [e1] at h2 <;> linarith

theorem isDouble_pred (K p : ℤ) (n : ℕ) (hn : p = -(n : ℤ)) (h : |K * 2 ^ n - 1| ≤ 2 ^ 53) (hp : -1074 ≤ p) :
    IsDouble ((K : ℝ) - 2 ^ p) := by
  have : (K : ℝ) - 2 ^ p = ((K * 2 ^ n - 1 : ℤ) : ℝ) * 2 ^ p := by
    rw [hn, zpow_neg, zpow_natCast]
    push_cast
    field_simp
  rw [this]
  exact isDouble_of_le _ p h hp

theorem fifth_below (hr : Nearest rnd) (K : ℤ) (h1 : 1 ≤ K) (h18 : K ≤ 18) {a : ℝ} (ha : IsDouble a) (h : a < 5 * (K : ℝ)) :
    rnd (a / 5) < K := by
  have go : ∀ (q p : ℤ) (n : ℕ), q ≤ 0 → p = -(n : ℤ) → -1074 ≤ p → |K * 2 ^ n - 1| ≤ 2 ^ 53 →
      (2 : ℝ) ^ (q + 52) + 1 ≤ 5 * (K : ℝ) → (2 : ℝ) ^ p < 2 / 5 * 2 ^ q → rnd (a / 5) < K :=
    fun q p n hq hn hp hm hK hpq => fifth_lt hr K q p hq ha h hK (isDouble_pred K p n hn hm hp) hpq
  rcases (by omega : K = 1 ∨ K = 2 ∨ K = 3 ∨ K = 4 ∨ (5 ≤ K ∧ K ≤ 6) ∨ (7 ≤ K ∧ K ≤ 8) ∨ (9 ≤ K ∧ K ≤ 12) ∨
    (13 ≤ K ∧ K ≤ 16) ∨ 17 ≤ K) with hK | hK | hK | hK | hK | hK | hK | hK | hK
  · subst hK
    exact go (-50) (-53) 53 (by norm_num) (by norm_num) (by norm_num) (by norm_num) (by norm_num) (by norm_num)
  · subst hK
    exact go (-49) (-52) 52 (by norm_num) (by norm_num) (by norm_num) (by norm_num) (by norm_num) (by norm_num)
  · subst hK
    exact go (-49) (-51) 51 (by norm_num) (by norm_num) (by norm_num) (by norm_num) (by norm_num) (by norm_num)
  · subst hK
    exact go (-48) (-51) 51 (by norm_num) (by norm_num) (by norm_num) (by norm_num) (by norm_num) (by norm_num)
  · refine go (-48) (-50) 50 (by norm_num) (by norm_num) (by norm_num) (by rw [abs_le]; omega) ?_ (by norm_num)
    have : (5 : ℝ) ≤ K := by exact_mod_cast hK.1
    norm_num
    linarith
  · refine go (-47) (-50) 50 (by norm_num) (by norm_num) (by norm_num) (by rw [abs_le]; omega) ?_ (by norm_num)
    have : (7 : ℝ) ≤ K := by exact_mod_cast hK.1
    norm_num
    linarith
  · refine go (-47) (-49) 49 (by norm_num) (by norm_num) (by norm_num) (by rw [abs_le]; omega) ?_ (by norm_num)
    have : (9 : ℝ) ≤ K := by exact_mod_cast hK.1
    norm_num
    linarith
  · refine go (-46) (-49) 49 (by norm_num) (by norm_num) (by norm_num) (by rw [abs_le]; omega) ?_ (by norm_num)
    have : (13 : ℝ) ≤ K := by exact_mod_cast hK.1
    norm_num
    linarith
  · refine go (-46) (-48) 48 (by norm_num) (by norm_num) (by norm_num) (by rw [abs_le]; omega) ?_ (by norm_num)
    have : (17 : ℝ) ≤ K := by exact_mod_cast hK
    norm_num
    linarith

/-- **C154** The rounding of the division never moves an angle into another cell of the table. -/
theorem cell_exact (hr : Nearest rnd) {a : ℝ} (ha : IsDouble a) (h0 : 0 ≤ a) (h90 : a < 90) : ⌊rnd (a / 5)⌋ = ⌊a / 5⌋ := by
  have hk0 : 0 ≤ ⌊a / 5⌋ := Int.floor_nonneg.2 (by positivity)
  have hlo := Int.floor_le (a / 5)
  have hhi := Int.lt_floor_add_one (a / 5)
  have hk17 : ⌊a / 5⌋ ≤ 17 := by
    have : (⌊a / 5⌋ : ℝ) < 18 := by linarith
    have : ⌊a / 5⌋ < 18 := by exact_mod_cast this
    omega
  rw [Int.floor_eq_iff]
  constructor
  · exact hr.ge_of_ge (isDouble_int _ (by rw [abs_le]; constructor <;> omega)) hlo
  · have := fifth_below hr (⌊a / 5⌋ + 1) (by omega) (by omega) ha (by push_cast; linarith)
    push_cast at this
    exact this

/-- The distance to the node is computed without error. -/
theorem distance_exact {a : ℝ} (ha : IsDouble a) (n : ℤ) (hn : 0 ≤ n) (h1 : (n : ℝ) ≤ a) (h2 : a < 90) :
    IsDouble (a - n) := by
  obtain ⟨m, e, hm, he, rfl⟩ := ha
  rcases le_or_gt e 0 with h | h
  · obtain ⟨r, hr⟩ : ∃ r : ℕ, e = -(r : ℤ) := ⟨(-e).toNat, by omega⟩
    have hp : (0 : ℝ) < 2 ^ e := zpow_pos (by norm_num) e
    have hx : (m : ℝ) * 2 ^ e - n = ((m - n * 2 ^ r : ℤ) : ℝ) * 2 ^ e := by
      rw [hr, zpow_neg, zpow_natCast]
      push_cast
      field_simp
    rw [hx]
    have hge : 0 ≤ m - n * 2 ^ r := by
      have h3 : 0 ≤ ((m - n * 2 ^ r : ℤ) : ℝ) * 2 ^ e := by rw [← hx]; linarith
      have := nonneg_of_mul_nonneg_left h3 hp
      exact_mod_cast this
    have hpos : 0 ≤ n * 2 ^ r := by positivity
    refine ⟨_, e, ?_, he, rfl⟩
    rw [abs_lt] at hm ⊢
    constructor <;> omega
  · obtain ⟨r, hr⟩ : ∃ r : ℕ, e = (r : ℤ) := ⟨e.toNat, by omega⟩
    have hx : (m : ℝ) * 2 ^ e - n = ((m * 2 ^ r - n : ℤ) : ℝ) := by
      rw [hr, zpow_natCast]
      push_cast
      ring
    rw [hx]
    refine isDouble_int _ ?_
    have b1 : (0 : ℝ) ≤ ((m * 2 ^ r - n : ℤ) : ℝ) := by rw [← hx]; linarith
    have hn' : (0 : ℝ) ≤ n := by exact_mod_cast hn
    have b2 : ((m * 2 ^ r - n : ℤ) : ℝ) < 90 := by rw [← hx]; linarith
    have c1 : 0 ≤ m * 2 ^ r - n := by exact_mod_cast b1
    have c2 : m * 2 ^ r - n < 90 := by exact_mod_cast b2
    rw [abs_le]
    constructor <;> omega

/-! ### The interpolation -/

theorem half_gap (hr : Nearest rnd) (k : ℤ) (hk : -1000 ≤ k) {x : ℝ} (hx : |x| ≤ 2 ^ k) : |rnd x - x| ≤ 2 ^ (k - 54) := by
  have := hr.err (k - 53) (by omega) (x := x) (by rw [show k - 53 + 53 = k by ring]; exact hx)
  rw [show (k - 54 : ℤ) = k - 53 - 1 by ring, zpow_sub_one₀ (by norm_num)]
  exact this

/-- The four operations of the interpolation together: the error is at most `2^-45`. -/
theorem line_error (hr : Nearest rnd) {A B d : ℝ} (hA : |A| ≤ 32) (hB : |B| ≤ 32) (h0 : 0 ≤ d) (h5 : d ≤ 5) :
    |rnd (A + rnd (d * rnd (rnd (B - A) / 5))) - (A + d * ((B - A) / 5))| ≤ 2 ^ (-45 : ℤ) := by
  have t1 := half_gap hr 6 (by norm_num) (x := B - A) (by
    rw [abs_le] at *; norm_num; constructor <;> linarith [hA.1, hA.2, hB.1, hB.2])
  set s1 := rnd (B - A)
  have b1 : |s1| ≤ 65 := by
    rw [abs_le] at *
    norm_num at t1
    constructor <;> linarith [hA.1, hA.2, hB.1, hB.2, t1.1, t1.2]
  have t2 := half_gap hr 4 (by norm_num) (x := s1 / 5) (by
    rw [abs_le] at *; norm_num; constructor <;> linarith [b1.1, b1.2])
  set s2 := rnd (s1 / 5)
  have b2 : |s2| ≤ 14 := by
    rw [abs_le] at *
    norm_num at t2
    constructor <;> linarith [b1.1, b1.2, t2.1, t2.2]
  have b3 : |d * s2| ≤ 70 := by
    rw [abs_mul, abs_of_nonneg h0]
    nlinarith [abs_nonneg s2]
  have t3 := half_gap hr 7 (by norm_num) (x := d * s2) (b3.trans (by norm_num))
  set s3 := rnd (d * s2)
  have b4 : |A + s3| ≤ 128 := by
    rw [abs_le] at *
    norm_num at t3
    constructor <;> linarith [hA.1, hA.2, b3.1, b3.2, t3.1, t3.2]
  have t4 := half_gap hr 7 (by norm_num) (x := A + s3) (by norm_num; linarith)
  have e : |d * s2 - d * ((B - A) / 5)| ≤ 5 * 2 ^ (-50 : ℤ) + 2 ^ (-48 : ℤ) := by
    rw [← mul_sub, abs_mul, abs_of_nonneg h0]
    have h : |s2 - (B - A) / 5| ≤ 2 ^ (-50 : ℤ) + 2 ^ (-48 : ℤ) / 5 := by
      rw [abs_le] at *
      norm_num at t1 t2 ⊢
      constructor <;> linarith [t1.1, t1.2, t2.1, t2.2]
    have := mul_le_mul h5 h (abs_nonneg _) (by norm_num)
    linarith
  rw [abs_le] at *
  norm_num at t3 t4 e ⊢
  constructor <;> linarith [t3.1, t3.2, t4.1, t4.2, e.1, e.2]

/-- Entry of a table. -/
noncomputable def node (a : AntType) (k : ℕ) : ℝ := (Verif.Pcv.table a).getD k 0

theorem node_bound (a : AntType) (k : ℕ) (hk : k < 19) : |node a k| ≤ 31 := by
  cases a <;> interval_cases k <;>
    norm_num [node, Verif.Pcv.table, Verif.Pcv.alcatel1, Verif.Pcv.starec1, List.getD, abs_le]

theorem node_step (a : AntType) (k : ℕ) (hk : k < 18) : |node a (k + 1) - node a k| ≤ 10 := by
  cases a <;> interval_cases k <;>
    norm_num [node, Verif.Pcv.table, Verif.Pcv.alcatel1, Verif.Pcv.starec1, List.getD, abs_le]

theorem table_node (a : AntType) (k : ℕ) (hk : k < 19) : (Verif.Pcv.table a)[k]? = some (node a k) := by
  have hl := Verif.Pcv.table_length a
  unfold node
  rw [List.getD_eq_getElem?_getD, List.getElem?_eq_getElem (by omega)]
  rfl

/-- The exact interpolation in its cell. -/
theorem exact_cell (a : AntType) {x : ℝ} (h0 : 0 ≤ x) (h90 : x < 90) : ∃ k : ℕ, k < 18 ∧ ⌊x / 5⌋ = k ∧ 5 * (k : ℝ) ≤ x ∧
    x < 5 * ((k : ℝ) + 1) ∧ Verif.Pcv.interpolate (Verif.Pcv.table a) x =
      some (node a k + (x - 5 * k) * ((node a (k + 1) - node a k) / 5)) := by
  have hfl : 0 ≤ ⌊x / 5⌋ := Int.floor_nonneg.2 (by positivity)
  obtain ⟨k, hk⟩ := Int.eq_ofNat_of_zero_le hfl
  have hk' := hk
  rw [Int.floor_eq_iff] at hk
  push_cast at hk
  have hk18 : k < 18 := by
    have : (k : ℝ) < 18 := by linarith [hk.1]
    exact_mod_cast this
  refine ⟨k, hk18, hk', by linarith [hk.1], by linarith [hk.2], ?_⟩
  unfold Verif.Pcv.interpolate
  simp only [hk']
  rw [if_neg (by omega)]
  simp only [Int.toNat_natCast, table_node a k (by omega), table_node a (k + 1) (by omega)]
  norm_num

/-- The rounded interpolation at a double angle is the exact one at this angle, to `2^-44` millimetres. -/
theorem interpolate_close (hr : Nearest rnd) (a : AntType) {x : ℝ} (hx : IsDouble x) (h0 : 0 ≤ x) (h90 : x < 90) :
    ∃ v w, interpolate rnd ((Verif.Pcv.table a).map rnd) x = some v ∧
      Verif.Pcv.interpolate (Verif.Pcv.table a) x = some w ∧ |v - w| ≤ 2 ^ (-44 : ℤ) := by
  obtain ⟨k, hk, hfl, hlo, hhi, he⟩ := exact_cell a h0 h90
  have e5 : rnd (5 * (((k : ℕ) : ℤ) : ℝ)) = 5 * (k : ℝ) := by
    have : (5 * (((k : ℕ) : ℤ) : ℝ)) = ((5 * k : ℤ) : ℝ) := by push_cast; ring
    rw [this, hr.exact (isDouble_int _ (by rw [abs_le]; constructor <;> omega))]
    push_cast
    ring
  have ed : rnd (x - 5 * (k : ℝ)) = x - 5 * (k : ℝ) := by
    have := distance_exact hx (5 * k) (by omega) (by push_cast; linarith) h90
    push_cast at this
    exact hr.exact this
  set A := rnd (node a k) with hA
  set B := rnd (node a (k + 1)) with hB
  have n0 := node_bound a k (by omega)
  have n1 := node_bound a (k + 1) (by omega)
  have r0 := half_gap hr 5 (by norm_num) (x := node a k) (by norm_num; linarith)
  have r1 := half_gap hr 5 (by norm_num) (x := node a (k + 1)) (by norm_num; linarith)
  have hval : interpolate rnd ((Verif.Pcv.table a).map rnd) x =
      some (rnd (A + rnd ((x - 5 * (k : ℝ)) * rnd (rnd (B - A) / 5)))) := by
    unfold interpolate
    simp only [cell_exact hr hx h0 h90, hfl]
    rw [if_neg (by omega)]
    simp only [Int.toNat_natCast, List.getElem?_map, table_node a k (by omega), table_node a (k + 1) (by omega), Option.map_some,
      e5, ed]
    rfl
  refine ⟨_, _, hval, he, ?_⟩
  rw [← hA] at r0
  rw [← hB] at r1
  have bA : |A| ≤ 32 := by
    rw [abs_le] at *; norm_num at r0; constructor <;> linarith [r0.1, r0.2, n0.1, n0.2]
  have bB : |B| ≤ 32 := by
    rw [abs_le] at *; norm_num at r1; constructor <;> linarith [r1.1, r1.2, n1.1, n1.2]
  have hl := line_error hr bA bB (d := x - 5 * (k : ℝ)) (by linarith) (by linarith)
  have conv : |(A + (x - 5 * (k : ℝ)) * ((B - A) / 5)) -
      (node a k + (x - 5 * (k : ℝ)) * ((node a (k + 1) - node a k) / 5))| ≤ 2 ^ (-49 : ℤ) := by
    set t := (x - 5 * (k : ℝ)) / 5 with ht
    have t0 : 0 ≤ t := by rw [ht]; apply div_nonneg <;> linarith
    have t1 : t ≤ 1 := by rw [ht, div_le_one (by norm_num)]; linarith
    have : (A + (x - 5 * (k : ℝ)) * ((B - A) / 5)) - (node a k + (x - 5 * (k : ℝ)) * ((node a (k + 1) - node a k) / 5)) =
        (1 - t) * (A - node a k) + t * (B - node a (k + 1)) := by rw [ht]; ring
    rw [this]
    norm_num at r0 r1 ⊢
    rw [abs_le] at *
    constructor <;> nlinarith [r0.1, r0.2, r1.1, r1.2]
  rw [abs_le] at *
  norm_num at hl conv ⊢
  constructor <;> linarith [hl.1, hl.2, conv.1, conv.2]

/-! ### The exact interpolation changes by at most two millimetres per degree -/

theorem node_far (a : AntType) (k n : ℕ) (h : k + n ≤ 18) : |node a (k + n) - node a k| ≤ 10 * n := by
  induction n with
  | zero => simp
  | succ n ih =>
    have h1 := ih (by omega)
    have h2 := node_step a (k + n) (by omega)
    rw [← Nat.add_assoc]
    rw [abs_le] at *
    push_cast
    constructor <;> linarith [h1.1, h1.2, h2.1, h2.2]

theorem exact_lipschitz (a : AntType) {x y v w : ℝ} (hx0 : 0 ≤ x) (hxy : x ≤ y) (hy : y < 90)
    (hv : Verif.Pcv.interpolate (Verif.Pcv.table a) x = some v) (hw : Verif.Pcv.interpolate (Verif.Pcv.table a) y = some w) :
    |v - w| ≤ 2 * (y - x) := by
  obtain ⟨k, hk, hfk, klo, khi, ek⟩ := exact_cell a hx0 (by linarith)
  obtain ⟨j, hj, hfj, jlo, jhi, ej⟩ := exact_cell a (by linarith : 0 ≤ y) hy
  rw [ek, Option.some.injEq] at hv
  rw [ej, Option.some.injEq] at hw
  have hkj : k ≤ j := by
    have := Int.floor_mono (div_le_div_of_nonneg_right hxy (by norm_num : (0 : ℝ) ≤ 5))
    rw [hfk, hfj] at this
    exact_mod_cast this
  have sk := node_step a k hk
  have sj := node_step a j hj
  rcases Nat.eq_or_lt_of_le hkj with rfl | hlt
  · rw [← hv, ← hw, show node a k + (x - 5 * (k : ℝ)) * ((node a (k + 1) - node a k) / 5) -
      (node a k + (y - 5 * (k : ℝ)) * ((node a (k + 1) - node a k) / 5)) =
      -(((node a (k + 1) - node a k) / 5) * (y - x)) by ring, abs_neg, abs_mul, abs_of_nonneg (by linarith : 0 ≤ y - x)]
    refine mul_le_mul_of_nonneg_right ?_ (by linarith)
    rw [abs_div, abs_of_pos (by norm_num : (0 : ℝ) < 5)]
    linarith
  · obtain ⟨n, rfl⟩ : ∃ n, j = k + 1 + n := ⟨j - (k + 1), by omega⟩
    have far := node_far a (k + 1) n (by omega)
    have p1 : |node a (k + 1) - v| ≤ 2 * (5 * ((k : ℝ) + 1) - x) := by
      rw [← hv, show node a (k + 1) - (node a k + (x - 5 * (k : ℝ)) * ((node a (k + 1) - node a k) / 5)) =
        ((node a (k + 1) - node a k) / 5) * (5 * ((k : ℝ) + 1) - x) by ring, abs_mul,
        abs_of_nonneg (by linarith : 0 ≤ 5 * ((k : ℝ) + 1) - x)]
      refine mul_le_mul_of_nonneg_right ?_ (by linarith)
      rw [abs_div, abs_of_pos (by norm_num : (0 : ℝ) < 5)]
      linarith
    have p2 : |w - node a (k + 1 + n)| ≤ 2 * (y - 5 * ((k + 1 + n : ℕ) : ℝ)) := by
      rw [← hw, show node a (k + 1 + n) + (y - 5 * ((k + 1 + n : ℕ) : ℝ)) * ((node a (k + 1 + n + 1) - node a (k + 1 + n)) / 5) -
        node a (k + 1 + n) = ((node a (k + 1 + n + 1) - node a (k + 1 + n)) / 5) * (y - 5 * ((k + 1 + n : ℕ) : ℝ)) by ring, abs_mul,
        abs_of_nonneg (by linarith : 0 ≤ y - 5 * ((k + 1 + n : ℕ) : ℝ))]
      refine mul_le_mul_of_nonneg_right ?_ (by linarith)
      rw [abs_div, abs_of_pos (by norm_num : (0 : ℝ) < 5)]
      linarith
    rw [abs_le] at *
    push_cast at p2
    constructor <;> linarith [p1.1, p1.2, p2.1, p2.2, far.1, far.2]

/-! ### Degrees -/

theorem dpi_val : dpi = 7074237752028440 / 2 ^ 51 := by
  unfold dpi
  norm_num

theorem dpi_half (hr : Nearest rnd) : rnd (dpi / 2) = dpi / 2 := by
  refine hr.exact ⟨7074237752028440, -52, by norm_num, by norm_num, ?_⟩
  rw [dpi_val]
  norm_num

theorem dpi_lt_pi : dpi < Real.pi := by
  rw [dpi_val]
  have := Real.pi_gt_d20
  norm_num at this ⊢
  linarith

theorem pi_near : Real.pi - dpi ≤ 2 ^ (-52 : ℤ) := by
  rw [dpi_val]
  have := Real.pi_lt_d20
  norm_num at this ⊢
  linarith

/-- The last double before the right angle. -/
theorem before_right (hr : Nearest rnd) {z : ℝ} (hz : IsDouble z) (h : z < dpi / 2) : degrees rnd z < 90 := by
  have hz' : z ≤ 7074237752028439 * 2 ^ (-52 : ℤ) := by
    rcases lt_or_ge z 1 with h1 | h1
    · norm_num
      linarith
    · obtain ⟨m, e, hm, he, rfl⟩ := hz
      have hm1 : (m : ℝ) < 2 ^ 53 := by
        have := (abs_lt.1 hm).2
        exact_mod_cast this
      have he52 : -52 ≤ e := by
        by_contra hc
        push Not at hc
        have h2 : (2 : ℝ) ^ e ≤ 2 ^ (-53 : ℤ) := zpow_le_zpow_right₀ (by norm_num) (by omega)
        have hp : (0 : ℝ) < 2 ^ e := zpow_pos (by norm_num) e
        norm_num at h2
        nlinarith
      obtain ⟨n, hn⟩ : ∃ n : ℕ, e = -52 + n := ⟨(e + 52).toNat, by omega⟩
      have hx : (m : ℝ) * 2 ^ e = ((m * 2 ^ n : ℤ) : ℝ) * 2 ^ (-52 : ℤ) := by
        rw [hn, zpow_add₀ (by norm_num), zpow_natCast]
        push_cast
        ring
      rw [hx] at h ⊢
      have hlt : ((m * 2 ^ n : ℤ) : ℝ) < ((7074237752028440 : ℤ) : ℝ) := by
        rw [dpi_val] at h
        norm_num at h ⊢
        linarith
      have hle : m * 2 ^ n ≤ 7074237752028439 := by
        have : m * 2 ^ n < 7074237752028440 := by exact_mod_cast hlt
        omega
      have : ((m * 2 ^ n : ℤ) : ℝ) ≤ 7074237752028439 := by exact_mod_cast hle
      exact mul_le_mul_of_nonneg_right this (zpow_pos (by norm_num) _).le
  have h1 : rnd (z * 180) ≤ ((4974073419394996 : ℤ) : ℝ) * 2 ^ (-44 : ℤ) := by
    rw [← hr.eq_of_close (x := 7074237752028439 * 2 ^ (-52 : ℤ) * 180) 4974073419394996 (-44) (by norm_num) (by norm_num)
      (by norm_num) (by rw [abs_lt]; norm_num)]
    exact hr.mono (by linarith)
  have hd : (0 : ℝ) < dpi := by rw [dpi_val]; norm_num
  have h2 : degrees rnd z ≤ ((6333186975989759 : ℤ) : ℝ) * 2 ^ (-46 : ℤ) := by
    unfold degrees
    rw [← hr.eq_of_close (x := ((4974073419394996 : ℤ) : ℝ) * 2 ^ (-44 : ℤ) / dpi) 6333186975989759 (-46) (by norm_num)
      (by norm_num) (by norm_num) (by rw [dpi_val, abs_lt]; norm_num)]
    exact hr.mono (div_le_div_of_nonneg_right h1 hd.le)
  norm_num at h2
  linarith

/-- The computed degrees are the true ones to `2^-45`. -/
theorem degrees_close (hr : Nearest rnd) {z : ℝ} (h0 : 0 ≤ z) (h : z ≤ dpi / 2) :
    |degrees rnd z - Verif.Pcv.rad2deg z| ≤ 2 ^ (-45 : ℤ) := by
  have hz : z ≤ 1.5707963267948967 := by
    rw [dpi_val] at h
    norm_num at h ⊢
    linarith
  have hd : (3.14159 : ℝ) < dpi := by rw [dpi_val]; norm_num
  have t1 := half_gap hr 9 (by norm_num) (x := z * 180) (by
    rw [abs_of_nonneg (by positivity)]
    norm_num
    linarith)
  set p := rnd (z * 180)
  have q1 : |p / dpi - z * 180 / dpi| ≤ 2 ^ (-45 : ℤ) / 3.14159 := by
    rw [← sub_div, abs_div, abs_of_pos (by linarith : 0 < dpi)]
    norm_num at t1
    refine div_le_div₀ (by norm_num) (by norm_num; exact t1) (by norm_num) hd.le
  have q2 : |z * 180 / dpi - z * 180 / Real.pi| ≤ 2 ^ (-47 : ℤ) := by
    have hpi := dpi_lt_pi
    have hn := pi_near
    have e : z * 180 / dpi - z * 180 / Real.pi = (z * 180) * (Real.pi - dpi) / (dpi * Real.pi) := by
      have : (0 : ℝ) < dpi := by linarith
      have : (0 : ℝ) < Real.pi := by linarith
      field_simp
    rw [e, abs_of_nonneg (div_nonneg (mul_nonneg (by positivity) (by linarith)) (by positivity)), div_le_iff₀ (by
      have : (0 : ℝ) < Real.pi := by linarith
      positivity)]
    have hden : (9 : ℝ) ≤ dpi * Real.pi := by nlinarith
    have hnum : z * 180 * (Real.pi - dpi) ≤ 283 * 2 ^ (-52 : ℤ) := by
      refine mul_le_mul (by linarith) hn (by linarith) (by norm_num)
    norm_num at hnum ⊢
    linarith
  have b : |p / dpi| ≤ 128 := by
    rw [abs_div, abs_of_pos (by linarith : 0 < dpi), div_le_iff₀ (by linarith)]
    rw [abs_le] at *
    norm_num at t1
    constructor <;> linarith [t1.1, t1.2]
  have t2 := half_gap hr 7 (by norm_num) (x := p / dpi) (by norm_num; linarith)
  unfold Verif.Pcv.rad2deg
  have hdeg : degrees rnd z = rnd (p / dpi) := rfl
  rw [hdeg]
  rw [abs_le] at *
  norm_num at q1 q2 t2 ⊢
  constructor <;> linarith [q1.1, q1.2, q2.1, q2.2, t2.1, t2.2]

theorem degrees_nonneg (hr : Nearest rnd) {z : ℝ} (h0 : 0 ≤ z) : 0 ≤ degrees rnd z := by
  have hd : (0 : ℝ) < dpi := by rw [dpi_val]; norm_num
  exact hr.nonneg (div_nonneg (hr.nonneg (by positivity)) hd.le)

/-! ### The function -/

/-- **C154** For every antenna and every double zenith angle from zero up to the last one before the right angle, the function stays
in its table, flags nothing, and returns the exact interpolation of the published values to `2^-43` millimetres. -/
theorem pcv_double (hr : Nearest rnd) (a : AntType) {z : ℝ} (hz : IsDouble z) (h0 : 0 ≤ z) (h : z < dpi / 2) :
    ∃ v w, (pcv1 rnd a z).value = some v ∧ (Verif.Pcv.pcv1 a z).value = some w ∧ |v - w| ≤ 2 ^ (-43 : ℤ) ∧
      (pcv1 rnd a z).outOfBounds = 0 := by
  have hlt := before_right hr hz h
  have hge := degrees_nonneg hr h0
  have hclose := degrees_close hr h0 h.le
  have hpi := dpi_lt_pi
  have hex := Verif.Pcv.rad2deg_lt (z := z) (by linarith)
  have hex0 := Verif.Pcv.rad2deg_nonneg h0
  have hdd : IsDouble (degrees rnd z) := hr.mem _
  obtain ⟨v, w', hv, hw', hd⟩ := interpolate_close hr a hdd hge hlt
  obtain ⟨k, -, -, -, -, hw⟩ := exact_cell a hex0 hex
  refine ⟨v, node a k + (Verif.Pcv.rad2deg z - 5 * k) * ((node a (k + 1) - node a k) / 5), ?_, ?_, ?_, ?_⟩
  · unfold pcv1
    rw [if_neg (by rw [dpi_half hr]; rintro (h' | h') <;> linarith)]
    exact hv
  · unfold Verif.Pcv.pcv1
    rw [if_neg (by rintro (h' | h') <;> linarith)]
    exact hw
  · have hL : |w' - (node a k + (Verif.Pcv.rad2deg z - 5 * k) * ((node a (k + 1) - node a k) / 5))| ≤
        2 * |degrees rnd z - Verif.Pcv.rad2deg z| := by
      rcases le_total (degrees rnd z) (Verif.Pcv.rad2deg z) with hle | hle
      · have := exact_lipschitz a hge hle hex hw' hw
        rw [abs_sub_comm (degrees rnd z), abs_of_nonneg (by linarith : 0 ≤ Verif.Pcv.rad2deg z - degrees rnd z)]
        exact this
      · have := exact_lipschitz a hex0 hle hlt hw hw'
        rw [abs_sub_comm, abs_of_nonneg (by linarith : 0 ≤ degrees rnd z - Verif.Pcv.rad2deg z)]
        exact this
    have t := abs_sub_le v w' (node a k + (Verif.Pcv.rad2deg z - 5 * k) * ((node a (k + 1) - node a k) / 5))
    norm_num at hd hclose ⊢
    linarith
  · unfold pcv1
    rw [if_neg (by rw [dpi_half hr]; rintro (h' | h') <;> linarith)]

/-- **C154** Outside the quadrant nothing is interpolated, and the Starec antennas flag it. -/
theorem pcv_double_outside (hr : Nearest rnd) (a : AntType) {z : ℝ} (h : z < 0 ∨ dpi / 2 < z) :
    (pcv1 rnd a z).value = some 0 ∧ (a ≠ .alcatel → (pcv1 rnd a z).outOfBounds = 1) := by
  unfold pcv1
  rw [if_pos (by rw [dpi_half hr]; exact h)]
  refine ⟨rfl, fun ha => ?_⟩
  cases a with
  | alcatel => exact absurd rfl ha
  | starecB => rfl
  | starecC => rfl

/-- One double of the range is left: the right angle as the code has it is let through, becomes exactly 90 degrees, and the entry
behind the table is read, for every antenna and every rounding to nearest. -/
theorem right_angle_counterexample (hr : Nearest rnd) (a : AntType) : (pcv1 rnd a (dpi / 2)).value = none := by
  have h1 : rnd (dpi / 2 * 180) = ((4974073419394997 : ℤ) : ℝ) * 2 ^ (-44 : ℤ) :=
    hr.eq_of_close 4974073419394997 (-44) (by norm_num) (by norm_num) (by norm_num) (by rw [dpi_val, abs_lt]; norm_num)
  have h2 : degrees rnd (dpi / 2) = 90 := by
    unfold degrees
    rw [h1, hr.eq_of_close 6333186975989760 (-46) (by norm_num) (by norm_num) (by norm_num) (by rw [dpi_val, abs_lt]; norm_num)]
    norm_num
  have hd : (0 : ℝ) < dpi := by rw [dpi_val]; norm_num
  unfold pcv1
  rw [if_neg (by rw [dpi_half hr]; rintro (h' | h') <;> linarith), h2]
  unfold interpolate
  have e18 : rnd ((90 : ℝ) / 5) = ((18 : ℤ) : ℝ) := by
    rw [show (90 : ℝ) / 5 = ((18 : ℤ) : ℝ) by norm_num]
    exact hr.exact (isDouble_int 18 (by norm_num))
  simp only [e18, Int.floor_intCast]
  rw [if_neg (by norm_num)]
  have e : ((Verif.Pcv.table a).map rnd)[(18 : Int).toNat + 1]? = none := by
    rw [List.getElem?_eq_none]
    rw [List.length_map, Verif.Pcv.table_length]
    decide
  rw [e]
  split
  · rename_i h'
    cases h'
  · rfl

/-- The check of the debug build compares with the number of bytes, so it lets this index pass. -/
theorem debug_check_counterexample : debugCheck 19 18 = true ∧ ∀ i, debugCheck 19 i = true ↔ 0 ≤ i ∧ i < 151 := by
  refine ⟨by decide, fun i => ?_⟩
  unfold debugCheck
  simp only [Bool.and_eq_true, decide_eq_true_eq]
  omega

/-- There is such a rounding, and there are such angles. -/
example : Nearest (rnd64 : ℝ → ℝ) ∧ IsDouble (1 : ℝ) ∧ (0 : ℝ) ≤ 1 ∧ 1 < dpi / 2 :=
  ⟨rnd64_nearest, by simpa using isDouble_int (K := ℝ) 1 (by norm_num), by norm_num, by rw [dpi_val]; norm_num⟩

end Verif.Float.Pcv
