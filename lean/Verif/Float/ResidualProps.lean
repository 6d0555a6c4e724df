import Verif.Float.ResidualModel
import Verif.Float.RangeRateProps

/-
C170: the theoretical range rate and the residual in double arithmetic.
-/
namespace Verif.Float

open Verif.Pod

variable {rnd : ℝ → ℝ}

/-! ### The distance -/

theorem Nearest.err_part (h : Nearest rnd) {t N : ℝ} (hN : 1 ≤ N) (ht : |t| ≤ 2 * N) :
    |rnd t - t| ≤ 1 / 2 ^ 52 * N := by
  rcases le_total ((2 : ℝ) ^ (-1022 : ℤ)) |t| with hx | hx
  · refine (h.rel hx).trans ?_
    have : ((2 : ℝ) ^ (-53 : ℤ)) = 1 / 2 ^ 53 := by norm_num [zpow_neg]
    rw [this]
    calc 1 / 2 ^ 53 * |t| ≤ 1 / 2 ^ 53 * (2 * N) := mul_le_mul_of_nonneg_left ht (by norm_num)
      _ = 1 / 2 ^ 52 * N := by ring
  · have h1 : |t| ≤ 1 := hx.trans (by
      have : (2 : ℝ) ^ (-1022 : ℤ) ≤ 2 ^ (0 : ℤ) := zpow_le_zpow_right₀ (by norm_num) (by norm_num)
      simpa using this)
    refine (h.err_num (-53) (by norm_num) h1 (by norm_num) (ε := 1 / 2 ^ 54) (by norm_num [zpow_neg])).trans ?_
    nlinarith

/-- A sum of two products that are not negative and not larger than `N`. -/
theorem sum2_part (h : Nearest rnd) (m : FuseP) {p q N : ℝ} (hN : 1 ≤ N) (hp : 0 ≤ p) (hq : 0 ≤ q) (hs : p + q ≤ N) :
    |sum2D rnd m p q - (p + q)| ≤ 3 / 2 ^ 52 * N := by
  have ep := h.err_part (t := p) hN (by rw [abs_of_nonneg hp]; linarith)
  have eq := h.err_part (t := q) hN (by rw [abs_of_nonneg hq]; linarith)
  have e0 : ∀ x : ℝ, |x - x| ≤ 0 := fun x => by simp
  have ha : |p + q| ≤ N := by rw [abs_of_nonneg (by linarith)]; exact hs
  have fin : ∀ t δ : ℝ, |t - (p + q)| ≤ δ → δ ≤ 2 / 2 ^ 52 * N → |rnd t - (p + q)| ≤ 3 / 2 ^ 52 * N := by
    intro t δ ht hδ
    have h1 : |t| ≤ 2 * N := (abs_near ht ha).trans (by
      have : 2 / 2 ^ 52 * N ≤ 1 * N := mul_le_mul_of_nonneg_right (by norm_num) (by linarith)
      linarith)
    refine (near_trans (h.err_part hN h1) ht).trans ?_
    linarith
  unfold sum2D
  cases m
  · exact fin _ _ (near_add ep eq) (by linarith)
  · exact fin _ _ (near_add (e0 p) eq) (by linarith)
  · exact fin _ _ (near_add ep (e0 q)) (by linarith)

/-- **C170 (a)** The distance: between one metre and 2^23 m it is computed to 1e-8 m, with any fused operations. -/
theorem dist_bound (h : Nearest rnd) (m : FuseP) (f : Bool) (x y z : ℝ) (h1 : 1 ≤ √(x * x + y * y + z * z))
    (h2 : √(x * x + y * y + z * z) ≤ 2 ^ 23) :
    |distD rnd m f x y z - √(x * x + y * y + z * z)| ≤ 1 / 10 ^ 8 := by
  have x0 := mul_self_nonneg x
  have y0 := mul_self_nonneg y
  have z0 := mul_self_nonneg z
  have hN0 : 0 ≤ x * x + y * y + z * z := by linarith
  have hsq : √(x * x + y * y + z * z) * √(x * x + y * y + z * z) = x * x + y * y + z * z :=
    Real.mul_self_sqrt hN0
  unfold distD
  simp only
  have hN : 1 ≤ x * x + y * y + z * z := by nlinarith
  have ei := sum2_part h m hN y0 z0 (by linarith)
  have eq : |(if f then rnd (x * x + sum2D rnd m (y * y) (z * z))
      else rnd (rnd (x * x) + sum2D rnd m (y * y) (z * z))) - (x * x + y * y + z * z)| ≤
      5 / 2 ^ 52 * (x * x + y * y + z * z) := by
    generalize sum2D rnd m (y * y) (z * z) = i at *
    have ex := h.err_part (t := x * x) hN (by rw [abs_of_nonneg x0]; linarith)
    have fin : ∀ t δ : ℝ, |t - (x * x + (y * y + z * z))| ≤ δ → δ ≤ 4 / 2 ^ 52 * (x * x + y * y + z * z) →
        |rnd t - (x * x + y * y + z * z)| ≤ 5 / 2 ^ 52 * (x * x + y * y + z * z) := by
      intro t δ ht hδ
      rw [← add_assoc] at ht
      have ht1 : |t| ≤ 2 * (x * x + y * y + z * z) :=
        (abs_near ht (by rw [abs_of_nonneg hN0])).trans (by
          have : 4 / 2 ^ 52 * (x * x + y * y + z * z) ≤ 1 * (x * x + y * y + z * z) :=
            mul_le_mul_of_nonneg_right (by norm_num) hN0
          linarith)
      refine (near_trans (h.err_part hN ht1) ht).trans ?_
      linarith
    cases f
    · simp only [Bool.false_eq_true, if_false]
      exact fin _ _ (near_add ex ei) (by linarith)
    · simp only [if_true]
      exact fin _ _ (near_add (a := x * x) (a' := x * x) (ε := 0) (by simp) ei) (by linarith)
  generalize (if f then rnd (x * x + sum2D rnd m (y * y) (z * z))
      else rnd (rnd (x * x) + sum2D rnd m (y * y) (z * z))) = q at *
  generalize x * x + y * y + z * z = N at *
  generalize √N = n at *
  have q0 : 0 ≤ q := by
    rw [abs_le] at eq
    have : 5 / 2 ^ 52 * N ≤ 1 * N := mul_le_mul_of_nonneg_right (by norm_num) hN0
    linarith [eq.1]
  have es : |√q - n| ≤ 4 / 2 ^ 52 * n := by
    have s0 := Real.sqrt_nonneg q
    have hs := Real.mul_self_sqrt q0
    have hq : n / 2 ≤ √q := by
      apply Real.le_sqrt_of_sq_le
      rw [abs_le] at eq
      have : 5 / 2 ^ 52 * N ≤ 1 / 2 * N := mul_le_mul_of_nonneg_right (by norm_num) hN0
      nlinarith [eq.1]
    generalize √q = r at *
    have e1 : |r - n| * (3 / 2 * n) ≤ 4 / 2 ^ 52 * n * (3 / 2 * n) := by
      calc |r - n| * (3 / 2 * n) ≤ |r - n| * |r + n| := by
            refine mul_le_mul_of_nonneg_left ?_ (abs_nonneg _)
            rw [abs_of_nonneg (by linarith)]; linarith
        _ = |q - N| := by rw [← abs_mul, ← hs, ← hsq]; congr 1; ring
        _ ≤ 5 / 2 ^ 52 * N := eq
        _ = 5 / 2 ^ 52 * (n * n) := by rw [hsq]
        _ ≤ 6 / 2 ^ 52 * (n * n) := mul_le_mul_of_nonneg_right (by norm_num) (mul_self_nonneg n)
        _ = 4 / 2 ^ 52 * n * (3 / 2 * n) := by ring
    exact le_of_mul_le_mul_right e1 (by linarith)
  have es2 : |√q - n| ≤ 4 / 2 ^ 29 := es.trans (by
    calc 4 / 2 ^ 52 * n ≤ 4 / 2 ^ 52 * 2 ^ 23 := mul_le_mul_of_nonneg_left h2 (by norm_num)
      _ = 4 / 2 ^ 29 := by norm_num)
  have na : |n| ≤ 2 ^ 23 := by rw [abs_of_nonneg (by linarith)]; exact h2
  exact (near_trans (h.err_num (-29) (by norm_num) (abs_near es2 na) (by norm_num) (ε := 1 / 2 ^ 30)
    (by norm_num [zpow_neg])) es2).trans (by norm_num)

/-! ### The troposphere -/

theorem tropo_bound (h : Nearest rnd) (m : FuseP) (lhz mfh lwz mfw : ℝ) (h1 : |lhz * mfh| ≤ 2 ^ 6)
    (h2 : |lwz * mfw| ≤ 2 ^ 6) :
    |tropoD rnd m lhz mfh lwz mfw - (lhz * mfh + lwz * mfw)| ≤ 1 / 2 ^ 44 ∧ |lhz * mfh + lwz * mfw| ≤ 2 ^ 7 := by
  have e1 : |rnd (lhz * mfh) - lhz * mfh| ≤ 1 / 2 ^ 48 :=
    h.err_num (-47) (by norm_num) h1 (by norm_num) (by norm_num [zpow_neg])
  have e2 : |rnd (lwz * mfw) - lwz * mfw| ≤ 1 / 2 ^ 48 :=
    h.err_num (-47) (by norm_num) h2 (by norm_num) (by norm_num [zpow_neg])
  have ha : |lhz * mfh + lwz * mfw| ≤ 2 ^ 7 := (abs_add_le _ _).trans (by linarith)
  have fin : ∀ t : ℝ, |t - (lhz * mfh + lwz * mfw)| ≤ 2 / 2 ^ 48 →
      |rnd t - (lhz * mfh + lwz * mfw)| ≤ 1 / 2 ^ 44 := by
    intro t ht
    exact (near_trans (h.err_num (-45) (by norm_num) (abs_near ht ha) (by norm_num) (ε := 1 / 2 ^ 46)
      (by norm_num [zpow_neg])) ht).trans (by norm_num)
  refine ⟨?_, ha⟩
  unfold tropoD sum2D
  cases m
  · exact fin _ ((near_add e1 e2).trans (by norm_num))
  · exact fin _ ((near_add (a := lhz * mfh) (a' := lhz * mfh) (ε := 0) (by simp) e2).trans (by norm_num))
  · exact fin _ ((near_add (b := lwz * mfw) (b' := lwz * mfw) (δ := 0) e1 (by simp)).trans (by norm_num))

/-! ### The sum -/

/-- The difference of the distances, divided by the interval. -/
theorem geom_bound (h : Nearest rnd) {rho rho' p p' dt : ℝ} (h1 : 1 ≤ dt) (h2 : dt ≤ 128)
    (hp : |p - rho| ≤ 1 / 10 ^ 8) (hp' : |p' - rho'| ≤ 1 / 10 ^ 8) (hd : |rho - rho'| ≤ 2 ^ 13 * dt) :
    |rnd (1 / dt) * rnd (p - p') - 1 / dt * (rho - rho')| ≤ 21 / 10 ^ 9 ∧ |1 / dt * (rho - rho')| ≤ 2 ^ 13 := by
  have ea : |(1 : ℝ) / dt| ≤ 1 := by
    rw [abs_of_pos (by positivity), div_le_one (by linarith)]; exact h1
  have e1 : |rnd (1 / dt) - 1 / dt| ≤ 1 / 2 ^ 54 :=
    h.err_num (-53) (by norm_num) ea (by norm_num) (by norm_num [zpow_neg])
  have e2 := near_sub hp hp'
  have d0 : |rho - rho'| ≤ 2 ^ 20 := hd.trans (by nlinarith)
  have e3 : |rnd (p - p') - (rho - rho')| ≤ 1 / 2 ^ 32 + 2 / 10 ^ 8 :=
    (near_trans (h.err_num (-31) (by norm_num) (abs_near e2 d0) (by norm_num) (ε := 1 / 2 ^ 32)
      (by norm_num [zpow_neg])) e2).trans (by norm_num)
  refine ⟨(near_mul e1 e3 (abs_near e1 ea) d0).trans (by norm_num), ?_⟩
  rw [one_div_mul_eq_div, abs_div, abs_of_pos (by linarith : 0 < dt), div_le_iff₀ (by linarith)]
  exact hd

/-- **C170 (b)** The theoretical range rate, for computed distances that are right to 1e-8 m: it differs from the
formula by less than 3e-8 m/s. -/
theorem utheo_bound (h : Nearest rnd) (f0 f1 f2 : Bool) (m m' : FuseP) (k : Count) (v lwz df p p' : ℝ)
    (hC : k.C = 299792458) (hfr : k.frT = 2036250000 * (1 + v / 10 ^ 11)) (hv : |v| ≤ 10 ^ 5)
    (hf1 : 2 * 10 ^ 9 ≤ k.feN) (h1 : 1 ≤ k.dt) (h2 : k.dt ≤ 128)
    (hL : |k.cur.L1 - k.prev.L1| ≤ 2 ^ 20 * k.dt)
    (hp : |p - k.cur.s.norm| ≤ 1 / 10 ^ 8) (hp' : |p' - k.prev.s.norm| ≤ 1 / 10 ^ 8)
    (hd : |k.cur.s.norm - k.prev.s.norm| ≤ 2 ^ 13 * k.dt)
    (hc1 : |k.cur.lhz * k.cur.mfh| ≤ 2 ^ 6) (hc2 : |lwz * k.cur.mfw| ≤ 2 ^ 6)
    (hp1 : |k.prev.lhz * k.prev.mfh| ≤ 2 ^ 6) (hp2 : |lwz * k.prev.mfw| ≤ 2 ^ 6)
    (hdf : |df| ≤ 1 / 2 ^ 20) :
    |utheoD rnd f1 f2 k.feN (frTD rnd f0 v) (rateD rnd k.cur.L1 k.prev.L1 k.dt) k.dt p p'
        (rateD rnd (tropoD rnd m k.cur.lhz k.cur.mfh lwz k.cur.mfw)
          (tropoD rnd m' k.prev.lhz k.prev.mfh lwz k.prev.mfw) k.dt) df - k.utheo lwz df| ≤ 3 / 10 ^ 8 ∧
      |k.utheo lwz df| ≤ 2 ^ 14 := by
  have fr := frT_bound h f0 v hv
  rw [← hfr] at fr
  obtain ⟨nd, nda⟩ := rate_bound h _ _ _ h1 h2 hL
  obtain ⟨w, wa⟩ := wave_bound h k.feN hf1
  obtain ⟨g, ga⟩ := geom_bound h h1 h2 hp hp' hd
  obtain ⟨tc, tca⟩ := tropo_bound h m _ _ _ _ hc1 hc2
  obtain ⟨tp, tpa⟩ := tropo_bound h m' _ _ _ _ hp1 hp2
  have fra : |k.frT| ≤ 2 ^ 31 := by
    rw [hfr, abs_le]
    rw [abs_le] at hv
    constructor
    · have : 2036250000 * (1 + -10 ^ 5 / 10 ^ 11) ≤ 2036250000 * (1 + v / 10 ^ 11) :=
        mul_le_mul_of_nonneg_left (by gcongr; exact hv.1) (by norm_num)
      norm_num at this ⊢
      linarith
    · have : 2036250000 * (1 + v / 10 ^ 11) ≤ 2036250000 * (1 + 10 ^ 5 / 10 ^ 11) :=
        mul_le_mul_of_nonneg_left (by gcongr; exact hv.2) (by norm_num)
      norm_num at this ⊢
      linarith
  -- the troposphere
  have tr : |rateD rnd (tropoD rnd m k.cur.lhz k.cur.mfh lwz k.cur.mfw)
      (tropoD rnd m' k.prev.lhz k.prev.mfh lwz k.prev.mfw) k.dt -
        (k.cur.tropo lwz - k.prev.tropo lwz) / k.dt| ≤ 1 / 2 ^ 42 ∧
      |(k.cur.tropo lwz - k.prev.tropo lwz) / k.dt| ≤ 2 ^ 8 := by
    unfold rateD End.tropo
    generalize tropoD rnd m k.cur.lhz k.cur.mfh lwz k.cur.mfw = a at *
    generalize tropoD rnd m' k.prev.lhz k.prev.mfh lwz k.prev.mfw = b at *
    generalize k.cur.lhz * k.cur.mfh + lwz * k.cur.mfw = A at *
    generalize k.prev.lhz * k.prev.mfh + lwz * k.prev.mfw = B at *
    have s := near_sub tc tp
    have sa : |A - B| ≤ 2 ^ 8 := (abs_sub A B).trans (by linarith)
    have s2 : |rnd (a - b) - (A - B)| ≤ 5 / 2 ^ 45 :=
      (near_trans (h.err_num (-44) (by norm_num) (abs_near s sa) (by norm_num) (ε := 1 / 2 ^ 45)
        (by norm_num [zpow_neg])) s).trans (by norm_num)
    have d := near_div s2 h1
    have da : |(A - B) / k.dt| ≤ 2 ^ 8 := by
      rw [abs_div, abs_of_pos (by linarith : 0 < k.dt)]
      exact (div_le_self (abs_nonneg _) h1).trans sa
    exact ⟨(near_trans (h.err_num (-44) (by norm_num) (abs_near d da) (by norm_num) (ε := 1 / 2 ^ 45)
      (by norm_num [zpow_neg])) d).trans (by norm_num), da⟩
  obtain ⟨tr, tra⟩ := tr
  unfold utheoD Count.utheo Count.ndopDt
  rw [hC]
  simp only
  generalize rateD rnd (tropoD rnd m k.cur.lhz k.cur.mfh lwz k.cur.mfw)
      (tropoD rnd m' k.prev.lhz k.prev.mfh lwz k.prev.mfw) k.dt = t at *
  generalize (k.cur.tropo lwz - k.prev.tropo lwz) / k.dt = T at *
  generalize frTD rnd f0 v = fr' at *
  generalize rateD rnd k.cur.L1 k.prev.L1 k.dt = nd' at *
  generalize (k.cur.L1 - k.prev.L1) / k.dt = N at *
  generalize rnd (299792458 / k.feN) = a at *
  generalize 299792458 / k.feN = A at *
  generalize rnd (1 / k.dt) = c at *
  generalize rnd (p - p') = d at *
  generalize 1 / k.dt * (k.cur.s.norm - k.prev.s.norm) = G at *
  -- the first sum
  have gaa : |c * d| ≤ 2 ^ 13 + 21 / 10 ^ 9 := abs_near g ga
  have s1 : |(if f1 then rnd (c * d + t) else rnd (rnd (c * d) + t)) - (G + T)| ≤ 22 / 10 ^ 9 := by
    have sa : |G + T| ≤ 2 ^ 13 + 2 ^ 8 := (abs_add_le _ _).trans (add_le_add ga tra)
    have p1 : |rnd (c * d) - G| ≤ 1 / 2 ^ 40 + 21 / 10 ^ 9 :=
      near_trans (h.err_num (-39) (by norm_num) gaa (by norm_num) (by norm_num [zpow_neg])) g
    have q1 := near_add p1 tr
    have q2 := near_add g tr
    cases f1
    · simp only [Bool.false_eq_true, if_false]
      exact (near_trans (h.err_num (-39) (by norm_num) (abs_near q1 sa) (by norm_num)
        (ε := 1 / 2 ^ 40) (by norm_num [zpow_neg])) q1).trans (by norm_num)
    · simp only [if_true]
      exact (near_trans (h.err_num (-39) (by norm_num) (abs_near q2 sa) (by norm_num)
        (ε := 1 / 2 ^ 40) (by norm_num [zpow_neg])) q2).trans (by norm_num)
  have sa : |G + T| ≤ 2 ^ 13 + 2 ^ 8 := (abs_add_le _ _).trans (add_le_add ga tra)
  generalize (if f1 then rnd (c * d + t) else rnd (rnd (c * d) + t)) = s at *
  generalize G + T = S at *
  -- the offset of the emitter
  have o1 := near_add nd fr
  have o1a : |N + k.frT| ≤ 2 ^ 31 + 2 ^ 20 := (abs_add_le _ _).trans (by linarith)
  have o2 : |rnd (nd' + fr') - (N + k.frT)| ≤ 1 / 10 ^ 6 :=
    (near_trans (h.err_num (-21) (by norm_num) (abs_near o1 o1a) (by norm_num) (ε := 1 / 2 ^ 22)
      (by norm_num [zpow_neg])) o1).trans (by norm_num)
  have aa : |a| ≤ 15 / 100 + 1 / 2 ^ 56 := abs_near w wa
  have o3 := near_mul w o2 aa o1a
  have o3a : |A * (N + k.frT)| ≤ 2 ^ 29 := (abs_mul_le' wa o1a).trans (by norm_num)
  have o4 : |rnd (a * rnd (nd' + fr')) - A * (N + k.frT)| ≤ 1 / 10 ^ 6 :=
    (near_trans (h.err_num (-23) (by norm_num) (abs_near o3 o3a) (by norm_num) (ε := 1 / 2 ^ 24)
      (by norm_num [zpow_neg])) o3).trans (by norm_num)
  generalize rnd (a * rnd (nd' + fr')) = x at *
  generalize A * (N + k.frT) = X at *
  have o5 : |x * df - X * df| ≤ 1 / 10 ^ 12 := by
    rw [← sub_mul]
    exact (abs_mul_le' o4 hdf).trans (by norm_num)
  have o5a : |X * df| ≤ 2 ^ 9 := (abs_mul_le' o3a hdf).trans (by norm_num)
  have o6 : |rnd (x * df) - X * df| ≤ 2 / 10 ^ 12 :=
    (near_trans (h.err_num (-43) (by norm_num) (abs_near o5 o5a) (by norm_num) (ε := 1 / 2 ^ 44)
      (by norm_num [zpow_neg])) o5).trans (by norm_num)
  have r1 := near_sub s1 o5
  have r2 := near_sub s1 o6
  have ra : |S - X * df| ≤ 2 ^ 14 := (abs_sub _ _).trans (by linarith)
  refine ⟨?_, ra⟩
  cases f2
  · simp only [Bool.false_eq_true, if_false]
    exact (near_trans (h.err_num (-38) (by norm_num) (abs_near r2 ra) (by norm_num)
      (ε := 1 / 2 ^ 39) (by norm_num [zpow_neg])) r2).trans (by norm_num)
  · simp only [if_true]
    exact (near_trans (h.err_num (-38) (by norm_num) (abs_near r1 ra) (by norm_num)
      (ε := 1 / 2 ^ 39) (by norm_num [zpow_neg])) r1).trans (by norm_num)

theorem uobs_abs (k : Count) (v : ℝ) (hC : k.C = 299792458)
    (hfr : k.frT = 2036250000 * (1 + v / 10 ^ 11)) (hv : |v| ≤ 10 ^ 5)
    (hf1 : 2 * 10 ^ 9 ≤ k.feN) (hf2 : k.feN ≤ 21 * 10 ^ 8) (h1 : 1 ≤ k.dt)
    (hL : |k.cur.L1 - k.prev.L1| ≤ 2 ^ 20 * k.dt)
    (hI : |k.cur.diono - k.prev.diono| ≤ 2 ^ 20 * k.dt)
    (hR : |k.cur.drel - k.prev.drel| ≤ 2 ^ 20 * k.dt) : |k.uobs| ≤ 2 ^ 23 + 2 ^ 22 + 2 ^ 21 := by
  have wa : |299792458 / k.feN| ≤ 15 / 100 := by
    rw [abs_of_pos (div_pos (by norm_num) (by linarith)), div_le_iff₀ (by linarith)]
    linarith
  have q : ∀ a b : ℝ, |a - b| ≤ 2 ^ 20 * k.dt → |(a - b) / k.dt| ≤ 2 ^ 20 := by
    intro a b hab
    rw [abs_div, abs_of_pos (by linarith : 0 < k.dt), div_le_iff₀ (by linarith)]; exact hab
  have fra : |k.feN - k.frT| ≤ 64 * 10 ^ 6 := by
    rw [hfr]
    rw [abs_le] at hv ⊢
    constructor
    · have : 2036250000 * (1 + v / 10 ^ 11) ≤ 2036250000 * (1 + 10 ^ 5 / 10 ^ 11) :=
        mul_le_mul_of_nonneg_left (by gcongr; exact hv.2) (by norm_num)
      norm_num at this ⊢
      linarith
    · have : 2036250000 * (1 + -10 ^ 5 / 10 ^ 11) ≤ 2036250000 * (1 + v / 10 ^ 11) :=
        mul_le_mul_of_nonneg_left (by gcongr; exact hv.1) (by norm_num)
      norm_num at this ⊢
      linarith
  unfold Count.uobs Count.dion Count.ndopDt
  rw [hC, mul_div_assoc]
  have a1 : |k.feN - k.frT - (k.cur.L1 - k.prev.L1) / k.dt| ≤ 64 * 10 ^ 6 + 2 ^ 20 :=
    (abs_sub _ _).trans (add_le_add fra (q _ _ hL))
  have a2 := abs_mul_le' wa a1
  have a3 := abs_mul_le' wa (q _ _ hI)
  have a4 := q _ _ hR
  refine (abs_add_le _ _).trans ?_
  refine (add_le_add_left (abs_add_le _ _) _).trans ?_
  refine (add_le_add (add_le_add a2 a3) a4).trans ?_
  norm_num

/-- **C170 (c)** The residual: over the range of C165, with distances up to 2^23 m that change by at most 2^13 m per
second, delays up to 2^6 m and offsets of the emitter up to 2^-20, it is computed to 1.4e-7 m/s, whichever products
the compiler fuses. -/
theorem residual_bound (h : Nearest rnd) (f0 f1 f2 f3 f4 : Bool) (m m' m'' : FuseP) (k : Count) (v lwz df p : ℝ)
    (hC : k.C = 299792458) (hfr : k.frT = 2036250000 * (1 + v / 10 ^ 11)) (hv : |v| ≤ 10 ^ 5)
    (hf1 : 2 * 10 ^ 9 ≤ k.feN) (hf2 : k.feN ≤ 21 * 10 ^ 8) (h1 : 1 ≤ k.dt) (h2 : k.dt ≤ 128)
    (hL : |k.cur.L1 - k.prev.L1| ≤ 2 ^ 20 * k.dt)
    (hI : |k.cur.diono - k.prev.diono| ≤ 2 ^ 20 * k.dt)
    (hR : |k.cur.drel - k.prev.drel| ≤ 2 ^ 20 * k.dt)
    (hp : |p - k.cur.s.norm| ≤ 1 / 10 ^ 8) (hn1 : 1 ≤ k.prev.s.norm) (hn2 : k.prev.s.norm ≤ 2 ^ 23)
    (hd : |k.cur.s.norm - k.prev.s.norm| ≤ 2 ^ 13 * k.dt)
    (hc1 : |k.cur.lhz * k.cur.mfh| ≤ 2 ^ 6) (hc2 : |lwz * k.cur.mfw| ≤ 2 ^ 6)
    (hp1 : |k.prev.lhz * k.prev.mfh| ≤ 2 ^ 6) (hp2 : |lwz * k.prev.mfw| ≤ 2 ^ 6)
    (hdf : |df| ≤ 1 / 2 ^ 20) :
    |ocD rnd (uobsD rnd f4 k.feN (frTD rnd f0 v) (rateD rnd k.cur.L1 k.prev.L1 k.dt)
        (dionD rnd k.feN k.cur.diono k.prev.diono k.dt) (rateD rnd k.cur.drel k.prev.drel k.dt))
      (utheoD rnd f1 f2 k.feN (frTD rnd f0 v) (rateD rnd k.cur.L1 k.prev.L1 k.dt) k.dt p
        (distD rnd m'' f3 k.prev.s.x k.prev.s.y k.prev.s.z)
        (rateD rnd (tropoD rnd m k.cur.lhz k.cur.mfh lwz k.cur.mfw)
          (tropoD rnd m' k.prev.lhz k.prev.mfh lwz k.prev.mfw) k.dt) df) - k.oc lwz df| ≤ 14 / 10 ^ 8 := by
  have eo := range_rate_bound h f0 f4 k v hC hfr hv hf1 hf2 h1 h2 hL hI hR
  have ao := uobs_abs k v hC hfr hv hf1 hf2 h1 hL hI hR
  have en := dist_bound h m'' f3 k.prev.s.x k.prev.s.y k.prev.s.z hn1 hn2
  obtain ⟨et, at'⟩ := utheo_bound h f0 f1 f2 m m' k v lwz df p _ hC hfr hv hf1 h1 h2 hL hp en hd hc1 hc2 hp1 hp2 hdf
  unfold ocD Count.oc
  generalize utheoD rnd f1 f2 k.feN (frTD rnd f0 v) (rateD rnd k.cur.L1 k.prev.L1 k.dt) k.dt p
        (distD rnd m'' f3 k.prev.s.x k.prev.s.y k.prev.s.z)
        (rateD rnd (tropoD rnd m k.cur.lhz k.cur.mfh lwz k.cur.mfw)
          (tropoD rnd m' k.prev.lhz k.prev.mfh lwz k.prev.mfw) k.dt) df = t at *
  generalize uobsD rnd f4 k.feN (frTD rnd f0 v) (rateD rnd k.cur.L1 k.prev.L1 k.dt)
        (dionD rnd k.feN k.cur.diono k.prev.diono k.dt) (rateD rnd k.cur.drel k.prev.drel k.dt) = o at *
  have e := near_add eo et
  have a : |k.uobs + k.utheo lwz df| ≤ 2 ^ 23 + 2 ^ 22 + 2 ^ 21 + 2 ^ 14 :=
    (abs_add_le _ _).trans (add_le_add ao at')
  exact (near_trans (h.err_num (-29) (by norm_num) (abs_near e a) (by norm_num) (ε := 1 / 2 ^ 30)
    (by norm_num [zpow_neg])) e).trans (by norm_num)

/-- A count of ten seconds with a satellite that comes 30 km closer. -/
noncomputable def sampleResidual : Count :=
  { C := 299792458, feN := 2036250000, frT := 2036250000 * (1 + 150 / 10 ^ 11), dt := 10,
    prev := ⟨12345678, 20, 1, 2, 3, 3, ⟨0, 0, 1430000⟩⟩, cur := ⟨12445678, 60, 4, 2, 2, 2, ⟨0, 0, 1400000⟩⟩,
    R := ⟨⟨1, 0, 0⟩, ⟨0, 1, 0⟩, ⟨0, 0, 1⟩⟩ }

theorem sampleResidual_norms : sampleResidual.cur.s.norm = 1400000 ∧ sampleResidual.prev.s.norm = 1430000 := by
  constructor <;>
  · simp only [sampleResidual, Astro.V3.norm, Astro.V3.dot]
    rw [mul_zero, add_zero, zero_add, Real.sqrt_mul_self (by norm_num)]

example : |ocD (rnd64 : ℝ → ℝ) (uobsD rnd64 true 2036250000 (frTD rnd64 false 150) (rateD rnd64 12445678 12345678 10)
        (dionD rnd64 2036250000 60 20 10) (rateD rnd64 4 1 10))
      (utheoD rnd64 true false 2036250000 (frTD rnd64 false 150) (rateD rnd64 12445678 12345678 10) 10 1400000
        (distD rnd64 .left true 0 0 1430000)
        (rateD rnd64 (tropoD rnd64 .right 2 2 (1 / 8) 2) (tropoD rnd64 .none 2 3 (1 / 8) 3) 10) (1 / 2 ^ 23)) -
        sampleResidual.oc (1 / 8) (1 / 2 ^ 23)| ≤ 14 / 10 ^ 8 := by
  obtain ⟨n1, n2⟩ := sampleResidual_norms
  refine residual_bound rnd64_nearest false true false true true .right .none .left sampleResidual 150 (1 / 8)
    (1 / 2 ^ 23) 1400000 rfl rfl ?_ ?_ ?_ ?_ ?_ ?_ ?_ ?_ ?_ ?_ ?_ ?_ ?_ ?_ ?_ ?_ ?_ <;>
    (try rw [n1]) <;> (try rw [n2]) <;> norm_num [sampleResidual, abs_of_pos]

end Verif.Float
