import Verif.Float.StationModel
import Verif.Float.RangeRateProps
import Verif.Stations.Model
import Mathlib.Tactic.Linarith

/-
C175: extrapolation of station coordinates in double arithmetic.
-/
namespace Verif.Float.Station

variable {rnd : ℝ → ℝ}

/-- Date in days. -/
noncomputable def date (d us : ℤ) : ℝ := d + us / 86400000000

/-- **C175.**  At the epoch of the estimate the coordinate is the estimate, bit by bit. -/
theorem at_epoch (hr : Nearest rnd) (fused : Bool) {est : ℝ} (vel : ℝ) (he : IsDouble est) (d us : ℤ) :
    extrapD rnd fused est vel d us d us = est := by
  unfold extrapD yearsD coordD
  rw [sub_self, hr.zero, zero_div, hr.zero, mul_zero, hr.zero, add_zero]
  simp [hr.exact he]

/-- **C175.**  A station without velocity stays where it is, bit by bit. -/
theorem at_rest (hr : Nearest rnd) (fused : Bool) {est : ℝ} (he : IsDouble est) (d us d0 us0 : ℤ) :
    extrapD rnd fused est 0 d us d0 us0 = est := by
  unfold extrapD coordD
  rw [zero_mul, hr.zero, add_zero]
  simp [hr.exact he]

theorem coord_mono (hr : Nearest rnd) (fused : Bool) {est vel x y : ℝ} (h : vel * x ≤ vel * y) :
    coordD rnd fused est vel x ≤ coordD rnd fused est vel y := by
  unfold coordD
  split_ifs
  · exact hr.mono (by linarith)
  · exact hr.mono (by linarith [hr.mono h])

theorem mjd_mono (hr : Nearest rnd) {d us d' us' : ℤ} (h : d < d' ∨ d = d' ∧ us ≤ us') (h0 : 0 ≤ us')
    (h1 : us < 86400000000) : mjdD rnd d us ≤ mjdD rnd d' us' := by
  refine hr.mono ?_
  rcases h with h | ⟨rfl, h⟩
  · have a : rnd ((us : ℝ) / 86400000000) ≤ 1 := by
      have i1 : IsDouble (1 : ℝ) := by simpa using isDouble_int (K := ℝ) 1 (by norm_num)
      refine hr.le_of_le i1 ?_
      rw [div_le_one (by norm_num)]
      exact_mod_cast h1.le
    have b : 0 ≤ rnd ((us' : ℝ) / 86400000000) := hr.nonneg (div_nonneg (by exact_mod_cast h0) (by norm_num))
    have c : (d : ℝ) + 1 ≤ d' := by exact_mod_cast h
    linarith
  · have c : (us : ℝ) ≤ us' := by exact_mod_cast h
    have := hr.mono (div_le_div_of_nonneg_right c (by norm_num : (0 : ℝ) ≤ 86400000000))
    linarith

/-- **C175.**  The computed coordinate never moves against the velocity: at a later date it is not smaller when the
velocity is positive and not larger when it is negative. -/
theorem moves_with_velocity (hr : Nearest rnd) (fused : Bool) (est vel : ℝ) {d us d' us' : ℤ} (d0 us0 : ℤ)
    (h : d < d' ∨ d = d' ∧ us ≤ us') (h0 : 0 ≤ us') (h1 : us < 86400000000) :
    (0 ≤ vel → extrapD rnd fused est vel d us d0 us0 ≤ extrapD rnd fused est vel d' us' d0 us0) ∧
      (vel ≤ 0 → extrapD rnd fused est vel d' us' d0 us0 ≤ extrapD rnd fused est vel d us d0 us0) := by
  have m : yearsD rnd (mjdD rnd d us) (mjdD rnd d0 us0) ≤ yearsD rnd (mjdD rnd d' us') (mjdD rnd d0 us0) := by
    unfold yearsD
    refine hr.mono (div_le_div_of_nonneg_right (hr.mono ?_) (by norm_num))
    linarith [mjd_mono hr h h0 h1]
  exact ⟨fun v => coord_mono hr fused (mul_le_mul_of_nonneg_left m v),
    fun v => coord_mono hr fused (mul_le_mul_of_nonpos_left m v)⟩

theorem mjd_err (hr : Nearest rnd) {d us : ℤ} (h0 : 0 ≤ us) (h1 : us < 86400000000) (l : 32768 ≤ d) (h : d < 65535) :
    |mjdD rnd d us - date d us| ≤ 1 / 2 ^ 37 ∧ 32768 ≤ mjdD rnd d us ∧ mjdD rnd d us ≤ 65536 := by
  have q0 : (0 : ℝ) ≤ us / 86400000000 := div_nonneg (by exact_mod_cast h0) (by norm_num)
  have q1 : (us : ℝ) / 86400000000 ≤ 1 := by
    rw [div_le_one (by norm_num)]; exact_mod_cast h1.le
  have e1 : |rnd ((us : ℝ) / 86400000000) - us / 86400000000| ≤ 1 / 2 ^ 53 :=
    hr.err_num (-52) (by norm_num) (B := 1) (by rw [abs_of_nonneg q0]; exact q1) (by norm_num) (by norm_num [zpow_neg])
  have dl : (32768 : ℝ) ≤ d := by exact_mod_cast l
  have dh : (d : ℝ) ≤ 65534 := by
    have : d ≤ 65534 := by omega
    exact_mod_cast this
  have i1 : IsDouble (1 : ℝ) := by simpa using isDouble_int (K := ℝ) 1 (by norm_num)
  have r0 := hr.nonneg q0
  have r1 : rnd ((us : ℝ) / 86400000000) ≤ 1 := hr.le_of_le i1 q1
  unfold mjdD date
  generalize rnd ((us : ℝ) / 86400000000) = q at *
  have e2 : |rnd (d + q) - (d + q)| ≤ 1 / 2 ^ 38 :=
    hr.err_num (-37) (by norm_num) (B := 65536) (by rw [abs_of_nonneg (by linarith)]; linarith) (by norm_num)
      (by norm_num [zpow_neg])
  have il : IsDouble (32768 : ℝ) := by simpa using isDouble_int (K := ℝ) 32768 (by norm_num)
  have ih : IsDouble (65536 : ℝ) := by simpa using isDouble_int (K := ℝ) 65536 (by norm_num)
  refine ⟨?_, hr.ge_of_ge il (by linarith), hr.le_of_le ih (by linarith)⟩
  have := near_trans e2 (near_add (by simp : |(d : ℝ) - d| ≤ 0) e1)
  refine this.trans ?_
  norm_num

/-- **C175.**  For dates of the years 1948 to 2038 (days 32768 to 65534), coordinates up to 8000 km and velocities up to
1 m a year the coordinate is within half a nanometre of the exact one. -/
theorem extrap_error (hr : Nearest rnd) (fused : Bool) {est vel : ℝ} {d us d0 us0 : ℤ} (he : |est| ≤ 8000000)
    (hv : |vel| ≤ 1) (h0 : 0 ≤ us) (h1 : us < 86400000000) (l : 32768 ≤ d) (h : d < 65535) (h0' : 0 ≤ us0)
    (h1' : us0 < 86400000000) (l' : 32768 ≤ d0) (h' : d0 < 65535) :
    |extrapD rnd fused est vel d us d0 us0 - (est + vel * ((date d us - date d0 us0) / (36525 / 100)))| ≤
      5 / 10 ^ 10 := by
  obtain ⟨e1, a1, b1⟩ := mjd_err hr h0 h1 l h
  obtain ⟨e2, a2, b2⟩ := mjd_err hr h0' h1' l' h'
  have m1 : IsDouble (mjdD rnd d us) := hr.mem _
  have m2 : IsDouble (mjdD rnd d0 us0) := hr.mem _
  unfold extrapD yearsD
  generalize mjdD rnd d us = x at *
  generalize mjdD rnd d0 us0 = y at *
  have ex : IsDouble (x - y) := sterbenz m1 m2 (by linarith) (by linarith) (by linarith)
  rw [hr.exact ex]
  have c := near_sub e1 e2
  generalize date d us - date d0 us0 = z at *
  have bxy : |x - y| ≤ 32768 := by rw [abs_le]; constructor <;> linarith
  have bz : |z| ≤ 32769 := by
    rw [abs_sub_comm] at c
    refine (abs_near c bxy).trans ?_
    norm_num
  have q : |(x - y) / (36525 / 100) - z / (36525 / 100)| ≤ 1 / 2 ^ 44 := by
    rw [← sub_div, abs_div, abs_of_pos (by norm_num : (0 : ℝ) < 36525 / 100), div_le_iff₀ (by norm_num)]
    refine c.trans ?_
    norm_num
  have bq : |z / (36525 / 100)| ≤ 90 := by
    rw [abs_div, abs_of_pos (by norm_num : (0 : ℝ) < 36525 / 100), div_le_iff₀ (by norm_num)]
    refine bz.trans ?_
    norm_num
  have rq : |rnd ((x - y) / (36525 / 100)) - (x - y) / (36525 / 100)| ≤ 1 / 2 ^ 47 :=
    hr.err_num (-46) (by norm_num) (B := 91) ((abs_near q bq).trans (by norm_num)) (by norm_num) (by norm_num [zpow_neg])
  have t := near_trans rq q
  generalize rnd ((x - y) / (36525 / 100)) = dt at *
  generalize z / (36525 / 100) = dt' at *
  have p : |vel * dt - vel * dt'| ≤ 1 / 2 ^ 43 := by
    rw [← mul_sub, abs_mul]
    refine (mul_le_mul hv t (abs_nonneg _) (by norm_num)).trans ?_
    norm_num
  have bp : |vel * dt'| ≤ 90 := by
    have := abs_mul_le' hv bq
    linarith
  have bp' : |vel * dt| ≤ 91 := (abs_near p bp).trans (by norm_num)
  unfold coordD
  split_ifs
  · have s : |est + vel * dt| ≤ 8000091 := (abs_add_le _ _).trans (by linarith)
    have r : |rnd (est + vel * dt) - (est + vel * dt)| ≤ 1 / 2 ^ 31 :=
      hr.err_num (-30) (by norm_num) s (by norm_num) (by norm_num [zpow_neg])
    refine (near_trans r (near_add (by simp : |est - est| ≤ 0) p)).trans ?_
    norm_num
  · have rp : |rnd (vel * dt) - vel * dt| ≤ 1 / 2 ^ 47 :=
      hr.err_num (-46) (by norm_num) bp' (by norm_num) (by norm_num [zpow_neg])
    have p2 := near_trans rp p
    have s : |est + rnd (vel * dt)| ≤ 8000092 := by
      refine (abs_add_le _ _).trans ?_
      have := abs_near p2 bp
      norm_num at this ⊢
      linarith
    have r : |rnd (est + rnd (vel * dt)) - (est + rnd (vel * dt))| ≤ 1 / 2 ^ 31 :=
      hr.err_num (-30) (by norm_num) s (by norm_num) (by norm_num [zpow_neg])
    refine (near_trans r (near_add (by simp : |est - est| ≤ 0) p2)).trans ?_
    norm_num

/-- The exact value is the coordinate of the model of the whole function (Verif/Stations/Model.lean). -/
theorem extrap_exact {est vel t t0 : ℚ} {ests : List Stations.Estimate} {site : List Char} {a : Char}
    {p v : Stations.Estimate} (hp : Stations.find ests site ['S', 'T', 'A', a] = some p)
    (hv : Stations.find ests site ['V', 'E', 'L', a] = some v) {x : ℚ} (h : Stations.axis ests site t a = some x)
    (e1 : p.value = est) (e2 : v.value = vel) (e3 : p.epoch = t0) :
    (x : ℝ) = est + vel * ((t - t0) / (36525 / 100)) := by
  unfold Stations.axis at h
  rw [hp, hv] at h
  simp only at h
  split_ifs at h
  cases h
  rw [e1, e2, e3]
  push_cast
  rfl

/-- A station at 4595 km drifting by 2 cm a year, five years and half a day after the epoch. -/
example (hr : Nearest rnd) : |extrapD rnd true 4595000 (1 / 50) 59000 43200000000 57174 0 -
    (4595000 + 1 / 50 * ((date 59000 43200000000 - date 57174 0) / (36525 / 100)))| ≤ 5 / 10 ^ 10 :=
  extrap_error hr true (by rw [abs_of_pos] <;> norm_num) (by rw [abs_of_pos] <;> norm_num) (by norm_num) (by norm_num)
    (by norm_num) (by norm_num) (by norm_num) (by norm_num) (by norm_num) (by norm_num)

end Verif.Float.Station
