import Verif.SunMoon.RefModel
import Verif.SunMoon.Props
import Verif.Float.Format

/-! C159: the programs that compare positions of the Sun and the Moon with an ephemeris. -/
namespace Verif.SunMoon.Ref

open Real Verif.SunMoon

/-! ### Specification -/

/-- Mean of a list. -/
noncomputable def mean (rs : List ℝ) : ℝ := rs.sum / rs.length

/-- Distance of two points, as the length of the difference. -/
noncomputable def distance (v r : V3) : ℝ := V3.length ⟨v.x - r.x, v.y - r.y, v.z - r.z⟩

/-- The rounding leaves zero and the given numbers alone: so do no rounding and the rounding of doubles for doubles. -/
def Keeps (rnd : ℝ → ℝ) (rs : List ℝ) : Prop := rnd 0 = 0 ∧ ∀ r ∈ rs, rnd r = r

/-! ### The distances -/

theorem rdiff_eq (v r : V3) : rdiff v r = distance v r := by
  unfold rdiff distance V3.length
  congr 1
  ring

theorem distance_symm (v r : V3) : distance v r = distance r v := by
  unfold distance V3.length
  congr 1
  ring

theorem distance_zero (v r : V3) : distance v r = 0 ↔ v = r := by
  unfold distance V3.length
  rw [sqrt_eq_zero (by positivity)]
  constructor
  · intro h
    have hx : v.x - r.x = 0 := by nlinarith [sq_nonneg (v.x - r.x), sq_nonneg (v.y - r.y), sq_nonneg (v.z - r.z)]
    have hy : v.y - r.y = 0 := by nlinarith [sq_nonneg (v.x - r.x), sq_nonneg (v.y - r.y), sq_nonneg (v.z - r.z)]
    have hz : v.z - r.z = 0 := by nlinarith [sq_nonneg (v.x - r.x), sq_nonneg (v.y - r.y), sq_nonneg (v.z - r.z)]
    exact V3.ext' (by linarith) (by linarith) (by linarith)
  · rintro rfl
    simp

/-! ### The averages -/

theorem update_later (rnd : ℝ → ℝ) (h0 : rnd 0 = 0) (i : ℕ) (mr r : ℝ) (hm : rnd mr = mr) : update rnd (i + 1) mr r = mr := by
  have : Int.tdiv 1 (((i + 1 : ℕ) : ℤ) + 1) = 0 := Int.tdiv_eq_zero_of_lt (by norm_num) (by push_cast; omega)
  unfold update
  rw [this, Int.cast_zero, zero_mul, h0, add_zero, hm]

theorem update_first (rnd : ℝ → ℝ) (r : ℝ) (hr : rnd r = r) : update rnd 0 0 r = r := by
  have : Int.tdiv 1 (((0 : ℕ) : ℤ) + 1) = 1 := by decide
  unfold update
  rw [this, Int.cast_one, sub_zero, hr, one_mul, hr, zero_add, hr]

theorem averageFrom_later (rnd : ℝ → ℝ) (h0 : rnd 0 = 0) (i : ℕ) (mr : ℝ) (hm : rnd mr = mr) (rs : List ℝ) :
    averageFrom rnd (i + 1) mr rs = mr := by
  induction rs generalizing i with
  | nil => rfl
  | cons r rs ih => rw [averageFrom, update_later rnd h0 i mr r hm, ih]

/-- **C159** What is printed as the average of any list of distances is the first of them. -/
theorem average_first (rnd : ℝ → ℝ) (r : ℝ) (rs : List ℝ) (h : Keeps rnd (r :: rs)) : average rnd (r :: rs) = r := by
  unfold average
  rw [averageFrom, update_first rnd r (h.2 r List.mem_cons_self), averageFrom_later rnd h.1 0 r (h.2 r List.mem_cons_self)]

/-- **C159** Missing: the claim is false for other lists.  The average is the mean for those lists, and only those, whose first distance
is their mean. -/
theorem average_mean_partial (rnd : ℝ → ℝ) (r : ℝ) (rs : List ℝ) (h : Keeps rnd (r :: rs)) :
    average rnd (r :: rs) = mean (r :: rs) ↔ rs.sum = r * rs.length := by
  rw [average_first rnd r rs h]
  unfold mean
  have hl : ((r :: rs).length : ℝ) ≠ 0 := by
    rw [List.length_cons]
    push_cast
    positivity
  rw [eq_div_iff hl, List.length_cons, List.sum_cons]
  push_cast
  constructor <;> intro h' <;> linarith

/-- The distances of all dates but the first have no influence on what is printed as their average. -/
theorem average_counterexample (r : ℝ) (rs rs' : List ℝ) : average id (r :: rs) = average id (r :: rs') := by
  rw [average_first id r rs ⟨rfl, fun _ _ => rfl⟩, average_first id r rs' ⟨rfl, fun _ _ => rfl⟩]

/-- **C159** In double arithmetic too. -/
theorem average_double {rnd : ℝ → ℝ} (hr : Verif.Float.Nearest rnd) (r : ℝ) (rs : List ℝ) (h : ∀ x ∈ r :: rs, Verif.Float.IsDouble x) :
    average rnd (r :: rs) = r :=
  average_first rnd r rs ⟨hr.zero, fun x hx => hr.exact (h x hx)⟩

/-- The loop as it was meant, with a quotient of numbers, gives the mean. -/
theorem intended_mean (rs : List ℝ) (i : ℕ) (mr : ℝ) :
    (rs.foldl (fun (p : ℕ × ℝ) r => (p.1 + 1, p.2 + 1 / ((p.1 : ℝ) + 1) * (r - p.2))) (i, mr)).2 * ((i : ℝ) + rs.length) =
      mr * i + rs.sum := by
  induction rs generalizing i mr with
  | nil => simp
  | cons r rs ih =>
    have h := ih (i + 1) (mr + 1 / ((i : ℝ) + 1) * (r - mr))
    rw [List.foldl_cons, List.length_cons, List.sum_cons]
    push_cast at h ⊢
    have hi : (i : ℝ) + 1 ≠ 0 := by positivity
    have e : (i : ℝ) + (rs.length + 1) = (i : ℝ) + 1 + rs.length := by ring
    rw [e, h]
    field_simp
    ring

/-! ### The programs -/

/-- A row is that of position `v` and reference `r`. -/
def IsRow (v r : V3) (q : Row) : Prop :=
  q.pos = v ∧ q.dx = |v.x - r.x| ∧ q.dy = |v.y - r.y| ∧ q.dz = |v.z - r.z|

/-- **C159** The rows: for every date the position of the ephemeris, the three of the library (the points of C72, at the right argument
of time) and the differences of their components. -/
theorem sun_rows (rnd : ℝ → ℝ) (ref : ℝ → V3) (dates : List ℝ) :
    List.Forall₂ (fun t r => r.1 = ref t ∧
        IsRow (equatorial (deg2rad 23.43929111) (mbDistance ((t - 2451545) / 36525)) (mbLongitude ((t - 2451545) / 36525)) 0)
          (ref t) r.2.1 ∧
        IsRow (equatorial (deg2rad (23.439291 - 0.0130042 * ((t - 2451545) / 36525))) (vaDistance ((t - 2451545) / 36525))
          (vaLongitude ((t - 2451545) / 36525)) 0) (ref t) r.2.2.1 ∧
        IsRow (equatorial (deg2rad (23.439 - 3.65e-7 * (t - 2451545))) (cuDistance (t - 2451545)) (cuLongitude (t - 2451545)) 0)
          (ref t) r.2.2.2)
      dates (sunRef rnd ref dates).1 := by
  unfold sunRef
  rw [List.forall₂_map_right_iff, List.forall₂_same]
  intro t _
  rw [← sunMontenbruck_eq, ← sunVallado_eq, ← sunCurtis_eq]
  exact ⟨rfl, ⟨rfl, rfl, rfl, rfl⟩, ⟨rfl, rfl, rfl, rfl⟩, ⟨rfl, rfl, rfl, rfl⟩⟩

/-- **C159** The rows of the Moon. -/
theorem moon_rows (rnd : ℝ → ℝ) (fa : ℝ → ℝ × ℝ × ℝ × ℝ) (ref : ℝ → V3) (dates : List ℝ) :
    List.Forall₂ (fun t r => r.1 = ref t ∧
        (∀ c l lp F D, c = (t - 2451545) / 36525 → fa c = (l, lp, F, D) →
          IsRow (equatorial (23.43929111 * π / 180) (moDistance l lp F D) (moLongitude l lp F D c) (moLatitude l lp F D)) (ref t) r.2.1) ∧
        (∀ c, c = (t - 2451545) / 36525 →
          IsRow (equatorial (vmObliquity c) (vmDistance c) (vmLongitude c) (vmLatitude c)) (ref t) r.2.2))
      dates (moonRef rnd fa ref dates).1 := by
  unfold moonRef
  rw [List.forall₂_map_right_iff, List.forall₂_same]
  intro t _
  refine ⟨rfl, ?_, ?_⟩
  · rintro c l lp F D rfl hfa
    rw [← moonApprox_eq]
    have e : fa (centuries t) = (l, lp, F, D) := hfa
    simp only [e]
    exact ⟨rfl, rfl, rfl, rfl⟩
  · rintro c rfl
    rw [← moonVallado_eq]
    exact ⟨rfl, rfl, rfl, rfl⟩

/-- **C159** The three averages printed for the Sun are the distances at the first date. -/
theorem sun_averages_counterexample (ref : ℝ → V3) (t : ℝ) (dates : List ℝ) :
    (sunRef id ref (t :: dates)).2 = (distance (sunMontenbruck (centuries t)) (ref t), distance (sunVallado (centuries t)) (ref t),
      distance (sunCurtis (daysJ2000 t)) (ref t)) := by
  unfold sunRef
  simp only [List.map_cons]
  rw [average_first id _ _ ⟨rfl, fun _ _ => rfl⟩, average_first id _ _ ⟨rfl, fun _ _ => rfl⟩, average_first id _ _ ⟨rfl, fun _ _ => rfl⟩,
    rdiff_eq, rdiff_eq, rdiff_eq]

/-- **C159** And so are the two printed for the Moon. -/
theorem moon_averages_counterexample (fa : ℝ → ℝ × ℝ × ℝ × ℝ) (ref : ℝ → V3) (t : ℝ) (dates : List ℝ) :
    (moonRef id fa ref (t :: dates)).2 =
      (distance (moonApprox (fa (centuries t)).1 (fa (centuries t)).2.1 (fa (centuries t)).2.2.1 (fa (centuries t)).2.2.2
        (centuries t)) (ref t), distance (moonVallado (centuries t)) (ref t)) := by
  unfold moonRef
  simp only [List.map_cons]
  rw [average_first id _ _ ⟨rfl, fun _ _ => rfl⟩, average_first id _ _ ⟨rfl, fun _ _ => rfl⟩, rdiff_eq, rdiff_eq]

/-- A perfect first date and any others, however far off: an average of zero is printed. -/
theorem perfect_counterexample (ref : ℝ → V3) (t : ℝ) (h : ref t = sunVallado (centuries t)) (dates : List ℝ) :
    (sunRef id ref (t :: dates)).2.2.1 = 0 := by
  rw [sun_averages_counterexample, h]
  exact (distance_zero _ _).2 rfl

/-! ### Examples -/

example : average id [2, 4, 9] = 2 := average_first id 2 [4, 9] ⟨rfl, fun _ _ => rfl⟩

example : mean [2, 4, 9] = 5 := by norm_num [mean]

example : average id [5, 4, 6] = mean [5, 4, 6] := (average_mean_partial id 5 [4, 6] ⟨rfl, fun _ _ => rfl⟩).2 (by norm_num)

example : (sunRef id (fun t => sunVallado (centuries t)) [2451545, 2451546]).2.2.1 = 0 := perfect_counterexample _ _ rfl _

end Verif.SunMoon.Ref
