import Verif.Float.AngleProps
import Verif.Float.ShadowModel
import Verif.Float.StatModel
import Verif.Float.ClockModel
import Verif.Float.KeplerModel
import Verif.Float.DateModel
import Verif.Forces.ShadowProps
import Verif.Orbit.ClassicProps
import Verif.Pod.StatModel

/-!
C149: without rounding the functions in double arithmetic are the functions in exact arithmetic, whether the compiler
fuses operations or not.  So what separates their results is rounding and nothing else.
-/
namespace Verif.Float

open Verif.Astro (V3)
open Verif.Forces Verif.Orbit
open Real

/-! ### Vectors -/

theorem normSq_exact (fused : Bool) (v : V3) : normSqD id fused v = v.dot v := by
  unfold normSqD V3.dot
  cases fused <;> simp only [id, Bool.false_eq_true, if_false, if_true]
  ring

theorem norm_exact (fused : Bool) (v : V3) : normD id fused v = v.norm := by
  unfold normD V3.norm
  rw [normSq_exact]
  rfl

theorem dot_exact (a b : V3) : dotD id a b = a.dot b := rfl

theorem cross_exact (a b : V3) : crossD id a b = a.cross b := by
  simp [crossD, V3.cross]

/-- The value, where there is one, is `b`. -/
def Agrees (a : Option ℝ) (b : ℝ) : Prop := ∀ x, a = some x → x = b

theorem acos_agrees (o : Option ℝ) (t : ℝ) (h : Agrees o t) : Agrees (o.bind (acosD id)) (arccos t) := by
  intro x hx
  cases o with
  | none => cases hx
  | some y =>
    rw [Option.bind_some, acosD] at hx
    split at hx
    · cases hx; rw [h y rfl]; rfl
    · cases hx

theorem quot_agrees (n d : ℝ) : Agrees (quotD id n d) (n / d) := by
  intro x hx
  unfold quotD at hx
  split at hx
  · cases hx
  · cases hx; rfl

theorem quot2_agrees (n d e : ℝ) : Agrees ((quotD id n d).bind fun q => quotD id q e) (n / d / e) := by
  intro x hx
  cases h : quotD id n d with
  | none => rw [h] at hx; cases hx
  | some y =>
    rw [h, Option.bind_some] at hx
    rw [← quot_agrees n d y h]
    exact quot_agrees y e x hx

theorem turn_agrees (turn : ℝ) (b : Prop) (o : Option ℝ) (t : ℝ) (h : Agrees o t) :
    Agrees (turnD id turn b o) (open Classical in if b then turn - t else t) := by
  intro x hx
  unfold turnD at hx
  split at hx
  · rename_i hb
    rw [if_pos hb]
    cases o with
    | none => cases hx
    | some y =>
      cases hx
      rw [h y rfl]
      rfl
  · rename_i hb
    rw [if_neg hb]
    exact h x hx

theorem ecc_exact (pos vel : V3) (A B m : ℝ) :
    (⟨(pos.x * A - vel.x * B) / m, (pos.y * A - vel.y * B) / m, (pos.z * A - vel.z * B) / m⟩ : V3) =
      ((pos.smul A).sub (vel.smul B)).smul (1 / m) := by
  simp only [V3.smul, V3.sub]
  congr 1 <;> ring

/-- **C149** The elements of `state2kepler`: every angle that is a number is the exact one. -/
theorem elements_exact (fused : Bool) (pos vel : V3) (m : ℝ) :
    (state2keplerD id fused (2 * π) pos vel m).h = (state2kepler pos vel m).h ∧
    Agrees (state2keplerD id fused (2 * π) pos vel m).i (state2kepler pos vel m).i ∧
    Agrees (state2keplerD id fused (2 * π) pos vel m).Omega (state2kepler pos vel m).Omega ∧
    (state2keplerD id fused (2 * π) pos vel m).e = (state2kepler pos vel m).e ∧
    Agrees (state2keplerD id fused (2 * π) pos vel m).omega (state2kepler pos vel m).omega ∧
    Agrees (state2keplerD id fused (2 * π) pos vel m).theta (state2kepler pos vel m).theta := by
  unfold state2keplerD state2kepler
  simp only [norm_exact, dot_exact, cross_exact, id, ecc_exact]
  refine ⟨trivial, acos_agrees _ _ (quot_agrees _ _), turn_agrees _ _ _ _ (acos_agrees _ _ (quot_agrees _ _)), trivial,
    ?_, turn_agrees _ _ _ _ (acos_agrees _ _ (quot2_agrees _ _ _))⟩
  have e : ((pos.z * (vel.norm * vel.norm - m / pos.norm) - vel.z * (pos.norm * (pos.dot vel / pos.norm))) / m) =
      (V3.smul (1 / m) ((V3.smul (vel.norm * vel.norm - m / pos.norm) pos).sub
        (V3.smul (pos.norm * (pos.dot vel / pos.norm)) vel))).z := congrArg V3.z (ecc_exact _ _ _ _ _)
  rw [e]
  exact turn_agrees _ _ _ _ (acos_agrees _ _ (quot2_agrees _ _ _))

/-- **C149** Inclination and node of the alternative after Vallado. -/
theorem vallado_node_exact (fused : Bool) (r v : V3) (m : ℝ) :
    Agrees (valladoNodeD id fused (2 * π) r v).1 (vallado r v m).i ∧
    Agrees (valladoNodeD id fused (2 * π) r v).2 (vallado r v m).Omega := by
  unfold valladoNodeD vallado
  simp only [norm_exact, cross_exact]
  exact ⟨acos_agrees _ _ (quot_agrees _ _), turn_agrees _ _ _ _ (acos_agrees _ _ (quot_agrees _ _))⟩

/-- **C149** Eccentricity of the alternative after Montenbruck. -/
theorem montenbruck_ecc_exact (fused : Bool) (r v : V3) (m : ℝ) :
    Agrees (montenbruckEccD id fused r v m) (montenbruck r v m).e := by
  unfold montenbruckEccD montenbruck
  simp only [norm_exact, normSq_exact, cross_exact, id]
  intro x hx
  unfold sqrtD at hx
  split at hx
  · cases hx
  · cases hx; rfl

/-- **C149** Right ascension and declination. -/
theorem pos2ad_exact (fused : Bool) (pos : V3) :
    Agrees (pos2adD id fused (2 * π) pos).1 (pos2ad pos).1 ∧ Agrees (pos2adD id fused (2 * π) pos).2 (pos2ad pos).2 := by
  have hd : Agrees ((quotD id pos.z pos.norm).bind (asinD id)) (arcsin (pos.z / pos.norm)) := by
    intro x hx
    cases h : quotD id pos.z pos.norm with
    | none => rw [h] at hx; cases hx
    | some y =>
      rw [h, Option.bind_some, asinD] at hx
      split at hx
      · cases hx; rw [← quot_agrees _ _ y h]; rfl
      · cases hx
  unfold pos2adD pos2ad
  simp only [norm_exact]
  refine ⟨?_, hd⟩
  intro x hx
  cases hm : quotD id pos.y pos.norm with
  | none => rw [hm] at hx; cases hx
  | some y =>
    rw [hm, Option.bind_some, quot_agrees _ _ y hm] at hx
    refine turn_agrees _ _ _ _ ?_ x hx
    intro z hz
    cases h : (quotD id pos.z pos.norm).bind (asinD id) with
    | none => rw [h] at hz; cases hz
    | some d =>
      rw [h, Option.bind_some] at hz
      rw [← hd d h]
      cases hl : quotD id pos.x pos.norm with
      | none => rw [hl] at hz; cases hz
      | some l =>
        rw [hl, Option.bind_some] at hz
        rw [← quot_agrees _ _ l hl]
        exact acos_agrees _ _ (quot_agrees _ _) z hz

/-! ### Where the angles are numbers -/

theorem acos_some (n d : ℝ) (hd : 0 < d) (h1 : -d ≤ n) (h2 : n ≤ d) :
    (quotD id n d).bind (acosD id) = some (arccos (n / d)) := by
  have hr : -1 ≤ n / d ∧ n / d ≤ 1 := ⟨by rw [le_div_iff₀ hd]; linarith, by rw [div_le_one hd]; exact h2⟩
  simp [quotD, hd.ne', acosD, hr]

theorem acos_some2 (a b : V3) (ha : 0 < a.norm) (hb : 0 < b.norm) :
    ((quotD id (a.dot b) a.norm).bind fun q => quotD id q b.norm).bind (acosD id) =
      some (arccos (a.dot b / a.norm / b.norm)) := by
  have hc := cauchy a b
  have e1 : quotD id (a.dot b) a.norm = some (a.dot b / a.norm) := by simp [quotD, ha.ne']
  rw [e1, Option.bind_some]
  apply acos_some _ _ hb
  · rw [le_div_iff₀ ha]; linarith [hc.1]
  · rw [div_le_iff₀ ha]; linarith [hc.2]

theorem component_le (a : V3) : (-a.norm ≤ a.x ∧ a.x ≤ a.norm) ∧ (-a.norm ≤ a.y ∧ a.y ≤ a.norm) ∧ -a.norm ≤ a.z ∧ a.z ≤ a.norm := by
  have h0 := V3.norm_nonneg a
  have h1 : a.x * a.x + a.y * a.y + a.z * a.z = a.norm ^ 2 := by rw [sq, V3.norm_sq]; rfl
  have hx := mul_self_nonneg a.x
  have hy := mul_self_nonneg a.y
  have hz := mul_self_nonneg a.z
  exact ⟨abs_le.1 (abs_le_of_sq_le_sq (by nlinarith) h0), abs_le.1 (abs_le_of_sq_le_sq (by nlinarith) h0),
    abs_le.1 (abs_le_of_sq_le_sq (by nlinarith) h0)⟩

theorem turn_some (turn : ℝ) (b : Prop) (t : ℝ) :
    turnD id turn b (some t) = some (open Classical in if b then turn - t else t) := by
  unfold turnD
  split <;> rfl

/-- **C149** Off the degenerate orbits (no node, a circle) all angles of `state2kepler` are numbers, the exact ones. -/
theorem elements_numbers (fused : Bool) (pos vel : V3) (m : ℝ)
    (hn : ¬ ((pos.cross vel).x = 0 ∧ (pos.cross vel).y = 0)) (he : (state2kepler pos vel m).e ≠ 0) :
    (state2keplerD id fused (2 * π) pos vel m).i = some (state2kepler pos vel m).i ∧
    (state2keplerD id fused (2 * π) pos vel m).Omega = some (state2kepler pos vel m).Omega ∧
    (state2keplerD id fused (2 * π) pos vel m).omega = some (state2kepler pos vel m).omega ∧
    (state2keplerD id fused (2 * π) pos vel m).theta = some (state2kepler pos vel m).theta := by
  have hpos : 0 < pos.norm := V3.norm_pos pos (by rintro rfl; simp [V3.cross] at hn)
  have hh : 0 < (pos.cross vel).norm := V3.norm_pos _ (by intro h; rw [h] at hn; simp at hn)
  have hN : 0 < V3.norm ⟨-(pos.cross vel).y, (pos.cross vel).x, 0⟩ := by
    apply V3.norm_pos
    intro h
    have h1 := congrArg V3.x h
    have h2 := congrArg V3.y h
    simp only [neg_eq_zero] at h1 h2
    exact hn ⟨h2, h1⟩
  unfold state2keplerD
  unfold state2kepler at he ⊢
  simp only [norm_exact, dot_exact, cross_exact, id, ecc_exact] at he ⊢
  have e : ((pos.z * (vel.norm * vel.norm - m / pos.norm) - vel.z * (pos.norm * (pos.dot vel / pos.norm))) / m) =
      (V3.smul (1 / m) ((V3.smul (vel.norm * vel.norm - m / pos.norm) pos).sub
        (V3.smul (pos.norm * (pos.dot vel / pos.norm)) vel))).z := congrArg V3.z (ecc_exact _ _ _ _ _)
  rw [e]
  generalize V3.smul (1 / m) ((V3.smul (vel.norm * vel.norm - m / pos.norm) pos).sub
        (V3.smul (pos.norm * (pos.dot vel / pos.norm)) vel)) = ev at he ⊢
  have hE : 0 < ev.norm := lt_of_le_of_ne (V3.norm_nonneg ev) (Ne.symm he)
  have hz := component_le (pos.cross vel)
  have hx := component_le ⟨-(pos.cross vel).y, (pos.cross vel).x, 0⟩
  rw [acos_some _ _ hh hz.2.2.1 hz.2.2.2, acos_some _ _ hN hx.1.1 hx.1.2, acos_some2 _ _ hN hE,
    acos_some2 _ _ hE hpos]
  exact ⟨rfl, turn_some _ _ _, turn_some _ _ _, turn_some _ _ _⟩

/-- **C149** Off the axis right ascension and declination are numbers, the exact ones. -/
theorem pos2ad_numbers (fused : Bool) (pos : V3) (h : ¬ (pos.x = 0 ∧ pos.y = 0)) :
    pos2adD id fused (2 * π) pos = (some (pos2ad pos).1, some (pos2ad pos).2) := by
  have hp : 0 < pos.norm := V3.norm_pos pos (by rintro rfl; simp at h)
  have hz := (component_le pos).2.2
  have hr : -1 ≤ pos.z / pos.norm ∧ pos.z / pos.norm ≤ 1 :=
    ⟨by rw [le_div_iff₀ hp]; linarith [hz.1], by rw [div_le_one hp]; exact hz.2⟩
  have hd : asinD id (pos.z / pos.norm) = some (arcsin (pos.z / pos.norm)) := by
    simp [asinD, hr]
  have hc : cos (arcsin (pos.z / pos.norm)) = √((pos.x * pos.x + pos.y * pos.y) / pos.norm ^ 2) := by
    rw [cos_arcsin]
    congr 1
    have := V3.norm_sq pos
    unfold V3.dot at this
    field_simp
    linarith
  have hxy : 0 < pos.x * pos.x + pos.y * pos.y := by
    rcases not_and_or.1 h with h | h
    · nlinarith [mul_self_pos.2 h, mul_self_nonneg pos.y]
    · nlinarith [mul_self_pos.2 h, mul_self_nonneg pos.x]
  have hc0 : 0 < cos (arcsin (pos.z / pos.norm)) := by
    rw [hc]; exact sqrt_pos.2 (by positivity)
  have hl : |pos.x / pos.norm| ≤ cos (arcsin (pos.z / pos.norm)) := by
    rw [hc]
    apply abs_le_sqrt
    rw [div_pow]
    apply div_le_div_of_nonneg_right _ (by positivity)
    nlinarith [mul_self_nonneg pos.y]
  have hl' := abs_le.1 hl
  have hm : ∀ n, quotD id n pos.norm = some (n / pos.norm) := fun n => by simp [quotD, hp.ne']
  unfold pos2adD pos2ad
  simp only [norm_exact, Option.bind_some, hm, hd, id]
  rw [acos_some _ _ hc0 hl'.1 hl'.2, turn_some]

/-! ### Shadows -/

theorem acosQ_exact (n d : ℝ) : (quotD id n d).bind (acosD id) = acosQ n d := by
  unfold quotD acosQ acosD
  by_cases h : d = 0
  · simp [h]
  · simp [h]

theorem asinQ_exact (n d : ℝ) : (quotD id n d).bind (asinD id) = asinQ n d := by
  unfold quotD asinQ asinD
  by_cases h : d = 0
  · simp [h]
  · simp [h]

/-- **C149** The shadow after Montenbruck. -/
theorem montebruck_exact (fused : Bool) (Re : ℝ) (rsat rsun : V3) :
    montebruckShadowD id fused Re rsat rsun = shadowV Re rsat rsun := by
  unfold montebruckShadowD projectD shadowV
  simp only [norm_exact, dot_exact, id]
  have e : (⟨rsun.x / rsun.norm, rsun.y / rsun.norm, rsun.z / rsun.norm⟩ : V3) = rsun.smul (1 / rsun.norm) := by
    simp only [V3.smul]
    congr 1 <;> ring
  have e1 : rsun.x / rsun.norm = (rsun.smul (1 / rsun.norm)).x := congrArg V3.x e
  have e2 : rsun.y / rsun.norm = (rsun.smul (1 / rsun.norm)).y := congrArg V3.y e
  have e3 : rsun.z / rsun.norm = (rsun.smul (1 / rsun.norm)).z := congrArg V3.z e
  rw [e, e1, e2, e3]
  rfl

/-- **C149** The overlap of the two discs. -/
theorem conical_angles_exact (te ts tes : ℝ) : conicalAnglesD id te ts tes = conicalAngles te ts tes := by
  unfold conicalAnglesD conicalAngles
  simp only [acosQ_exact, id]
  split
  · rfl
  · split
    · rfl
    · by_cases h : ts = 0
      · subst h
        simp [acosQ]
      · have hp : π * (ts * ts) ≠ 0 := mul_ne_zero pi_ne_zero (mul_ne_zero h h)
        simp only [quotD, if_neg hp, id, Option.map_some]

/-- **C149** The conical shadow. -/
theorem conical_exact (fused : Bool) (Re Rs : ℝ) (rsat rsun : V3) :
    conicalShadowD id fused Re Rs rsat rsun = conicalShadow Re Rs rsat rsun := by
  unfold conicalShadowD conicalShadow
  simp only [norm_exact, dot_exact, id, asinQ_exact, acosQ_exact, conical_angles_exact]
  rfl

/-- **C149** The shadow on the stretched Earth. -/
theorem bernese_exact (fused : Bool) (f Re : ℝ) (rsat rsun : V3) :
    berneseShadowD id fused (1 + f) Re rsat rsun = berneseShadow f Re rsat rsun := by
  unfold berneseShadowD berneseShadow
  simp only [norm_exact, normSq_exact, dot_exact, id, ite_self]
  have e1 : (⟨rsat.x, rsat.y, rsat.z * (1 + f)⟩ : V3) = stretch f rsat := rfl
  have e2 : (⟨rsun.x, rsun.y, rsun.z * (1 + f)⟩ : V3) = stretch f rsun := rfl
  rw [e1, e2]
  generalize stretch f rsat = a
  generalize stretch f rsun = b
  by_cases h : b.norm = 0
  · simp [quotD, h]
  · have hb : 0 < b.norm := lt_of_le_of_ne (V3.norm_nonneg b) (Ne.symm h)
    simp only [quotD, if_neg h, id]
    have hc := cauchy a b
    have hsq : a.dot b / b.norm * (a.dot b / b.norm) ≤ a.dot a := by
      rw [← V3.norm_sq a]
      have h1 : a.dot b / b.norm ≤ a.norm := (div_le_iff₀ hb).2 hc.2
      have h2 : -a.norm ≤ a.dot b / b.norm := by
        rw [le_div_iff₀ hb]; linarith [hc.1]
      nlinarith [V3.norm_nonneg a]
    have hs : sqrtD id (a.dot a - a.dot b / b.norm * (a.dot b / b.norm)) =
        some √(a.dot a - a.dot b / b.norm * (a.dot b / b.norm)) := by
      unfold sqrtD
      rw [if_neg (by linarith)]
      rfl
    rw [hs]
    simp

/-- **C149** The shadow after Vallado, with the constants of the code. -/
theorem vallado_exact (fused : Bool) (Re Rs AU : ℝ) (rsat rsun : V3) :
    valladoShadowD id fused (tan (arcsin ((Rs + Re) / AU))) (Re / ((Rs + Re) / AU)) (tan (arcsin ((Rs - Re) / AU)))
      (Re / ((Rs - Re) / AU)) rsat rsun = valladoShadow Re Rs AU rsat rsun := by
  unfold valladoShadowD valladoShadow
  simp only [norm_exact, dot_exact, id]
  split
  · rfl
  · rename_i hneg
    have hc := cauchy rsat rsun
    have hp : rsat.norm * rsun.norm ≠ 0 := by
      intro h
      rw [h] at hc
      linarith [hc.1, not_le.1 hneg]
    have hpos : 0 < rsat.norm * rsun.norm :=
      lt_of_le_of_ne (mul_nonneg (V3.norm_nonneg _) (V3.norm_nonneg _)) (Ne.symm hp)
    have hr : -1 ≤ rsat.dot rsun / (rsat.norm * rsun.norm) ∧ rsat.dot rsun / (rsat.norm * rsun.norm) ≤ 1 :=
      ⟨by rw [le_div_iff₀ hpos]; linarith [hc.1], by rw [div_le_one hpos]; exact hc.2⟩
    simp only [quotD, if_neg hp, id, acosD, if_pos hr, Option.map_some, leO, norm_exact]

/-! ### Statistics, epochs, Kepler's equation -/

/-- The exact statistics. -/
def Stat.exact (s : Stat ℝ) : Verif.Pod.Running := ⟨s.mean, s.var, s.k⟩

theorem stat_update_exact (fused : Bool) (s : Stat ℝ) (x : ℝ) : (s.update id fused x).exact = s.exact.update x := by
  unfold Stat.update Stat.exact Verif.Pod.Running.update
  cases fused <;> rfl

/-- **C149** The running statistics. -/
theorem stat_exact (fused : Bool) (xs : List ℝ) :
    (Stat.after id fused xs).exact = Verif.Pod.Running.after xs ∧
      (Stat.after id fused xs).variance id = (Verif.Pod.Running.after xs).variance := by
  have h : ∀ (xs : List ℝ) (s : Stat ℝ), (xs.foldl (Stat.update id fused) s).exact =
      xs.foldl Verif.Pod.Running.update s.exact := by
    intro xs
    induction xs with
    | nil => intro s; rfl
    | cons x xs ih => intro s; rw [List.foldl_cons, List.foldl_cons, ih, stat_update_exact]
  have h1 : (Stat.after id fused xs).exact = Verif.Pod.Running.after xs := h xs Stat.new
  refine ⟨h1, ?_⟩
  rw [← h1]
  rfl

/-- **C149** The epochs of the observations: the clock offset and the offset of the second frequency are added to the
nanosecond. -/
theorem epochs_exact (epoch k l21 : ℤ) :
    l1EpochD id true epoch (some k) = epoch ∧ l1EpochD id false epoch (some k) = epoch + k ∧
    l1EpochD id true epoch none = epoch ∧ l1EpochD id false epoch none = epoch ∧
    l1l2EpochsD id false l21 epoch k = (epoch + k, epoch + k + l21) ∧
    l1l2EpochsD id true l21 epoch k = (epoch, epoch + l21) := by
  have h : ∀ (S : ℕ) (k : ℤ), S ≠ 0 → toUnits id S (readField id S k) = k := by
    intro S k hS
    have hS' : (S : ℚ) ≠ 0 := by exact_mod_cast hS
    simp only [toUnits, readField, id]
    rw [div_mul_cancel₀ _ hS']
    unfold Verif.Rinex.truncInt
    simp
  have h0 : toUnits id (10 ^ 9) 0 = 0 := by
    have := h (10 ^ 9) 0 (by norm_num)
    simpa [readField] using this
  norm_num at h0
  simp [l1EpochD, l1l2EpochsD, l21OffsetD, h, h0]

theorem arg02pi_exact (a : ℝ) : arg02piD id a = Verif.Astro.arg02pi a := by
  unfold arg02piD Verif.Astro.arg02pi
  simp only [id]
  split <;> simp

theorem kepler_loop_exact (fused : Bool) (e M tol : ℝ) (fuel : Nat) (E : ℝ) (it : Nat) :
    loopD (residD id sin fused e M) (stepK id sin cos fused e M) tol fuel E it = Verif.Astro.keplerLoop e M tol fuel E it := by
  induction fuel generalizing E it with
  | zero => rfl
  | succ n ih =>
    have h1 : residD id sin fused e M E = E - e * sin E - M := by
      unfold residD mulR; cases fused <;> rfl
    have h2 : stepK id sin cos fused e M E = E - (E - e * sin E - M) / (1 - e * cos E) := by
      unfold stepK denD mulR; rw [h1]; cases fused <;> rfl
    rw [loopD, Verif.Astro.keplerLoop, ih, h1, h2]

theorem vallado_loop_exact (fused : Bool) (e M tol : ℝ) (fuel : Nat) (E : ℝ) (it : Nat) :
    loopD (fun E => id (E - stepV id sin cos fused e M E)) (stepV id sin cos fused e M) tol fuel E it =
      Verif.Astro.valladoLoop e M tol fuel E it := by
  induction fuel generalizing E it with
  | zero => rfl
  | succ n ih =>
    have h2 : stepV id sin cos fused e M E = E + (M - E + e * sin E) / (1 - e * cos E) := by
      unfold stepV denD mulR; cases fused <;> rfl
    rw [loopD, Verif.Astro.valladoLoop, ih, h2]
    rfl

/-- **C149** Both solvers of Kepler's equation: anomaly and status. -/
theorem kepler_exact (fused : Bool) (e M tol : ℝ) :
    keplerD id sin cos fused e M tol = Verif.Astro.kepler e M tol ∧
      valladoD id sin cos fused e M tol = Verif.Astro.keplerVallado e M tol := by
  constructor
  · unfold keplerD Verif.Astro.kepler
    simp only [arg02pi_exact, kepler_loop_exact, id]
  · unfold valladoD Verif.Astro.keplerVallado
    simp only [arg02pi_exact, vallado_loop_exact]
    rfl

example : (state2keplerD id true (2 * π) exR exV 1).i = some (state2kepler exR exV 1).i ∧
    (state2keplerD id true (2 * π) exR exV 1).theta = some (state2kepler exR exV 1).theta := by
  have h := elements_numbers true exR exV 1 (by rw [ex_cross]; norm_num) (by
    have e : (state2kepler exR exV 1).e = 3 / 5 := by
      have hv : exV.norm * exV.norm = exV.dot exV := V3.norm_sq exV
      unfold state2kepler
      simp only [hv, exR_norm]
      unfold V3.norm exR exV
      rw [show (3 : ℝ) / 5 = √((3 / 5) ^ 2) by rw [Real.sqrt_sq (by norm_num)]]
      congr 1
      norm_num [V3.dot, V3.smul, V3.sub]
    rw [e]; norm_num)
  exact ⟨h.1, h.2.2.2⟩

example : pos2adD id false (2 * π) ⟨3, 4, 12⟩ = (some (pos2ad ⟨3, 4, 12⟩).1, some (pos2ad ⟨3, 4, 12⟩).2) :=
  pos2ad_numbers false _ (by norm_num)

example : (Stat.after id true ([1, 2, 6] : List ℝ)).variance id = 14 / 3 := by
  rw [(stat_exact true [1, 2, 6]).2]
  norm_num [Verif.Pod.Running.after, Verif.Pod.Running.variance, Verif.Pod.Running.update, Verif.Pod.Running.new]

example : l1EpochD id false (10 ^ 18) (some (-3)) = 10 ^ 18 - 3 := by
  rw [(epochs_exact (10 ^ 18) (-3) 0).2.1]; norm_num

end Verif.Float
