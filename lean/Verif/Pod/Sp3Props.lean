import Verif.Pod.Sp3Model
import Verif.Variational.Props
import Verif.Forces.Frames
import Mathlib.Tactic.IntervalCases
import Mathlib.Tactic.NormNum

/-
C134: the records of an SP3 file propagated by the test programs.
-/
namespace Verif.Pod.Sp3

open Verif.Astro Verif.Forces Verif.Variational Verif.Pod

/-! ### Which lines -/

/-- The elements up to the first that satisfies `p`, including it. -/
def upto {α : Type} (p : α → Prop) [DecidablePred p] : List α → List α
  | [] => []
  | a :: l => if p a then [a] else a :: upto p l

/-- More than half a day after the beginning. -/
def late {α : Type} (t0 : ℤ) (l : ℤ × α) : Prop := l.1 - t0 > 12 * 3600 * 1000000000

instance {α : Type} (t0 : ℤ) : DecidablePred (late (α := α) t0) := fun l =>
  inferInstanceAs (Decidable (l.1 - t0 > 12 * 3600 * 1000000000))

/-- The lines for a file: one for every record with a position, up to the first that is late, at most 1000. -/
def wanted {α β : Type} (ok : β → Bool) (line : β → ℤ × α) (t0 : ℤ) (bs : List β) : List (ℤ × α) :=
  upto (late t0) (((bs.filter ok).map line).take 1000)

/-- The list is complete for one of the two limits. -/
def Stopped {α : Type} (t0 : ℤ) (n : Nat) (w : List (ℤ × α)) : Prop := n + w.length = 1000 ∨ ∃ l ∈ w, late t0 l

theorem loop_spec {α β : Type} (ok : β → Bool) (line : β → ℤ × α) (t0 : ℤ) (e : Int) (b : β) (he : e ≠ 0) (bs : List β) :
    ∀ (epoch : ℤ) (n : Nat) (out : List (ℤ × α)), ¬ epoch - t0 > 12 * 3600 * 1000000000 → n < 1000 →
    ∃ r, loop ok line t0 (bs.map (fun b => (0, b)) ++ [(e, b)]) epoch n out = some r ∧
      let w := upto (late t0) (((bs.filter ok).map line).take (1000 - n))
      let ex := if ok b then [line b] else []
      (Stopped t0 n w → r = ⟨out ++ w, some (n + w.length), 0⟩) ∧
      (¬ Stopped t0 n w → r = if e > 0 then ⟨out ++ w, none, 1⟩
        else ⟨out ++ w ++ ex, some (n + w.length + ex.length), if e = -1 then 1 else 0⟩) := by
  induction bs with
  | nil =>
    intro epoch n out h1 h2
    refine ⟨if e > 0 then ⟨out, none, 1⟩ else ⟨out ++ (if ok b then [line b] else []),
      some (n + (if ok b then [line b] else []).length), if e = -1 then 1 else 0⟩, ?_, ?_⟩
    · by_cases h3 : e > 0
      · simp [loop, h3]
      · cases hb : ok b <;> simp [loop, h3, hb, he]
    · simp only [List.filter_nil, List.map_nil, List.take_nil, upto, List.append_nil, List.length_nil, add_zero]
      refine ⟨?_, fun _ => trivial⟩
      rintro (h | ⟨l, hl, _⟩)
      · simp at h; omega
      · simp at hl
  | cons a bs ih =>
    intro epoch n out h1 h2
    cases ha : ok a with
    | false =>
      obtain ⟨r, hr, h⟩ := ih epoch n out h1 h2
      refine ⟨r, ?_, ?_⟩
      · rw [List.map_cons, List.cons_append]
        unfold loop
        simp only [ha, Bool.false_eq_true, if_false]
        rw [if_neg (by decide), if_neg h1, if_pos ⟨trivial, h2⟩]
        exact hr
      · rw [List.filter_cons_of_neg (by rw [ha]; decide)]
        exact h
    | true =>
      have hlen : 1000 - n = (1000 - (n + 1)) + 1 := by omega
      by_cases h3 : late t0 (line a)
      · have h3' : (line a).1 - t0 > 12 * 3600 * 1000000000 := h3
        refine ⟨⟨out ++ [line a], some (n + 1), 0⟩, ?_, ?_⟩
        · rw [List.map_cons, List.cons_append]
          unfold loop
          simp only [ha, if_true]
          rw [if_neg (by decide), if_pos h3']
          rfl
        · simp only [List.filter_cons_of_pos ha, List.map_cons]
          rw [hlen, List.take_succ_cons]
          unfold upto
          rw [if_pos h3]
          refine ⟨fun _ => rfl, fun h => absurd (Or.inr ⟨line a, by simp, h3⟩) h⟩
      · have h3' : ¬ (line a).1 - t0 > 12 * 3600 * 1000000000 := h3
        by_cases h4 : n + 1 < 1000
        · obtain ⟨r, hr, h⟩ := ih (line a).1 (n + 1) (out ++ [line a]) h3 h4
          refine ⟨r, ?_, ?_⟩
          · rw [List.map_cons, List.cons_append]
            unfold loop
            simp only [ha, if_true]
            rw [if_neg (by decide), if_neg h3', if_pos ⟨trivial, h4⟩]
            exact hr
          · simp only [List.filter_cons_of_pos ha, List.map_cons]
            rw [hlen, List.take_succ_cons]
            unfold upto
            rw [if_neg h3]
            simp only at h
            generalize upto (late t0) (((bs.filter ok).map line).take (1000 - (n + 1))) = w at *
            have hs : Stopped t0 n (line a :: w) ↔ Stopped t0 (n + 1) w := by
              unfold Stopped
              simp only [List.length_cons, List.mem_cons, exists_eq_or_imp, h3, false_or]
              rw [show n + (w.length + 1) = n + 1 + w.length by omega]
            have e1 : out ++ [line a] ++ w = out ++ line a :: w := by simp
            have e2 : n + 1 + w.length = n + (line a :: w).length := by simp; omega
            rw [hs, ← e1, ← e2]
            exact h
        · have hn : n = 999 := by omega
          subst hn
          refine ⟨⟨out ++ [line a], some 1000, 0⟩, ?_, ?_⟩
          · rw [List.map_cons, List.cons_append]
            unfold loop
            simp only [ha, if_true]
            rw [if_neg (by decide), if_neg h3', if_neg (by omega)]
            rfl
          · simp only [List.filter_cons_of_pos ha, List.map_cons]
            rw [hlen, List.take_succ_cons]
            simp only [Nat.sub_self, List.take_zero]
            unfold upto
            rw [if_neg h3]
            refine ⟨fun _ => rfl, fun h => absurd (Or.inl (by simp [upto])) h⟩

/-- **C134** The lines printed for a file with the records `bs`, after which the reader has the status `e`, leaving
the block `b`: those wanted, if one of the limits is reached before the end.  After an error those of the records
before.  Missing: the end of the file without reaching a limit, where there may be a line too many. -/
theorem lines_partial {α β : Type} (ok : β → Bool) (line : β → ℤ × α) (t0 : ℤ) (e : Int) (b : β) (he : e ≠ 0)
    (bs : List β) (h : Stopped t0 0 (wanted ok line t0 bs) ∨ e > 0) :
    (loop ok line t0 (bs.map (fun b => (0, b)) ++ [(e, b)]) t0 0 []).map (·.lines) = some (wanted ok line t0 bs) := by
  obtain ⟨r, hr, h1, h2⟩ := loop_spec ok line t0 e b he bs t0 0 [] (by omega) (by omega)
  rw [hr]
  unfold wanted at *
  by_cases hs : Stopped t0 0 (upto (late t0) (((bs.filter ok).map line).take 1000))
  · rw [h1 hs]; rfl
  · rw [h2 hs, if_pos (h.resolve_left hs)]; rfl

/-- **C134** At the end of the file the block is used once more: with a reader that leaves the last record in the
block, every file within the limits has its last line printed twice, is counted with one record too many, and the
program reports failure. -/
theorem last_record_counterexample {α β : Type} (ok : β → Bool) (line : β → ℤ × α) (t0 : ℤ) (bs : List β) (b : β)
    (hb : ok b = true) (hs : ¬ Stopped t0 0 (wanted ok line t0 (bs ++ [b]))) :
    loop ok line t0 ((bs ++ [b]).map (fun b => (0, b)) ++ [(-1, b)]) t0 0 [] =
      some ⟨wanted ok line t0 (bs ++ [b]) ++ [line b], some ((wanted ok line t0 (bs ++ [b])).length + 1), 1⟩ := by
  obtain ⟨r, hr, h1, h2⟩ := loop_spec ok line t0 (-1) b (by decide) (bs ++ [b]) t0 0 [] (by omega) (by omega)
  rw [hr]
  unfold wanted at *
  rw [h2 hs, if_neg (by decide), hb]
  simp

/-- A file with two records one minute apart. -/
example : loop (fun _ : ℤ => true) (fun t => (t, ())) 0 [(0, 0), (0, 60000000000), (-1, 60000000000)] 0 0 [] =
    some ⟨[(0, ()), (60000000000, ()), (60000000000, ())], some 3, 1⟩ := by decide

/-- Two records 13 hours apart, and a third that is not used. -/
example : loop (fun _ : ℤ => true) (fun t => (t, ())) 0
    [(0, 0), (0, 46800000000000), (0, 46860000000000), (-1, 46860000000000)] 0 0 [] =
    some ⟨[(0, ()), (46800000000000, ())], some 2, 0⟩ := by decide

/-! ### What is on a line -/

/-- The initial values: state and identity. -/
theorem initial_eq (y : V3 × V3) (n : Nat) :
    initial y n = if n < 6 then stateComp y n
      else if n < 42 ∧ (n - 6) / 6 = (n - 6) % 6 then 1 else 0 := by
  by_cases h : n < 42
  · have : ∀ m < 42, initial y m = if m < 6 then stateComp y m
        else if m < 42 ∧ (m - 6) / 6 = (m - 6) % 6 then 1 else 0 := by
      intro m hm
      interval_cases m <;> simp [initial, identityLoop, set, stateComp, List.range, List.range.loop, List.range']
    exact this n h
  · have h6 : ¬ n < 6 := by omega
    rw [if_neg h6, if_neg (fun c => h c.1)]
    unfold initial identityLoop
    have hset : ∀ (y : Nat → ℝ) (k : Nat) (a : ℝ), k < 42 → set y k a n = y n := by
      intro y k a hk
      unfold set
      rw [if_neg (by omega)]
    simp only [List.range, List.range.loop, List.range', List.flatMap_cons, List.flatMap_nil, List.map_cons, List.map_nil,
      List.cons_append, List.nil_append, List.append_nil, List.foldl_cons, List.foldl_nil]
    repeat rw [hset _ _ _ (by omega)]
    split <;> first | omega | rfl

theorem initial_state (y : V3 × V3) : vec (initial y) 0 = y.1 ∧ vec (initial y) 3 = y.2 := by
  unfold vec
  simp only [initial_eq]
  exact ⟨rfl, rfl⟩

/-- **C134** The integration starts with the identity as transition matrix, all six columns of it. -/
theorem initial_transition (y : V3 × V3) (i j : Nat) (hi : i < 6) (hj : j < 6) :
    phi (initial y) i j = if i = j then 1 else 0 := by
  unfold phi
  rw [initial_eq, if_neg (by omega)]
  interval_cases i <;> interval_cases j <;> simp

/-- The integrator carries celestial states of a motion along it. -/
def Follows (X : Ext) (cel : ℤ → V3 × V3) : Prop :=
  ∀ (t N : ℤ) (y : Nat → ℝ), vec y 0 = (cel t).1 → vec y 3 = (cel t).2 →
    (X.de (X.mjd t) y (N / 10 ^ 9)).1 = N / 10 ^ 9 ∧
    vec (X.de (X.mjd t) y (N / 10 ^ 9)).2 0 = (cel (t + N)).1 ∧ vec (X.de (X.mjd t) y (N / 10 ^ 9)).2 3 = (cel (t + N)).2

/-- The matrices of the frames are orthogonal. -/
def Frames (X : Ext) : Prop := ∀ m, M3.Orthogonal (X.rc2i m) ∧ M3.Orthogonal (X.rpom m)

/-- **C134** For a record that is the terrestrial state of a motion which the integrator follows, the line has the
terrestrial state of the same motion after the interval, for every interval of whole nanoseconds forward in time.
Missing: intervals backwards. -/
theorem line_partial (X : Ext) (hX : Frames X) (cel : ℤ → V3 × V3) (hde : Follows X cel) (b : Block)
    (hb : b.state = X.toTer (X.mjd b.t) (cel b.t)) (N : ℤ) (h0 : 0 ≤ N) (h1 : N < 2 ^ 64) :
    X.line (N / 10 ^ 9) b = (b.t + N, X.toTer (X.mjd (b.t + N)) (cel (b.t + N))) := by
  have hcel : X.toCel (X.mjd b.t) b.state = cel b.t := by
    rw [hb]
    exact state_round_trip_partial X.w _ _ _ _ (hX _).1 (hX _).2
  obtain ⟨i0, i3⟩ := initial_state (cel b.t)
  obtain ⟨d1, d2, d3⟩ := hde b.t N (initial (cel b.t)) i0 i3
  have hn : X.nanos (N / 10 ^ 9) = N := by
    unfold Ext.nanos
    have : (N : ℝ) / 10 ^ 9 * 10 ^ 9 = N := by norm_num
    rw [this, if_pos ⟨by exact_mod_cast h0, by exact_mod_cast h1⟩, Int.floor_intCast]
  unfold Ext.line
  simp only [hcel, d1, d2, d3, hn]

/-- **C134** If the integrator stops elsewhere, the epoch printed is that time cut to nanoseconds. -/
theorem epoch_error (X : Ext) (step : ℝ) (b : Block)
    (h : 0 ≤ (X.de (X.mjd b.t) (initial (X.toCel (X.mjd b.t) b.state)) step).1 * 10 ^ 9)
    (h1 : (X.de (X.mjd b.t) (initial (X.toCel (X.mjd b.t) b.state)) step).1 * 10 ^ 9 < 2 ^ 64) :
    ((X.line step b).1 : ℝ) ≤ b.t + (X.de (X.mjd b.t) (initial (X.toCel (X.mjd b.t) b.state)) step).1 * 10 ^ 9 ∧
    b.t + (X.de (X.mjd b.t) (initial (X.toCel (X.mjd b.t) b.state)) step).1 * 10 ^ 9 < (X.line step b).1 + 1 := by
  have hl : (X.line step b).1 = b.t + ⌊(X.de (X.mjd b.t) (initial (X.toCel (X.mjd b.t) b.state)) step).1 * 10 ^ 9⌋ := by
    unfold Ext.line Ext.nanos
    simp only
    rw [if_pos ⟨h, h1⟩]
  rw [hl]
  push_cast
  constructor
  · have := Int.floor_le ((X.de (X.mjd b.t) (initial (X.toCel (X.mjd b.t) b.state)) step).1 * 10 ^ 9)
    linarith
  · have := Int.lt_floor_add_one ((X.de (X.mjd b.t) (initial (X.toCel (X.mjd b.t) b.state)) step).1 * 10 ^ 9)
    linarith

/-- A satellite at rest in a frame at rest. -/
noncomputable def still (ulong : ℝ → ℤ) : Ext where
  w := 0
  rc2i _ := M3.one
  era _ := 0
  rpom _ := M3.one
  de _ y t := (t, y)
  mjd t := t
  ulong := ulong

theorem one_orthogonal : M3.Orthogonal M3.one := by
  unfold M3.Orthogonal; ext <;> simp [M3.mul, M3.mulVec, M3.one, M3.transpose, V3.dot]

/-- The hypotheses of `line_partial` can be met. -/
example : Frames (still fun _ => 0) ∧ Follows (still fun _ => 0) (fun _ => (⟨7000000, 0, 0⟩, ⟨0, 0, 0⟩)) :=
  ⟨fun _ => ⟨one_orthogonal, one_orthogonal⟩, fun _ _ _ h0 h3 => ⟨rfl, h0, h3⟩⟩

/-- **C134** For an interval backwards, which the command line of the first program accepts, the epoch printed is
any number: a negative number is converted to an unsigned type. -/
theorem backwards_counterexample (k : ℤ) : ∃ (X : Ext) (cel : ℤ → V3 × V3) (b : Block), Frames X ∧ Follows X cel ∧
    b.state = X.toTer (X.mjd b.t) (cel b.t) ∧ (X.line (-1) b).1 = k := by
  refine ⟨still fun _ => k, fun _ => (still fun _ => k).toCel 0 (⟨0, 0, 0⟩, ⟨0, 0, 0⟩), ⟨0, true, ⟨0, 0, 0⟩, ⟨0, 0, 0⟩⟩,
    fun _ => ⟨one_orthogonal, one_orthogonal⟩, fun _ _ _ h0 h3 => ⟨rfl, h0, h3⟩, ?_, ?_⟩
  · have : (still fun _ => k).toTer ((still fun _ => k).mjd 0) ((still fun _ => k).toCel 0 (⟨0, 0, 0⟩, ⟨0, 0, 0⟩))
        = (⟨0, 0, 0⟩, ⟨0, 0, 0⟩) := state_round_trip'_partial _ _ _ _ _ one_orthogonal one_orthogonal
    show (V3.smul 1000 ⟨0, 0, 0⟩, V3.smul (1 / 10) ⟨0, 0, 0⟩) = _
    rw [this]
    simp [V3.smul]
  · unfold Ext.line Ext.nanos still
    simp only
    rw [if_neg (by norm_num)]
    simp

/-! ### Accelerations -/

/-- **C134** In the second program the accelerations by Sun and Moon are those of bodies with the mass of the Earth:
they are right only if the body has that mass or does not attract the satellite at all. -/
theorem body_mass_iff (GMe GM : ℝ) (hGM : GM ≠ 0) (r s : V3) :
    pointMass GMe r s = pointMass GM r s ↔ GMe = GM ∨ pointMass GM r s = ⟨0, 0, 0⟩ := by
  unfold pointMass
  simp only
  generalize ((r.sub s).smul (1 / ((r.sub s).norm * (r.sub s).dot (r.sub s)))).add (s.smul (1 / (s.norm * s.dot s))) = a
  simp only [V3.smul, V3.mk.injEq]
  constructor
  · rintro ⟨h1, h2, h3⟩
    by_cases h : GMe = GM
    · exact Or.inl h
    · right
      have hne : GM - GMe ≠ 0 := sub_ne_zero.mpr (Ne.symm h)
      have k1 : a.x = 0 := by
        have : (GM - GMe) * a.x = 0 := by linarith
        exact (mul_eq_zero.mp this).resolve_left hne
      have k2 : a.y = 0 := by
        have : (GM - GMe) * a.y = 0 := by linarith
        exact (mul_eq_zero.mp this).resolve_left hne
      have k3 : a.z = 0 := by
        have : (GM - GMe) * a.z = 0 := by linarith
        exact (mul_eq_zero.mp this).resolve_left hne
      simp [k1, k2, k3]
  · rintro (h | ⟨h1, h2, h3⟩)
    · simp [h]
    · have hne : -GM ≠ 0 := neg_ne_zero.mpr hGM
      have k1 := (mul_eq_zero.mp h1).resolve_left hne
      have k2 := (mul_eq_zero.mp h2).resolve_left hne
      have k3 := (mul_eq_zero.mp h3).resolve_left hne
      simp [k1, k2, k3]

/-- **C134** The acceleration by the Sun in the second program differs from the right one, for instance for a
satellite between the Earth and a Sun of another mass. -/
theorem body_mass_counterexample (GMe GMSun : ℝ) (h0 : 0 < GMSun) (h : GMe ≠ GMSun * 1000 ^ 3) (rmon : V3) :
    (fitSunMoon GMe ⟨3, 0, 0⟩ rmon ⟨1000, 0, 0⟩).1 ≠ pointMass (GMSun * 1000 ^ 3) ⟨1000, 0, 0⟩ (V3.smul 1000 ⟨3, 0, 0⟩) := by
  intro c
  have hpos : (0 : ℝ) < GMSun * 1000 ^ 3 := by positivity
  rcases (body_mass_iff GMe (GMSun * 1000 ^ 3) hpos.ne' _ _).mp c with h' | h'
  · exact h h'
  · have hx := congrArg V3.x h'
    have hn : ∀ a : ℝ, V3.norm ⟨a, 0, 0⟩ = |a| := norm_unit
    have e2 : V3.smul 1000 ⟨3, 0, 0⟩ = (⟨3000, 0, 0⟩ : V3) := by ext <;> norm_num [V3.smul]
    have e1 : V3.sub ⟨1000, 0, 0⟩ ⟨3000, 0, 0⟩ = (⟨-2000, 0, 0⟩ : V3) := by ext <;> norm_num [V3.sub]
    unfold pointMass at hx
    simp only [e2, e1, hn] at hx
    norm_num [V3.smul, V3.add, V3.dot] at hx
    linarith

/-- **C134** The same for the Moon, whose acceleration in the second program is right if and only if the factor of
the Earth equals its own, or at a place where any factor is as good. -/
theorem moon_mass_iff (GMe GMm : ℝ) (hGM : GMm ≠ 0) (rsun rmon rsat : V3) :
    (fitSunMoon GMe rsun rmon rsat).2 = pointMass GMm rsat (rmon.smul 1000) ↔
      (GMe = GMm ∨ pointMass GMm rsat (rmon.smul 1000) = ⟨0, 0, 0⟩) :=
  body_mass_iff GMe GMm hGM _ _

/-! ### rinex_interpolator -/

/-- **C134** A successful propagation ends within 1e-12 days of the date asked for. -/
theorem interpolated_date (X : Ext) (s : Sv) (target : ℝ) (h : (X.integrate s target).1 = 0) :
    |(X.integrate s target).2.mjd - target| ≤ 1e-12 := by
  unfold Ext.integrate at *
  simp only at *
  split_ifs at * with h1
  exact not_lt.mp h1

/-- **C134** The transition matrix after a successful propagation is the identity, whatever the integrator found. -/
theorem transition_counterexample (X : Ext) (s : Sv) (target : ℝ) (h : (X.integrate s target).1 = 0) (i j : Nat)
    (hi : i < 6) (hj : j < 6) : (X.integrate s target).2.Phi i j = if i = j then 1 else 0 := by
  unfold Ext.integrate at *
  simp only at *
  split_ifs at h with h1
  rw [if_neg h1]
  have := initial_transition (X.toCel s.mjd s.state) i j hi hj
  unfold phi at this
  rw [← this]
  show initial _ _ = initial _ _
  congr 1
  omega

/-- **C134** It is not the matrix that the integrator found. -/
theorem transition_not_solution_counterexample : ∃ (X : Ext) (s : Sv) (target : ℝ), (X.integrate s target).1 = 0 ∧
    (X.integrate s target).2.Phi 0 0 ≠
      phi (X.de s.mjd (initial (X.toCel s.mjd s.state)) ((target - s.mjd) * 86400)).2 0 0 := by
  refine ⟨{ still (fun _ => 0) with de := fun _ y t => (t, fun n => 2 * y n) }, ⟨0, (⟨1, 0, 0⟩, ⟨0, 0, 0⟩), fun _ _ => 0⟩, 0,
    ?_, ?_⟩
  · unfold Ext.integrate
    norm_num
  · rw [transition_counterexample _ _ _ (by unfold Ext.integrate; norm_num) 0 0 (by decide) (by decide)]
    have := initial_transition (Ext.toCel { still (fun _ => 0) with de := fun _ y t => (t, fun n => 2 * y n) } 0
      (⟨1, 0, 0⟩, ⟨0, 0, 0⟩)) 0 0 (by decide) (by decide)
    unfold phi at *
    simp only
    rw [this]
    norm_num

/-- **C134** If the dates are exact, the state for an epoch of observations is that of the motion which the record
of the SP3 file belongs to and the integrator follows. -/
theorem interpolated_state (X : Ext) (hX : Frames X) (cel : ℤ → V3 × V3) (hde : Follows X cel)
    (hm : ∀ t : ℤ, X.mjd t = t / (86400 * 10 ^ 9)) (b : Block) (hb : b.state = X.toTer (X.mjd b.t) (cel b.t)) (t : ℤ)
    (Phi : Nat → Nat → ℝ) : (X.integrate ⟨X.mjd b.t, b.state, Phi⟩ (X.mjd t)).1 = 0 ∧
      (X.integrate ⟨X.mjd b.t, b.state, Phi⟩ (X.mjd t)).2.state = X.toTer (X.mjd t) (cel t) := by
  have hcel : X.toCel (X.mjd b.t) b.state = cel b.t := by
    rw [hb]
    exact state_round_trip_partial X.w _ _ _ _ (hX _).1 (hX _).2
  obtain ⟨i0, i3⟩ := initial_state (cel b.t)
  obtain ⟨d1, d2, d3⟩ := hde b.t (t - b.t) (initial (cel b.t)) i0 i3
  have hs : (X.mjd t - X.mjd b.t) * 86400 = ((t - b.t : ℤ) : ℝ) / 10 ^ 9 := by
    rw [hm, hm]; push_cast; ring
  have ht : X.mjd b.t + ((t - b.t : ℤ) : ℝ) / 10 ^ 9 / 86400 = X.mjd t := by
    rw [hm, hm]; push_cast; ring
  have hadd : b.t + (t - b.t) = t := by omega
  unfold Ext.integrate
  simp only [hcel, hs, d1, d2, d3, ht, sub_self, abs_zero, hadd]
  rw [if_neg (by norm_num)]
  exact ⟨rfl, rfl⟩

/-- **C134** All epochs of observations up to the end of the file, one line each. -/
theorem interpolated_lines (X : Ext) (hX : Frames X) (cel : ℤ → V3 × V3) (hde : Follows X cel)
    (hm : ∀ t : ℤ, X.mjd t = t / (86400 * 10 ^ 9)) (goto : ℤ → Option Block) (ts : List ℤ)
    (hg : ∀ t ∈ ts, ∃ b, goto t = some b ∧ b.state = X.toTer (X.mjd b.t) (cel b.t)) (e : Int) (he : e ≠ 0) (x : ℤ) :
    ∀ (Phi : Nat → Nat → ℝ) (out : List Line), X.interpolate goto (ts.map (fun t => (0, t)) ++ [(e, x)]) Phi out =
      some (0, out ++ ts.map fun t => (t, X.toTer (X.mjd t) (cel t))) := by
  induction ts with
  | nil =>
    intro Phi out
    simp [Ext.interpolate, he]
  | cons t ts ih =>
    intro Phi out
    obtain ⟨b, hb1, hb2⟩ := hg t (by simp)
    obtain ⟨r1, r2⟩ := interpolated_state X hX cel hde hm b hb2 t Phi
    rw [List.map_cons, List.cons_append]
    unfold Ext.interpolate
    rw [if_neg (by simp), hb1]
    simp only
    rw [if_neg (by simp [r1]), ih (fun t ht => hg t (by simp [ht])), r2]
    simp

/-- **C134** An error while reading the observations is not noticed: the program ends like at the end of the file. -/
theorem read_error_counterexample (X : Ext) (goto : ℤ → Option Block) (e : Int) (he : e ≠ 0) (t : ℤ)
    (Phi : Nat → Nat → ℝ) (out : List Line) (rest : List (Int × ℤ)) :
    X.interpolate goto ((e, t) :: rest) Phi out = X.interpolate goto [(-1, t)] Phi out := by
  simp [Ext.interpolate, he]

/-- **C134** Whether a record has a position is not looked at: with all flags reversed the lines are the same. -/
theorem flags_counterexample (X : Ext) (goto : ℤ → Option Block) (reads : List (Int × ℤ)) :
    ∀ (Phi : Nat → Nat → ℝ) (out : List Line),
    X.interpolate (fun t => (goto t).map fun b => { b with ok := !b.ok }) reads Phi out = X.interpolate goto reads Phi out := by
  induction reads with
  | nil => intro Phi out; rfl
  | cons a l ih =>
    intro Phi out
    obtain ⟨e, t⟩ := a
    unfold Ext.interpolate
    by_cases he : e ≠ 0
    · rw [if_pos he, if_pos he]
    · rw [if_neg he, if_neg he]
      cases h : goto t with
      | none => rfl
      | some b =>
        simp only [Option.map_some]
        have hb : Block.state { b with ok := !b.ok } = b.state := rfl
        rw [hb]
        split_ifs
        · rfl
        · exact ih _ _

end Verif.Pod.Sp3
