import Verif.RfoFit.ProgModel
import Verif.RfoFit.TextProps
import Mathlib.Data.Real.Archimedean

/-! C156: the programs that fit frequency offsets. -/
namespace Verif.RfoFit
open Verif.Rinex Verif.SystemInfo Verif.Rinex.Write

/-! ### Specification -/

/-- `text` is the number `x` with nine decimals, rounded to nearest: `z` units of the ninth decimal; zero may have a sign. -/
def Shown (x : ℝ) (z : Int) (text : List Char) : Prop :=
  |x * 10 ^ 9 - z| ≤ 1 / 2 ∧ (text = fixText 9 z ∨ z = 0 ∧ text = '-' :: fixText 9 0)

/-- `%.9f`. -/
def Prints (fixed : ℝ → List Char) : Prop := ∀ x, ∃ z, Shown x z (fixed x)

/-- What the program should print. -/
def report (mjd c0 c1 : List Char) : List (List Char) :=
  ["RFO model:".toList, "Reference MJD = ".toList ++ mjd, "Polynomial Coeffs:".toList, "\tCoef[ 0] = ".toList ++ c0,
    "\tCoef[ 1] = ".toList ++ c1, []]

/-! ### fit_rfo_values -/

theorem modelLines_report (fixed : ℝ → List Char) (mjd : Int → ℝ) (xref : Int) (cf : Fin 2 → ℝ) :
    modelLines fixed mjd xref cf = report (fixed (mjd xref)) (fixed (cf 0)) (fixed (cf 1)) := by
  have h : List.finRange 2 = [0, 1] := by decide
  unfold modelLines report
  rw [h]
  have h0 : padL 2 (natText 0) = [' ', '0'] := by decide
  have h1 : padL 2 (natText 1) = [' ', '1'] := by decide
  simp [h0, h1]

/-- Room for the rows of files with no more than 17280 blocks. -/
theorem room_written {e : Ext} {rd rf : Rat → Rat} (c : Cfg ℝ) (hE : 2 ≤ c.every) (tmin tmax t0 tend : Int) (hs : c.start = tmin)
    (tref : Int) (ws : List Written) (hw : ∀ w ∈ ws, w.Ok e rd rf c) (hb : ∀ w ∈ ws, w.blocks.length ≤ 17280) :
    ((allPoints c tref (ws.map (Written.full rd rf c t0 tend))).length : Int) ≤
      numPts c.every (numDays tmin tmax c.start c.stop ws.length) := by
  have h := room_partial c hE tmin tmax hs tref (ws.map (Written.full rd rf c t0 tend)) (by
    intro y hy
    obtain ⟨x, hx, rfl⟩ := List.mem_map.1 hy
    exact full_ok c x (hw x hx) hE t0 tend) (by
    intro y hy
    obtain ⟨x, hx, rfl⟩ := List.mem_map.1 hy
    refine le_trans ?_ (hb x hx)
    show (inRange c (x.blocks.map (x.datum rd rf))).length ≤ _
    unfold inRange
    refine (List.length_filter_le _ _).trans ((List.takeWhile_prefix _).length_le.trans ?_)
    rw [List.length_map])
  rw [List.length_map] at h
  exact h

/-- **C156** Missing: files with an incomplete window or no epochs (C108) and epochs without an offset (C155).  Given the names of
well-formed files of at most a day, with data at two times at least, the program prints the reference date and the line of least squares
through the means of four offsets each, every number to half a unit of its ninth decimal. -/
theorem values_prints_partial {e : Ext} {rd rf : Rat → Rat} (hh : Honest e rd rf)
    (ldlt : (m : Nat) → Matrix (Fin m) (Fin m) ℝ → (Fin m → ℝ) → Fin m → ℝ) (hl : Solves ldlt) (b0 stack buf : Buf)
    (t0 tend tmin tmax : Int) (secs days : Int → Int → ℝ) (fixed : ℝ → List Char) (hp : Prints fixed) (mjd : Int → ℝ)
    (content : List Char → Written) (a : List Char) (as : List (List Char))
    (hw : ∀ x ∈ a :: as, (content x).Ok e rd rf (valuesCfg tmin tmax secs days)) (hday : ∀ x ∈ a :: as, (content x).blocks.length ≤ 17280)
    (href : ((content a).header rd rf).refDate ≠ tmin) (ps : List Point)
    (hps : ps = allPoints (valuesCfg tmin tmax secs days) ((content a).header rd rf).refDate
      ((a :: as).map fun x => (content x).full rd rf (valuesCfg tmin tmax secs days) t0 tend))
    (p q : Point) (hpm : p ∈ ps) (hqm : q ∈ ps) (hpq : p.t ≠ q.t) :
    ∃ (cf : Fin 2 → ℝ) (tm tc0 tc1 : List Char) (zm z0 z1 : Int),
      valuesMain ldlt e b0 stack buf t0 tend tmin tmax secs days fixed mjd (fun x => (content x).lines) (a :: as) =
        .ran 0 (report tm tc0 tc1) ∧
      Shown (mjd ((content a).header rd rf).refDate) zm tm ∧ Shown (cf 0) z0 tc0 ∧ Shown (cf 1) z1 tc1 ∧
      (∀ cf', cf' ≠ cf → sumSq ps cf < sumSq ps cf') := by
  subst hps
  have hmm : (a :: as).map (fun x => (content x).full rd rf (valuesCfg tmin tmax secs days) t0 tend) =
      (content a :: as.map content).map (Written.full rd rf (valuesCfg tmin tmax secs days) t0 tend) := by simp
  rw [hmm] at hpm hqm ⊢
  have hw' : ∀ x ∈ content a :: as.map content, x.Ok e rd rf (valuesCfg tmin tmax secs days) := by
    intro x hx
    rw [← List.map_cons] at hx
    obtain ⟨y, hy, rfl⟩ := List.mem_map.1 hx
    exact hw y hy
  have hd' : ∀ x ∈ content a :: as.map content, x.blocks.length ≤ 17280 := by
    intro x hx
    rw [← List.map_cons] at hx
    obtain ⟨y, hy, rfl⟩ := List.mem_map.1 hx
    exact hday y hy
  have hroom := room_written (valuesCfg tmin tmax secs days) (by show 2 ≤ 4; omega) tmin tmax t0 tend rfl
    ((content a).header rd rf).refDate (content a :: as.map content) hw' hd'
  obtain ⟨cf, h1, h2⟩ := text_least_squares_partial hh ldlt hl (valuesCfg tmin tmax secs days) (by show 2 ≤ 4; omega) le_rfl tmin tmax
    t0 tend b0 stack buf (content a) (as.map content) hw' href hroom (fun i => if i = 0 then p.t else q.t) (by
      intro i j hij
      have hi : (i : ℕ) < 2 := i.isLt
      have hj : (j : ℕ) < 2 := j.isLt
      by_cases h0 : i = 0 <;> by_cases h1 : j = 0
      · rw [h0, h1]
      · simp only [h0, h1, if_true, if_false] at hij
        exact absurd hij hpq
      · simp only [h0, h1, if_true, if_false] at hij
        exact absurd hij.symm hpq
      · have a1 : (i : ℕ) ≠ 0 := fun h => h0 (Fin.ext h)
        have a2 : (j : ℕ) ≠ 0 := fun h => h1 (Fin.ext h)
        exact Fin.ext (by omega)) (by
      intro i
      by_cases h0 : i = 0
      · exact ⟨p, hpm, by simp [h0]⟩
      · exact ⟨q, hqm, by simp [h0]⟩)
  obtain ⟨zm, hzm⟩ := hp (mjd ((content a).header rd rf).refDate)
  obtain ⟨z0, hz0⟩ := hp (cf (0 : Fin 2))
  obtain ⟨z1, hz1⟩ := hp (cf (1 : Fin 2))
  refine ⟨cf, _, _, _, zm, z0, z1, ?_, hzm, hz0, hz1, h2⟩
  unfold valuesMain
  rw [if_neg (by simp)]
  have hm : (a :: as).map (fun x => (content x).lines) = (content a :: as.map content).map Written.lines := by simp
  rw [hm, h1]
  exact congrArg (Ran.ran 0) (modelLines_report fixed mjd _ cf)

/-- **C156** The line that is printed and the line of least squares differ at a time `t` by half a unit of the ninth decimal, once and
`t` times. -/
theorem printed_line (cf : Fin 2 → ℝ) (z0 z1 : Int) (s0 s1 : List Char) (h0 : Shown (cf 0) z0 s0) (h1 : Shown (cf 1) z1 s1) (t : ℝ) :
    |polyAt cf t - (z0 / 10 ^ 9 + z1 / 10 ^ 9 * t)| ≤ (1 + |t|) / (2 * 10 ^ 9) := by
  have hpoly : polyAt cf t = cf 0 + cf 1 * t := by simp [polyAt, Fin.sum_univ_two]
  have e : (polyAt cf t - (z0 / 10 ^ 9 + z1 / 10 ^ 9 * t)) = (cf 0 * 10 ^ 9 - z0) / 10 ^ 9 + (cf 1 * 10 ^ 9 - z1) / 10 ^ 9 * t := by
    rw [hpoly]; ring
  rw [e]
  refine (abs_add_le _ _).trans ?_
  rw [abs_mul, abs_div, abs_div, abs_of_pos (show (0 : ℝ) < 10 ^ 9 by norm_num)]
  have a0 := h0.1
  have a1 := h1.1
  have hb : |cf 1 * 10 ^ 9 - z1| / 10 ^ 9 * |t| ≤ (1 / 2) / 10 ^ 9 * |t| := by gcongr
  have ha : |cf 0 * 10 ^ 9 - z0| / 10 ^ 9 ≤ (1 / 2) / 10 ^ 9 := by gcongr
  calc _ ≤ (1 / 2) / 10 ^ 9 + (1 / 2) / 10 ^ 9 * |t| := add_le_add ha hb
    _ = _ := by ring

/-- The program does not print the line it has fitted: any slope below half a unit of the ninth decimal per second is printed as zero,
with which the line is off by up to four units of the fifth decimal after a day. -/
theorem slope_lost_counterexample (c1 : ℝ) (h : |c1| < 1 / (2 * 10 ^ 9)) (z : Int) (s : List Char) (hs : Shown c1 z s) : z = 0 := by
  have h1 := hs.1
  have h2 : |c1 * 10 ^ 9| < 1 / 2 := by
    rw [abs_mul, abs_of_pos (show (0 : ℝ) < 10 ^ 9 by norm_num)]
    rw [lt_div_iff₀ (by norm_num)] at h
    linarith
  have h3 : |(z : ℝ)| < 1 := by
    have : (z : ℝ) = c1 * 10 ^ 9 - (c1 * 10 ^ 9 - z) := by ring
    rw [this]
    exact (abs_sub _ _).trans_lt ((add_lt_add_of_lt_of_le h2 h1).trans_le (by norm_num))
  have h4 : |z| < 1 := by exact_mod_cast h3
  exact Int.abs_lt_one_iff.1 h4

/-- Without names: status 1. -/
theorem values_usage (ldlt : (m : Nat) → Matrix (Fin m) (Fin m) ℝ → (Fin m → ℝ) → Fin m → ℝ) (e : Ext) (b0 stack buf : Buf)
    (t0 tend tmin tmax : Int) (secs days : Int → Int → ℝ) (fixed : ℝ → List Char) (mjd : Int → ℝ) (read : List Char → List Line) :
    valuesMain ldlt e b0 stack buf t0 tend tmin tmax secs days fixed mjd read [] = .ran 1 [] := rfl

/-! ### test_rnx_fit_rfo -/

/-- The copies of the names stay inside their memory exactly if every argument is at least two characters shorter than the one
before it, the first one than the name of the program; they are then the names. -/
theorem copies_inside (prev : List Char) (args : List (List Char)) :
    copyArgs prev args = some args ↔
      ∀ i (h : i < args.length), (args[i]).length + 2 ≤ ((prev :: args)[i]'(by simp; omega)).length := by
  induction args generalizing prev with
  | nil => simp [copyArgs]
  | cons a as ih =>
    have hc : copyArg prev a = some a ↔ a.length + 2 ≤ prev.length := by
      cases prev with
      | nil => simp [copyArg]
      | cons x xs =>
        simp only [copyArg, List.length_cons]
        by_cases h : a.length + 1 ≤ xs.length
        · rw [if_pos h]; exact ⟨fun _ => by omega, fun _ => rfl⟩
        · rw [if_neg h]; exact ⟨fun h => (by cases h), fun _ => (by omega)⟩
    constructor
    · intro h i hi
      unfold copyArgs at h
      cases hx : copyArg prev a with
      | none => rw [hx] at h; cases h
      | some c =>
        rw [hx] at h
        simp only [Option.map_eq_some_iff, List.cons.injEq] at h
        obtain ⟨l, hl, rfl, rfl⟩ := h
        cases i with
        | zero => exact hc.1 hx
        | succ i => exact (ih c).1 hl i (by simpa using hi)
    · intro h
      have h0 : copyArg prev a = some a := hc.2 (h 0 (by simp))
      have h1 : copyArgs a as = some as := (ih a).2 fun i hi => h (i + 1) (by simpa using hi)
      unfold copyArgs
      rw [h0, h1]
      rfl

/-- Otherwise memory is written outside. -/
theorem copies_outside (prev : List Char) (args : List (List Char)) : copyArgs prev args = some args ∨ copyArgs prev args = none := by
  induction args generalizing prev with
  | nil => exact .inl rfl
  | cons a as ih =>
    unfold copyArgs
    cases hx : copyArg prev a with
    | none => exact .inr rfl
    | some c =>
      have hca : c = a := by
        unfold copyArg at hx
        cases prev with
        | nil => cases hx
        | cons y ys =>
          simp only at hx
          split at hx
          · exact (Option.some.inj hx).symm
          · cases hx
      subst hca
      rcases ih c with h | h <;> rw [h]
      · exact .inl rfl
      · exact .inr rfl

/-- The names of two observation files of one satellite have the same length: the second is always written outside its memory. -/
theorem same_length_counterexample (prev a b : List Char) (rest : List (List Char)) (h : a.length = b.length) :
    copyArgs prev (a :: b :: rest) = none := by
  rcases copies_outside prev (a :: b :: rest) with hc | hc
  · have := (copies_inside prev (a :: b :: rest)).1 hc 1 (by simp)
    simp only [List.getElem_cons_succ, List.getElem_cons_zero] at this
    omega
  · exact hc

/-- The number of files that is printed is always one too large. -/
theorem number_counterexample (prog : List Char) (files : List (List Char)) (n : Nat)
    (h : usingLine (prog :: files) = "Using ".toList ++ (natText n ++ " RINEX files to model receiver frequency offset".toList)) :
    n = files.length + 1 := by
  unfold usingLine at h
  have h1 := List.append_cancel_right (List.append_cancel_left h)
  have h2 := (natText_spec n).1
  rw [← h1, (natText_spec _).1] at h2
  simpa using h2.symm

/-! ### Concrete instances -/

/-- Eight epochs, in two windows. -/
def eight : Written :=
  ⟨300, "Expert".toList, sampleItems,
    [yearBlock "2000" 2000 (some 100000), yearBlock "2001" 2001 (some 100000), yearBlock "2002" 2002 (some 100000),
     yearBlock "2003" 2003 (some 100000), yearBlock "2004" 2004 (some 100001), yearBlock "2005" 2005 (some 100001),
     yearBlock "2006" 2006 (some 100001), yearBlock "2007" 2007 (some 100001)]⟩

/-- A year of ten thousand seconds. -/
def ce : Cfg ℝ := valuesCfg (-1000) 10000 (fun a b => ((a - b : Int) : ℝ) * 10000) (fun a b => ((a - b : Int) : ℝ))

/-- The offsets of the windows. -/
def eightLow : ℝ := ((1 : Rat) : ℝ)
noncomputable def eightHigh : ℝ := ((100001 / 100000 : Rat) : ℝ)

theorem eight_range : inRange ce (eight.blocks.map (eight.datum id id)) =
    [⟨2000, 2000, some eightLow⟩, ⟨2001, 2001, some eightLow⟩, ⟨2002, 2002, some eightLow⟩, ⟨2003, 2003, some eightLow⟩,
     ⟨2004, 2004, some eightHigh⟩, ⟨2005, 2005, some eightHigh⟩, ⟨2006, 2006, some eightHigh⟩, ⟨2007, 2007, some eightHigh⟩] := by
  have h1 : eight.blocks.map (eight.value id id) = [1, 1, 1, 1, 100001 / 100000, 100001 / 100000, 100001 / 100000, 100001 / 100000] := by
    decide +kernel
  have h2 : eight.blocks.map (fun b => l1Epoch (eight.header id id).rcvApplied (b.header id)) =
      [2000, 2001, 2002, 2003, 2004, 2005, 2006, 2007] := by decide +kernel
  simp only [eight, List.map_cons, List.map_nil, List.cons.injEq, and_true] at h1 h2 ⊢
  obtain ⟨a1, a2, a3, a4, a5, a6, a7, a8⟩ := h1
  obtain ⟨b1, b2, b3, b4, b5, b6, b7, b8⟩ := h2
  simp only [Written.datum]
  rw [a1, a2, a3, a4, a5, a6, a7, a8, b1, b2, b3, b4, b5, b6, b7, b8]
  simp [yearBlock, inRange, ce, valuesCfg, eightLow, eightHigh]

theorem eight_ok : eight.Ok exactExt id id ce := by
  refine ⟨by decide, by decide, sampleItems_ok, ⟨rfl, rfl, rfl, by decide⟩, by decide, ?_, ?_, ?_, ?_⟩
  · intro b hb
    simp only [eight, List.mem_cons, List.not_mem_nil, or_false] at hb
    rcases hb with rfl | rfl | rfl | rfl | rfl | rfl | rfl | rfl
    all_goals
      refine yearBlock_ok _ _ _ ⟨by decide, by decide, by decide, fun r => rfl⟩ ?_
      intro z hz
      obtain rfl := Option.some.inj hz
      decide
  · intro b hb
    simp only [eight, List.mem_cons, List.not_mem_nil, or_false] at hb
    rcases hb with rfl | rfl | rfl | rfl | rfl | rfl | rfl | rfl <;> simp [yearBlock]
  · rw [eight_range]; simp
  · rw [eight_range]; exact ⟨2, rfl⟩

theorem eight_points : allPoints ce 0 [eight.full id id ce 5 7] = [⟨20010000, 1⟩, ⟨20050000, 1.00001⟩] := by
  have hr := eight_range
  simp only [allPoints, Full.points, Written.full, List.flatMap_cons, List.flatMap_nil, hr]
  simp [ce, valuesCfg, date, List.range_succ, midpoint, Finset.sum_range_succ, eightLow, eightHigh]
  norm_num

/-- The program on one file: the slope of the line through the two points is a quarter of a unit of the ninth decimal. -/
example (ldlt : (m : Nat) → Matrix (Fin m) (Fin m) ℝ → (Fin m → ℝ) → Fin m → ℝ) (hl : Solves ldlt) (fixed : ℝ → List Char)
    (hp : Prints fixed) (mjd : Int → ℝ) :
    ∃ (cf : Fin 2 → ℝ) (tm tc0 tc1 : List Char) (zm z0 z1 : Int),
      valuesMain ldlt exactExt [] [] [] 5 7 (-1000) 10000 (fun a b => ((a - b : Int) : ℝ) * 10000) (fun a b => ((a - b : Int) : ℝ)) fixed
        mjd (fun _ => eight.lines) ["a.rnx".toList] = .ran 0 (report tm tc0 tc1) ∧
      Shown (mjd 0) zm tm ∧ Shown (cf 0) z0 tc0 ∧ Shown (cf 1) z1 tc1 ∧
      (∀ cf', cf' ≠ cf → sumSq [⟨20010000, 1⟩, ⟨20050000, 1.00001⟩] cf < sumSq [⟨20010000, 1⟩, ⟨20050000, 1.00001⟩] cf') := by
  refine values_prints_partial exact_honest ldlt hl [] [] [] 5 7 (-1000) 10000 _ _ fixed hp mjd (fun _ => eight) "a.rnx".toList [] ?_ ?_
    (show (0 : Int) ≠ -1000 by decide) _ eight_points.symm ⟨20010000, 1⟩ ⟨20050000, 1.00001⟩ (by simp) (by simp) (by norm_num)
  · intro x _; exact eight_ok
  · intro x _; decide

example : |(1.00001 - 1) / (20050000 - 20010000 : ℝ)| < 1 / (2 * 10 ^ 9) := by norm_num [abs_of_pos]

/-- There is such a `fixed`. -/
example : Prints fun x => fixText 9 (round (x * 10 ^ 9)) := fun x => ⟨_, abs_sub_round (x * 10 ^ 9), .inl rfl⟩

example : copyArgs "./test_rnx_fit_rfo".toList ["ja3rx20001.001".toList, "ja3rx20002.001".toList] = none :=
  same_length_counterexample _ _ _ [] (by decide)

example : copyArgs "./test_rnx_fit_rfo".toList ["ja3rx20001.001".toList] = some ["ja3rx20001.001".toList] := by decide

end Verif.RfoFit
