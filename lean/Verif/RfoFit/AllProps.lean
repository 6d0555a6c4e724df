import Verif.RfoFit.AllModel
import Verif.RfoFit.Props
import Mathlib.LinearAlgebra.Vandermonde
import Mathlib.LinearAlgebra.Matrix.ToLinearEquiv
import Mathlib.Tactic.Linarith
import Mathlib.Tactic.LinearCombination
import Mathlib.Tactic.NormNum
import Mathlib.Tactic.Positivity
import Mathlib.Tactic.FinCases

/-! C108: the polynomial fitted to the relative frequency offsets of several files. -/
namespace Verif.RfoFit

open Matrix

/-! ### Specification -/

/-- A data point: time in seconds from the reference date, and mean of the values of a window. -/
structure Point where
  t : ℝ
  y : ℝ

/-- Value of the polynomial with the given coefficients. -/
def polyAt {m : Nat} (cf : Fin m → ℝ) (t : ℝ) : ℝ := ∑ p, cf p * t ^ (p : ℕ)

/-- Sum of the squared residuals. -/
def sumSq {m : Nat} (ps : List Point) (cf : Fin m → ℝ) : ℝ := (ps.map fun p => (p.y - polyAt cf p.t) ^ 2).sum

/-- A file together with the values and dates of its epochs in range, of which there are `k` complete windows. -/
structure Full where
  file : File
  v : ℕ → ℝ
  τ : ℕ → Int
  k : ℕ

/-- The values and dates are those of the epochs in range; there is at least one window and none is incomplete; the file
is read to its end. -/
structure Full.Ok (c : Cfg ℝ) (x : Full) : Prop where
  final : x.file.final ≤ 0
  vals : ∀ i (h : i < (inRange c x.file.blocks).length), (inRange c x.file.blocks)[i].f = some (x.v i) ∧
      date c (inRange c x.file.blocks)[i] = x.τ i
  pos : 1 ≤ x.k
  len : (inRange c x.file.blocks).length = x.k * c.every

/-- The data points of a file: window `i` has the mean of `every` values, at the midpoint of its first and last date. -/
noncomputable def Full.points (c : Cfg ℝ) (tref : Int) (x : Full) : List Point :=
  (List.range x.k).map fun i =>
    ⟨c.deltax (midpoint (x.τ (i * c.every)) (x.τ (i * c.every + (c.every - 1)))) tref,
     (∑ j ∈ Finset.range c.every, x.v (i * c.every + j)) / (c.every : ℝ)⟩

/-- Data points of all files. -/
noncomputable def allPoints (c : Cfg ℝ) (tref : Int) (xs : List Full) : List Point := xs.flatMap (Full.points c tref)

/-- The linear solver solves systems with one solution. -/
def Solves (ldlt : (m : Nat) → Matrix (Fin m) (Fin m) ℝ → (Fin m → ℝ) → Fin m → ℝ) : Prop :=
  ∀ m N r, N.det ≠ 0 → N *ᵥ ldlt m N r = r

/-! ### Rows and points -/

/-- Row of a point. -/
def Point.row (order : Nat) (p : Point) : Row ℝ := ⟨some p.y, (List.range (order + 1)).map fun q => p.t ^ q⟩

theorem windowRow_eq (c : Cfg ℝ) (tref : Int) (x : Full) :
    (List.range x.k).map (windowRow { c with tref := tref } x.v x.τ) = (x.points c tref).map (Point.row c.order) := by
  simp only [Full.points, List.map_map]
  rfl

theorem readAll_full (c : Cfg ℝ) (hE : 2 ≤ c.every) (ho : 1 ≤ c.order) (tmin cap tref : Int) (ht : tref ≠ tmin) :
    ∀ (xs : List Full) (rows : List (Row ℝ)), (∀ x ∈ xs, x.Ok c) →
      ((rows.length + (allPoints c tref xs).length : Nat) : Int) ≤ cap →
      readAll c tmin cap (xs.map Full.file) tref rows =
        .rows tref (rows ++ (allPoints c tref xs).map (Point.row c.order)) := by
  intro xs
  induction xs with
  | nil => intro rows _ _; simp [readAll, allPoints]
  | cons x xs ih =>
    intro rows hok hcap
    have hx := hok x (List.mem_cons_self ..)
    have hp := windows_partial { c with tref := tref } hE ho x.file.t0 x.file.tend x.file.blocks x.file.final hx.final
      x.v x.τ hx.vals x.k hx.pos hx.len
    rw [windowRow_eq] at hp
    have hsplit : allPoints c tref (x :: xs) = x.points c tref ++ allPoints c tref xs := by simp [allPoints]
    rw [hsplit, List.length_append] at hcap
    simp only [List.map_cons, readAll, if_neg ht, hp, List.length_map]
    rw [if_neg (by omega), if_neg (by simp), ih _ (fun x hx => hok x (List.mem_cons_of_mem _ hx)), hsplit]
    · simp
    · simp only [List.length_append, List.length_map]
      omega

theorem entry_row {order : Nat} (p : Point) (i : Fin (order + 1)) : entry (p.row order) i = p.t ^ (i : ℕ) := by
  have := i.isLt
  simp [entry, Point.row, List.getD, List.getElem?_range this]

theorem polyAt_eq {order : Nat} (cf : Fin (order + 1) → ℝ) (p : Point) :
    polyAt cf p.t = ∑ i, cf i * entry (p.row order) i := by
  simp only [entry_row, polyAt]

/-- The form of the normal matrix. -/
theorem gram_form {order : Nat} (ps : List Point) (u v : Fin (order + 1) → ℝ) :
    u ⬝ᵥ (gram (order + 1) (ps.map (Point.row order)) *ᵥ v) = (ps.map fun p => polyAt u p.t * polyAt v p.t).sum := by
  induction ps with
  | nil => simp [gram, dotProduct, Matrix.mulVec]
  | cons p ps ih =>
    have hg : gram (order + 1) ((p :: ps).map (Point.row order)) =
        vecMulVec (entry (p.row order)) (entry (p.row order)) + gram (order + 1) (ps.map (Point.row order)) := by
      ext i j
      simp [gram, vecMulVec_apply]
    have hv : vecMulVec (entry (m := order + 1) (p.row order)) (entry (p.row order)) *ᵥ v =
        (polyAt v p.t) • entry (p.row order) := by
      ext i
      simp only [Matrix.mulVec, dotProduct, vecMulVec_apply, Pi.smul_apply, smul_eq_mul, polyAt_eq, Finset.sum_mul]
      exact Finset.sum_congr rfl fun j _ => by ring
    rw [hg, Matrix.add_mulVec, dotProduct_add, ih, hv, dotProduct_smul, List.map_cons, List.sum_cons]
    congr 1
    rw [smul_eq_mul, mul_comm, polyAt_eq u]
    rfl

theorem rhs_form {order : Nat} (ps : List Point) (u : Fin (order + 1) → ℝ) :
    u ⬝ᵥ gramRhs (order + 1) (ps.map (Point.row order)) = (ps.map fun p => polyAt u p.t * p.y).sum := by
  induction ps with
  | nil => simp [gramRhs, dotProduct]
  | cons p ps ih =>
    have hg : gramRhs (order + 1) ((p :: ps).map (Point.row order)) =
        p.y • entry (p.row order) + gramRhs (order + 1) (ps.map (Point.row order)) := by
      ext i
      simp [gramRhs, Point.row, mul_comm]
    rw [hg, dotProduct_add, ih, dotProduct_smul, List.map_cons, List.sum_cons]
    congr 1
    rw [smul_eq_mul, mul_comm, polyAt_eq u]
    rfl

theorem polyAt_add {m : Nat} (u v : Fin m → ℝ) (t : ℝ) : polyAt (u + v) t = polyAt u t + polyAt v t := by
  simp only [polyAt, Pi.add_apply, add_mul, Finset.sum_add_distrib]

/-- Enough different times: the normal matrix has an inverse, and a polynomial that vanishes at all times vanishes. -/
theorem polyAt_zero {m : Nat} (ps : List Point) (s : Fin m → ℝ) (hs : Function.Injective s)
    (hmem : ∀ i, ∃ p ∈ ps, p.t = s i) (v : Fin m → ℝ) (h : ∀ p ∈ ps, polyAt v p.t = 0) : v = 0 := by
  refine Matrix.eq_zero_of_mulVec_eq_zero (M := vandermonde s) (det_vandermonde_ne_zero_iff.2 hs) ?_
  ext i
  obtain ⟨p, hp, he⟩ := hmem i
  have := h p hp
  rw [he] at this
  simp only [Matrix.mulVec, dotProduct, vandermonde_apply, Pi.zero_apply]
  rw [← this, polyAt]
  exact Finset.sum_congr rfl fun j _ => mul_comm _ _

theorem sum_sq_eq_zero (ps : List Point) (f : Point → ℝ) (h : (ps.map fun p => f p * f p).sum = 0) :
    ∀ p ∈ ps, f p = 0 := by
  induction ps with
  | nil => simp
  | cons p ps ih =>
    have hnn : 0 ≤ (ps.map fun p => f p * f p).sum := List.sum_nonneg fun a ha => by
      obtain ⟨q, -, rfl⟩ := List.mem_map.1 ha
      exact mul_self_nonneg _
    rw [List.map_cons, List.sum_cons] at h
    have h1 := mul_self_nonneg (f p)
    intro q hq
    rcases List.mem_cons.1 hq with rfl | hq
    · exact mul_self_eq_zero.1 (by linarith)
    · exact ih (by linarith) q hq

theorem gram_det {order : Nat} (ps : List Point) (s : Fin (order + 1) → ℝ) (hs : Function.Injective s)
    (hmem : ∀ i, ∃ p ∈ ps, p.t = s i) : (gram (order + 1) (ps.map (Point.row order))).det ≠ 0 := by
  intro h0
  obtain ⟨v, hv, h⟩ := Matrix.exists_mulVec_eq_zero_iff.2 h0
  have hf := gram_form ps v v
  rw [h, dotProduct_zero] at hf
  exact hv (polyAt_zero ps s hs hmem v (sum_sq_eq_zero ps _ hf.symm))

theorem sumSq_expand {order : Nat} (ps : List Point) (cf v : Fin (order + 1) → ℝ) :
    sumSq ps (cf + v) = sumSq ps cf + 2 * (v ⬝ᵥ (gram (order + 1) (ps.map (Point.row order)) *ᵥ cf) -
      v ⬝ᵥ gramRhs (order + 1) (ps.map (Point.row order))) + (ps.map fun p => polyAt v p.t * polyAt v p.t).sum := by
  rw [gram_form, rhs_form]
  unfold sumSq
  induction ps with
  | nil => simp
  | cons p ps ih =>
    simp only [List.map_cons, List.sum_cons]
    rw [polyAt_add]
    linear_combination ih

theorem normal_minimises {order : Nat} (ps : List Point) (s : Fin (order + 1) → ℝ) (hs : Function.Injective s)
    (hmem : ∀ i, ∃ p ∈ ps, p.t = s i) (cf cf' : Fin (order + 1) → ℝ)
    (h : gram (order + 1) (ps.map (Point.row order)) *ᵥ cf = gramRhs (order + 1) (ps.map (Point.row order)))
    (hne : cf' ≠ cf) : sumSq ps cf < sumSq ps cf' := by
  have he := sumSq_expand ps cf (cf' - cf)
  rw [h, sub_self, mul_zero, add_zero, add_sub_cancel] at he
  have hnn : 0 ≤ (ps.map fun p => polyAt (cf' - cf) p.t * polyAt (cf' - cf) p.t).sum :=
    List.sum_nonneg fun a ha => by
      obtain ⟨q, -, rfl⟩ := List.mem_map.1 ha
      exact mul_self_nonneg _
  rcases hnn.lt_or_eq with hp | hp
  · linarith
  · exact absurd (sub_eq_zero.1 (polyAt_zero ps s hs hmem _ (sum_sq_eq_zero ps _ hp.symm))) hne

/-! ### C108 -/

/-- **C108 (fit).**  If every file is read to its end and holds complete windows (of at least two values), if there is room
for the rows, and if there are more different times than the order, then the coefficients returned are the ones of the
polynomial of least squares through the means of the windows of all files, times being counted from the reference date of
the first file.  Incomplete windows are missing: what is done with them is wrong (C62). -/
theorem fit_least_squares_partial (ldlt : (m : Nat) → Matrix (Fin m) (Fin m) ℝ → (Fin m → ℝ) → Fin m → ℝ)
    (hl : Solves ldlt) (c : Cfg ℝ) (hE : 2 ≤ c.every) (ho : 1 ≤ c.order) (tmin tmax : Int) (x : Full) (xs : List Full)
    (hok : ∀ y ∈ x :: xs, y.Ok c) (href : x.file.ref ≠ tmin)
    (hcap : ((allPoints c x.file.ref (x :: xs)).length : Int) ≤
      numPts c.every (numDays tmin tmax c.start c.stop (xs.length + 1)))
    (s : Fin (c.order + 1) → ℝ) (hs : Function.Injective s)
    (hmem : ∀ i, ∃ p ∈ allPoints c x.file.ref (x :: xs), p.t = s i) :
    ∃ cf, fitAll ldlt c tmin tmax ((x :: xs).map Full.file) = .ok x.file.ref cf ∧
      ∀ cf', cf' ≠ cf → sumSq (allPoints c x.file.ref (x :: xs)) cf < sumSq (allPoints c x.file.ref (x :: xs)) cf' := by
  have hread : ∀ cap : Int, readAll c tmin cap ((x :: xs).map Full.file) tmin [] =
      readAll c tmin cap ((x :: xs).map Full.file) x.file.ref [] := by
    intro cap
    simp only [List.map_cons, readAll, if_true, if_neg href]
  have h := readAll_full c hE ho tmin _ x.file.ref href (x :: xs) [] hok (by simpa using hcap)
  refine ⟨_, ?_, fun cf' hne => normal_minimises _ s hs hmem _ cf' (hl _ _ _ (gram_det _ s hs hmem)) hne⟩
  unfold fitAll
  simp only [List.length_map, List.length_cons]
  rw [if_neg (by omega), hread, h]
  simp only [List.nil_append]
  rw [if_neg]
  simp [Point.row]

/-- **C108 (exact data).**  Means that lie on a polynomial of the order of the model give that polynomial. -/
theorem fit_exact_partial (ldlt : (m : Nat) → Matrix (Fin m) (Fin m) ℝ → (Fin m → ℝ) → Fin m → ℝ)
    (hl : Solves ldlt) (c : Cfg ℝ) (hE : 2 ≤ c.every) (ho : 1 ≤ c.order) (tmin tmax : Int) (x : Full) (xs : List Full)
    (hok : ∀ y ∈ x :: xs, y.Ok c) (href : x.file.ref ≠ tmin)
    (hcap : ((allPoints c x.file.ref (x :: xs)).length : Int) ≤
      numPts c.every (numDays tmin tmax c.start c.stop (xs.length + 1)))
    (s : Fin (c.order + 1) → ℝ) (hs : Function.Injective s)
    (hmem : ∀ i, ∃ p ∈ allPoints c x.file.ref (x :: xs), p.t = s i)
    (a : Fin (c.order + 1) → ℝ) (ha : ∀ p ∈ allPoints c x.file.ref (x :: xs), p.y = polyAt a p.t) :
    fitAll ldlt c tmin tmax ((x :: xs).map Full.file) = .ok x.file.ref a := by
  obtain ⟨cf, h, hmin⟩ := fit_least_squares_partial ldlt hl c hE ho tmin tmax x xs hok href hcap s hs hmem
  by_contra hcon
  have hne : a ≠ cf := fun he => hcon (he ▸ h)
  have h1 := hmin a hne
  have h2 : sumSq (allPoints c x.file.ref (x :: xs)) a = 0 :=
    List.sum_eq_zero fun b hb => by
      obtain ⟨p, hp, rfl⟩ := List.mem_map.1 hb
      rw [ha p hp, sub_self]
      norm_num
  have h3 : 0 ≤ sumSq (allPoints c x.file.ref (x :: xs)) cf := List.sum_nonneg fun b hb => by
    obtain ⟨p, -, rfl⟩ := List.mem_map.1 hb
    positivity
  linarith

theorem numPts_files (every n : Nat) : numPts every n = (nDay every * n + 10 : Nat) := by
  unfold numPts truncInt
  rw [if_pos (by positivity)]
  rw [show ((nDay every : ℚ) * (n : ℚ) + 10) = ((nDay every * n + 10 : ℕ) : ℚ) by push_cast; ring, Int.floor_natCast]

/-- **C108 (room).**  Without a date range, there is room for the rows of files with no more than 17280 epochs each. -/
theorem room_partial (c : Cfg ℝ) (hE : 2 ≤ c.every) (tmin tmax : Int) (hstart : c.start = tmin) (tref : Int)
    (xs : List Full) (hok : ∀ y ∈ xs, y.Ok c) (hd : ∀ y ∈ xs, (inRange c y.file.blocks).length ≤ 17280) :
    ((allPoints c tref xs).length : Int) ≤ numPts c.every (numDays tmin tmax c.start c.stop xs.length) := by
  have hk : ∀ y ∈ xs, y.k ≤ nDay c.every := by
    intro y hy
    have h1 := hd y hy
    rw [(hok y hy).len] at h1
    exact (Nat.le_div_iff_mul_le (by omega)).2 h1
  have hlen : (allPoints c tref xs).length ≤ nDay c.every * xs.length := by
    clear hok hd
    induction xs with
    | nil => simp [allPoints]
    | cons x xs ih =>
      have h1 := hk x (List.mem_cons_self ..)
      have h2 := ih fun y hy => hk y (List.mem_cons_of_mem _ hy)
      have hsplit : allPoints c tref (x :: xs) = x.points c tref ++ allPoints c tref xs := by simp [allPoints]
      rw [hsplit, List.length_append, List.length_cons, Nat.mul_succ]
      have h3 : (x.points c tref).length = x.k := by simp [Full.points]
      omega
  have hdays : numDays tmin tmax c.start c.stop xs.length = (xs.length : ℕ) := by
    unfold numDays
    rw [if_neg (by simp [hstart])]
  rw [hdays, numPts_files]
  omega

/-- **C108 is false: room.**  The number of rows is a guess from the number of files or the length of the date range; a
file with more windows than guessed (observations more often than twice in ten seconds, or longer than a day) is written
beyond the matrices. -/
theorem room_counterexample (ldlt : (m : Nat) → Matrix (Fin m) (Fin m) ℝ → (Fin m → ℝ) → Fin m → ℝ) (c : Cfg ℝ)
    (hE : 2 ≤ c.every) (ho : 1 ≤ c.order) (tmin tmax : Int) (hstart : c.start = tmin) (x : Full) (hok : x.Ok c)
    (hk : nDay c.every + 10 < x.k) : fitAll ldlt c tmin tmax [x.file] = .outside := by
  have hdays : numDays tmin tmax c.start c.stop 1 = (1 : ℕ) := by
    unfold numDays
    rw [if_neg (by simp [hstart])]
  have hp := windows_partial { c with tref := x.file.ref } hE ho x.file.t0 x.file.tend x.file.blocks x.file.final
    hok.final x.v x.τ hok.vals x.k hok.pos hok.len
  unfold fitAll
  simp only [List.length_cons, List.length_nil, Nat.zero_add, hdays, numPts_files, readAll, if_true, hp, List.length_map,
    List.length_range]
  rw [if_neg (by omega), if_pos (by omega)]

/-- **C108 is false: files without data.**  A file without any epoch in range is not reported and adds a row: the value
zero at a date that was never set (`t0`, `tend` are the indeterminate contents of local variables). -/
theorem no_data_counterexample (c : Cfg ℝ) (hE : 2 ≤ c.every) (ho : 1 ≤ c.order) (tmin cap : Int) (f : File)
    (hf : f.final ≤ 0) (hn : inRange c f.blocks = []) (tref : Int) (ht : tref ≠ tmin) (rows : List (Row ℝ))
    (hcap : ((rows.length + 1 : Nat) : Int) ≤ cap) :
    readAll c tmin cap [f] tref rows =
      .rows tref (rows ++ [⟨some 0, designRow c.order (c.days (midpoint f.t0 f.tend) tref)⟩]) := by
  have h := empty_counterexample { c with tref := tref } hE ho f.t0 f.tend f.blocks f.final hf hn
  simp only [readAll, if_neg ht, h, List.length_cons, List.length_nil]
  rw [if_neg (by omega), if_neg (by simp)]

/-- A file that ends with an error makes the fit fail (if the rows before the error fit). -/
theorem fit_failure (ldlt : (m : Nat) → Matrix (Fin m) (Fin m) ℝ → (Fin m → ℝ) → Fin m → ℝ) (c : Cfg ℝ)
    (tmin tmax : Int) (fs : List File) (f : File) (hf : f ∈ fs)
    (hbad : ∀ tref n rows, parse { c with tref := tref } f.t0 f.tend f.blocks f.final = some (n, rows) → n ≠ 0) :
    fitAll ldlt c tmin tmax fs = .failed ∨ fitAll ldlt c tmin tmax fs = .outside := by
  have key : ∀ (fs : List File) (cap tref : Int) (rows : List (Row ℝ)), f ∈ fs →
      readAll c tmin cap fs tref rows = .failed ∨ readAll c tmin cap fs tref rows = .outside := by
    intro fs
    induction fs with
    | nil => intro _ _ _ h; simp at h
    | cons g gs ih =>
      intro cap tref rows hm
      simp only [readAll]
      split
      · exact .inr rfl
      · rename_i status new hp
        split
        · exact .inr rfl
        · split
          · exact .inl rfl
          · rename_i h0
            rcases List.mem_cons.1 hm with rfl | hm
            · exact absurd (not_not.1 h0) (hbad _ _ _ hp)
            · exact ih _ _ _ hm
  unfold fitAll
  simp only
  split
  · exact .inr rfl
  · rcases key fs (numPts c.every (numDays tmin tmax c.start c.stop fs.length)) tmin [] hf with h | h <;> rw [h]
    · exact .inl rfl
    · exact .inr rfl

/-! ### Concrete instances -/

/-- Windows of two values; seconds. -/
def c2 : Cfg ℝ := ⟨true, 2, 1, 0, -1000, 1000, fun a b => ((a - b : Int) : ℝ), fun a b => ((a - b : Int) : ℝ)⟩

/-- Four epochs two seconds apart. -/
def four : Full :=
  ⟨⟨[⟨0, 0, some 1⟩, ⟨2, 2, some 3⟩, ⟨4, 4, some 5⟩, ⟨6, 6, some 7⟩], -1, 0, 0, 0⟩,
    fun i => 2 * i + 1, fun i => 2 * i, 2⟩

theorem four_ok : four.Ok c2 := by
  have hr : inRange c2 four.file.blocks = four.file.blocks := by
    simp [inRange, c2, four]
  refine ⟨by simp [four], ?_, by simp [four], by rw [hr]; rfl⟩
  rw [hr]
  intro i hi
  simp only [four, List.length_cons, List.length_nil] at hi
  have : i = 0 ∨ i = 1 ∨ i = 2 ∨ i = 3 := by omega
  rcases this with rfl | rfl | rfl | rfl <;> simp [four, date, c2] <;> norm_num

theorem four_points : allPoints c2 0 [four] = [⟨1, 2⟩, ⟨5, 6⟩] := by
  simp [allPoints, Full.points, four, c2, List.range_succ, midpoint, Finset.sum_range_succ]
  norm_num

/-- All hypotheses of `fit_exact_partial` hold for this file and the polynomial `1 + t`. -/
example (ldlt : (m : Nat) → Matrix (Fin m) (Fin m) ℝ → (Fin m → ℝ) → Fin m → ℝ) (hl : Solves ldlt) :
    fitAll ldlt c2 (-1000) 1000 [four.file] = .ok 0 (fun _ => 1) := by
  refine fit_exact_partial ldlt hl c2 le_rfl le_rfl (-1000) 1000 four [] (by simpa using four_ok) (by simp [four]) ?_
    (fun i => 1 + 4 * ((i : ℕ) : ℝ)) ?_ ?_ (fun _ => 1) ?_
  · exact room_partial c2 le_rfl (-1000) 1000 rfl 0 [four] (by simpa using four_ok) (by
      simp only [List.mem_singleton, forall_eq, four_ok.len]
      simp [four, c2])
  · intro i j h
    simpa [Fin.ext_iff] using h
  · rw [show four.file.ref = 0 from rfl, four_points]
    intro i
    have hi : (i : ℕ) < 2 := i.isLt
    have : (i : ℕ) = 0 ∨ (i : ℕ) = 1 := by omega
    rcases this with h | h <;> rw [h] <;> norm_num
  · rw [show four.file.ref = 0 from rfl, four_points]
    have h1 : ∀ t, polyAt (m := c2.order + 1) (fun _ => 1) t = 1 + t := fun t => by
      show ∑ p : Fin 2, (1 : ℝ) * t ^ (p : ℕ) = _
      simp [Fin.sum_univ_two]
    simp only [h1]
    norm_num

/-- `k` windows at one date. -/
def many (k : ℕ) : Full :=
  ⟨⟨List.replicate (k * 2) ⟨0, 0, some 1⟩, -1, 0, 0, 0⟩, fun _ => 1, fun _ => 0, k⟩

theorem many_ok (k : ℕ) (hk : 1 ≤ k) : (many k).Ok c2 := by
  have hr : inRange c2 (many k).file.blocks = List.replicate (k * 2) ⟨0, 0, some 1⟩ := by
    simp [inRange, many, c2]
  refine ⟨by simp [many], ?_, hk, by rw [hr, List.length_replicate]; rfl⟩
  rw [hr]
  intro i hi
  simp [many, date, c2]

/-- Windows of two values and 8651 windows in one file: outside. -/
example (ldlt : (m : Nat) → Matrix (Fin m) (Fin m) ℝ → (Fin m → ℝ) → Fin m → ℝ) :
    fitAll ldlt c2 (-1000) 1000 [(many 8651).file] = .outside :=
  room_counterexample ldlt c2 le_rfl le_rfl (-1000) 1000 rfl (many 8651) (many_ok _ (by omega))
    (show 17280 / 2 + 10 < 8651 by norm_num)

/-- A file without blocks. -/
example : readAll c2 (-1000) 10 [⟨[], -1, 7, 3, 5⟩] 7 [] =
    .rows 7 ([] ++ [⟨some 0, designRow c2.order (c2.days (midpoint 3 5) 7)⟩]) :=
  no_data_counterexample c2 le_rfl le_rfl (-1000) 10 ⟨[], -1, 7, 3, 5⟩ (by simp) rfl 7 (by omega) [] (by simp)

/-- A file whose iterator ends with an error. -/
example (ldlt : (m : Nat) → Matrix (Fin m) (Fin m) ℝ → (Fin m → ℝ) → Fin m → ℝ) :
    fitAll ldlt c2 (-1000) 1000 [four.file, ⟨[], 1, 7, 3, 5⟩] = .failed ∨
      fitAll ldlt c2 (-1000) 1000 [four.file, ⟨[], 1, 7, 3, 5⟩] = .outside := by
  refine fit_failure ldlt c2 (-1000) 1000 _ ⟨[], 1, 7, 3, 5⟩ (by simp) ?_
  intro tref n rows h
  simp only [parse, loop] at h
  simp at h
  omega

end Verif.RfoFit
