import Verif.Atmosphere.SplineCalc
import Verif.Atmosphere.MsisModel
import Mathlib.Analysis.SpecialFunctions.Pow.Deriv
import Mathlib.Analysis.SpecialFunctions.ExpDeriv

/-! Calculus for the temperature and density profiles (C115): gluing of differentiable pieces, the
height coordinate `zeta`, and the splines of the inverse temperature. -/
namespace Verif.Atmosphere.Profile
open Set Verif.Atmosphere.Msis

/-! ### Specification -/

/-- `f` is differentiable on the closed interval (one-sided at the ends) with the continuous
derivative `D`. -/
def C1On (f D : ℝ → ℝ) (a b : ℝ) : Prop :=
  ContinuousOn D (Icc a b) ∧ ∀ x ∈ Icc a b, HasDerivWithinAt f (D x) (Icc a b) x

/-- Gravity at height `z` above a sphere of radius `re`, `gsurf` at the surface. -/
noncomputable def grav (re gsurf z : ℝ) : ℝ := gsurf * (re / (re + z)) ^ 2

/-! ### Gluing -/

theorem deriv_glue {f d : ℝ → ℝ} {a b c : ℝ} (hab : a ≤ b) (hbc : b ≤ c)
    (h1 : ∀ x ∈ Icc a b, HasDerivWithinAt f (d x) (Icc a b) x)
    (h2 : ∀ x ∈ Icc b c, HasDerivWithinAt f (d x) (Icc b c) x) :
    ∀ x ∈ Icc a c, HasDerivWithinAt f (d x) (Icc a c) x := by
  intro x hx
  rcases lt_trichotomy x b with h | rfl | h
  · refine (h1 x ⟨hx.1, h.le⟩).mono_of_mem_nhdsWithin ?_
    filter_upwards [self_mem_nhdsWithin, mem_nhdsWithin_of_mem_nhds (Iio_mem_nhds h)] with t ht hb
    exact ⟨ht.1, le_of_lt hb⟩
  · have := (h1 x ⟨hab, le_refl _⟩).union (h2 x ⟨le_refl _, hbc⟩)
    rwa [Icc_union_Icc_eq_Icc hab hbc] at this
  · refine (h2 x ⟨h.le, hx.2⟩).mono_of_mem_nhdsWithin ?_
    filter_upwards [self_mem_nhdsWithin, mem_nhdsWithin_of_mem_nhds (Ioi_mem_nhds h)] with t ht hb
    exact ⟨le_of_lt hb, ht.2⟩

/-- Two differentiable pieces with the same slope where they meet make one. -/
theorem C1On.glue {f D₁ D₂ : ℝ → ℝ} {a b c : ℝ} (hab : a ≤ b) (hbc : b ≤ c) (h1 : C1On f D₁ a b)
    (h2 : C1On f D₂ b c) (hb : D₁ b = D₂ b) :
    ∃ D, C1On f D a c ∧ (∀ x ∈ Icc a b, D x = D₁ x) ∧ ∀ x ∈ Icc b c, D x = D₂ x := by
  have e1 : ∀ x ∈ Icc a b, (fun x => if x ≤ b then D₁ x else D₂ x) x = D₁ x := fun x hx =>
    if_pos hx.2
  have e2 : ∀ x ∈ Icc b c, (fun x => if x ≤ b then D₁ x else D₂ x) x = D₂ x := by
    intro x hx
    by_cases h : x ≤ b
    · obtain rfl := le_antisymm h hx.1
      show (if x ≤ x then _ else _) = _
      rw [if_pos le_rfl, hb]
    · exact if_neg h
  refine ⟨_, ⟨?_, ?_⟩, e1, e2⟩
  · rw [← Icc_union_Icc_eq_Icc hab hbc]
    exact (h1.1.congr e1).union_of_isClosed (h2.1.congr e2) isClosed_Icc isClosed_Icc
  · refine deriv_glue hab hbc ?_ ?_
    · intro x hx
      have := h1.2 x hx
      rwa [← e1 x hx] at this
    · intro x hx
      have := h2.2 x hx
      rwa [← e2 x hx] at this

theorem C1On.continuousOn {f D : ℝ → ℝ} {a b : ℝ} (h : C1On f D a b) : ContinuousOn f (Icc a b) :=
  fun x hx => (h.2 x hx).continuousWithinAt

theorem C1On.congr {f g D : ℝ → ℝ} {a b : ℝ} (h : C1On f D a b) (e : ∀ x ∈ Icc a b, g x = f x) :
    C1On g D a b :=
  ⟨h.1, fun x hx => (h.2 x hx).congr e (e x hx)⟩

/-! ### The spline as one curve -/

variable (tiny big : ℝ) (xa ya : ℕ → ℝ)

theorem mem_first {n : ℕ} (hx : Increasing xa n) {i : ℕ} (hi : i < n) : xa 0 ≤ xa i := by
  rcases Nat.eq_zero_or_pos i with rfl | h
  · exact le_rfl
  · exact (inc_lt xa n hx 0 i h hi).le

theorem cubicD_continuous (y2a : ℕ → ℝ) (i : ℕ) (hi : xa i < xa (i + 1)) :
    Continuous (cubicD xa ya y2a i) :=
  continuous_iff_continuousAt.mpr fun x => (cubicD_hasDerivAt xa ya y2a i hi x).continuousAt

theorem splint_piece (y2a : ℕ → ℝ) (n : ℕ) (hn : 3 ≤ n) (hx : Increasing xa n) (i : ℕ)
    (hi : i + 1 < n) :
    C1On (splint tiny xa ya y2a n) (cubicD xa ya y2a i) (xa i) (xa (i + 1)) :=
  C1On.congr ⟨(cubicD_continuous xa ya y2a i (hx i hi)).continuousOn,
    fun x _ => (cubic_hasDerivAt xa ya y2a i (hx i hi) x).hasDerivWithinAt⟩
    fun x h => splint_eq tiny xa ya y2a n hn hx i hi x h.1 h.2

/-- With the second derivatives of `spline` the evaluated curve is continuously differentiable from
the first to the last node, with the prescribed end slopes. -/
theorem splint_C1 (n : ℕ) (hn : 3 ≤ n) (hx : Increasing xa n) (yp1 ypn : ℝ) (w : Work ℝ)
    (h1 : ¬ yp1 > big) (h2 : ¬ ypn > big) :
    ∃ D, C1On (splint tiny xa ya (spline big xa ya n yp1 ypn w) n) D (xa 0) (xa (n - 1)) ∧
      D (xa 0) = yp1 ∧ D (xa (n - 1)) = ypn := by
  have hS := spline_solves big xa ya n (by omega) hx yp1 ypn w
  set M := spline big xa ya n yp1 ypn w
  have key : ∀ m, m + 1 < n → ∃ D, C1On (splint tiny xa ya M n) D (xa 0) (xa (m + 1)) ∧
      D (xa 0) = slopeRight xa ya M 0 ∧ D (xa (m + 1)) = slopeLeft xa ya M m := by
    intro m
    induction m with
    | zero =>
      intro hm
      exact ⟨_, splint_piece tiny xa ya M n hn hx 0 hm, (cubicD_ends xa ya M 0 (hx 0 hm)).1,
        (cubicD_ends xa ya M 0 (hx 0 hm)).2⟩
    | succ m ih =>
      intro hm
      obtain ⟨D, hD, hD1, hD2⟩ := ih (by omega)
      have hc := cubicD_ends xa ya M (m + 1) (hx (m + 1) hm)
      have hle1 := mem_first xa hx (show m + 1 < n by omega)
      have hle2 := (hx (m + 1) hm).le
      obtain ⟨E, hE, e1, e2⟩ := hD.glue hle1 hle2 (splint_piece tiny xa ya M n hn hx (m + 1) hm)
        (by rw [hD2, hc.1]; exact hS.interior m (by omega))
      refine ⟨E, hE, ?_, ?_⟩
      · rw [e1 _ ⟨le_rfl, hle1⟩, hD1]
      · rw [e2 _ ⟨hle2, le_rfl⟩, hc.2]
  obtain ⟨D, hD, hD1, hD2⟩ := key (n - 2) (by omega)
  rw [show n - 2 + 1 = n - 1 by omega] at hD hD2
  refine ⟨D, hD, ?_, ?_⟩
  · have := hS.first
    rw [if_neg h1] at this
    rw [hD1, this]
  · have := hS.last
    rw [if_neg h2] at this
    rw [hD2, this]

/-- `splini` is an antiderivative of the evaluated curve from the first to the last node. -/
theorem splini_deriv (y2a : ℕ → ℝ) (n : ℕ) (hn : 3 ≤ n) (hx : Increasing xa n) :
    (∀ x ∈ Icc (xa 0) (xa (n - 1)), HasDerivWithinAt (splini xa ya y2a n)
      (splint tiny xa ya y2a n x) (Icc (xa 0) (xa (n - 1))) x) ∧ splini xa ya y2a n (xa 0) = 0 := by
  have hlast : ∀ i, i + 1 < n → xa (i + 1) ≤ xa (n - 1) := by
    intro i hi
    rcases Nat.lt_or_eq_of_le (show i + 1 ≤ n - 1 by omega) with h | h
    · exact (inc_lt xa n hx _ _ h (by omega)).le
    · rw [h]
  have hpiece : ∀ i, i + 1 < n → ∀ x ∈ Icc (xa i) (xa (i + 1)), splini xa ya y2a n x =
      (∑ k ∈ Finset.range i, cubicInt xa ya y2a k (k + 1) (xa (k + 1))) +
        cubicInt xa ya y2a i (i + 1) x := by
    intro i hi x h
    rw [splini_eq_integral tiny xa ya y2a n hn hx x
      (le_trans (mem_first xa hx (by omega)) h.1) (le_trans h.2 (hlast i hi))]
    obtain ⟨a1, a2⟩ := nodes_integral tiny xa ya y2a n hn hx i (by omega)
    obtain ⟨b1, b2⟩ := segment_integral tiny xa ya y2a n hn hx i hi x h.1 h.2
    rw [← intervalIntegral.integral_add_adjacent_intervals a1 b1, a2, b2]
  have hd : ∀ i, i + 1 < n → ∀ x ∈ Icc (xa i) (xa (i + 1)), HasDerivWithinAt (splini xa ya y2a n)
      (splint tiny xa ya y2a n x) (Icc (xa i) (xa (i + 1))) x := by
    intro i hi x h
    rw [splint_eq tiny xa ya y2a n hn hx i hi x h.1 h.2]
    exact ((cubicInt_hasDerivAt xa ya y2a i (hx i hi) x).const_add _).hasDerivWithinAt.congr
      (hpiece i hi) (hpiece i hi x h)
  have key : ∀ m, m + 1 < n → ∀ x ∈ Icc (xa 0) (xa (m + 1)), HasDerivWithinAt
      (splini xa ya y2a n) (splint tiny xa ya y2a n x) (Icc (xa 0) (xa (m + 1))) x := by
    intro m
    induction m with
    | zero => intro hm; exact hd 0 hm
    | succ m ih =>
      intro hm
      exact deriv_glue (mem_first xa hx (by omega)) (hx (m + 1) hm).le (ih (by omega)) (hd (m + 1) hm)
  refine ⟨?_, ?_⟩
  · have := key (n - 2) (by omega)
    rwa [show n - 2 + 1 = n - 1 by omega] at this
  · rw [hpiece 0 (by omega) (xa 0) ⟨le_rfl, (hx 0 (by omega)).le⟩,
      cubicInt_start xa ya y2a 0 (hx 0 (by omega))]
    simp

/-! ### The height coordinate -/

theorem zeta_deriv (re zl z : ℝ) (h : re + z ≠ 0) :
    HasDerivAt (fun t => zeta re t zl) (((re + zl) / (re + z)) ^ 2) z := by
  have := (((hasDerivAt_id z).sub_const zl).mul_const (re + zl)).div
    ((hasDerivAt_id z).const_add re) h
  refine HasDerivAt.congr_deriv (f := fun t => zeta re t zl) this ?_
  simp only [id]
  field_simp
  ring

theorem zeta_self (re z : ℝ) : zeta re z z = 0 := by simp [zeta]

theorem zeta_lt (re zl a b : ℝ) (ha : 0 < re + a) (hl : 0 < re + zl) (h : a < b) :
    zeta re a zl < zeta re b zl := by
  unfold zeta
  rw [div_lt_div_iff₀ ha (by linarith)]
  have : (b - zl) * (re + zl) * (re + a) - (a - zl) * (re + zl) * (re + b) =
    (re + zl) ^ 2 * (b - a) := by ring
  have := mul_pos (pow_pos hl 2) (sub_pos.2 h)
  linarith

/-- Decreasing nodes above the centre. -/
structure Nodes (re : ℝ) (n : ℕ) (zn : ℕ → ℝ) : Prop where
  three : 3 ≤ n
  dec : ∀ i, i + 1 < n → zn (i + 1) < zn i
  pos : 0 < re + zn (n - 1)

variable {re : ℝ} {n : ℕ} {zn : ℕ → ℝ}

theorem Nodes.anti (h : Nodes re n zn) : ∀ j i, i ≤ j → j < n → zn j ≤ zn i := by
  intro j
  induction j with
  | zero => intro i hi _; rw [Nat.le_zero.mp hi]
  | succ j ih =>
    intro i hi hj
    rcases Nat.lt_or_eq_of_le hi with hlt | rfl
    · exact le_trans (h.dec j hj).le (ih i (by omega) (by omega))
    · exact le_rfl

theorem Nodes.lower (h : Nodes re n zn) {i : ℕ} (hi : i < n) : 0 < re + zn i := by
  have h3 := h.three
  have := h.anti (n - 1) i (by omega) (by omega)
  linarith [h.pos]

theorem Nodes.ends (h : Nodes re n zn) : zn (n - 1) < zn 0 := by
  have h3 := h.three
  exact lt_of_le_of_lt (h.anti (n - 1) 1 (by omega) (by omega)) (h.dec 0 (by omega))

/-- The abscissae of the spline. -/
noncomputable def xs (re : ℝ) (n : ℕ) (zn : ℕ → ℝ) (z : ℝ) : ℝ :=
  zeta re z (zn 0) / zeta re (zn (n - 1)) (zn 0)

theorem Nodes.dif_neg (h : Nodes re n zn) : zeta re (zn (n - 1)) (zn 0) < 0 := by
  have h3 := h.three
  have := zeta_lt re (zn 0) _ _ h.pos (h.lower (by omega)) h.ends
  rwa [zeta_self] at this

theorem Nodes.xs_anti (h : Nodes re n zn) {a b : ℝ} (ha : 0 < re + a) (hab : a < b) :
    xs re n zn b < xs re n zn a := by
  have h3 := h.three
  unfold xs
  rw [div_lt_div_right_of_neg h.dif_neg]
  exact zeta_lt re (zn 0) a b ha (h.lower (by omega)) hab

theorem Nodes.increasing (h : Nodes re n zn) : Increasing (fun k => xs re n zn (zn k)) n := by
  intro i hi
  exact h.xs_anti (h.lower hi) (h.dec i hi)

theorem Nodes.maps (h : Nodes re n zn) :
    MapsTo (xs re n zn) (Icc (zn (n - 1)) (zn 0)) (Icc (xs re n zn (zn 0)) (xs re n zn (zn (n - 1)))) := by
  intro z hz
  have hp : 0 < re + z := by linarith [h.pos, hz.1]
  refine ⟨?_, ?_⟩
  · rcases eq_or_lt_of_le hz.2 with e | e
    · rw [e]
    · exact (h.xs_anti hp e).le
  · rcases eq_or_lt_of_le hz.1 with e | e
    · rw [← e]
    · exact (h.xs_anti h.pos e).le

theorem xs_deriv (z : ℝ) (hz : re + z ≠ 0) : HasDerivAt (xs re n zn)
    (((re + zn 0) / (re + z)) ^ 2 / zeta re (zn (n - 1)) (zn 0)) z :=
  (zeta_deriv re (zn 0) z hz).div_const _

/-! ### The inverse temperature -/

/-- End slopes of the inverse temperature in the spline coordinate. -/
noncomputable def yd1 (re : ℝ) (n : ℕ) (zn tn tg : ℕ → ℝ) : ℝ :=
  -tg 0 / (tn 0 * tn 0) * zeta re (zn (n - 1)) (zn 0)

@[inherit_doc yd1]
noncomputable def yd2 (re : ℝ) (n : ℕ) (zn tn tg : ℕ → ℝ) : ℝ :=
  -tg 1 / (tn (n - 1) * tn (n - 1)) * zeta re (zn (n - 1)) (zn 0) *
    ((re + zn (n - 1)) / (re + zn 0)) ^ (2 : ℝ)

/-- Second derivatives. -/
noncomputable def sec (re : ℝ) (n : ℕ) (zn tn tg : ℕ → ℝ) : ℕ → ℝ :=
  spline 0.99e30 (fun k => xs re n zn (zn k)) (fun k => 1 / tn k) n (yd1 re n zn tn tg)
    (yd2 re n zn tn tg) junk

/-- The inverse temperature at a height. -/
noncomputable def inv (re : ℝ) (n : ℕ) (zn tn tg : ℕ → ℝ) (z : ℝ) : ℝ :=
  splint 1e-30 (fun k => xs re n zn (zn k)) (fun k => 1 / tn k) (sec re n zn tn tg) n (xs re n zn z)

/-- The integral of the inverse temperature. -/
noncomputable def area (re : ℝ) (n : ℕ) (zn tn tg : ℕ → ℝ) (z : ℝ) : ℝ :=
  splini (fun k => xs re n zn (zn k)) (fun k => 1 / tn k) (sec re n zn tn tg) n (xs re n zn z)

/-- What is needed of the nodes: temperatures not zero at the ends, and end slopes not so huge that
they ask for a natural end. -/
structure Gentle (re : ℝ) (n : ℕ) (zn tn tg : ℕ → ℝ) : Prop where
  first : tn 0 ≠ 0
  last : tn (n - 1) ≠ 0
  slope1 : ¬ yd1 re n zn tn tg > 0.99e30
  slope2 : ¬ yd2 re n zn tn tg > 0.99e30

variable {tn tg : ℕ → ℝ}

theorem inv_node (h : Nodes re n zn) {k : ℕ} (hk : k < n) : inv re n zn tn tg (zn k) = 1 / tn k :=
  splint_node _ _ _ _ n h.three h.increasing k hk

/-- The temperature is continuously differentiable between the outer nodes, with the given gradients
there. -/
theorem temp_C1 (h : Nodes re n zn) (hg : Gentle re n zn tn tg)
    (hp : ∀ z ∈ Icc (zn (n - 1)) (zn 0), 0 < inv re n zn tn tg z) :
    ∃ D, C1On (fun z => 1 / inv re n zn tn tg z) D (zn (n - 1)) (zn 0) ∧ D (zn 0) = tg 0 ∧
      D (zn (n - 1)) = tg 1 := by
  have h3 := h.three
  obtain ⟨E, hE, e1, e2⟩ := splint_C1 1e-30 0.99e30 (fun k => xs re n zn (zn k)) (fun k => 1 / tn k) n
    h3 h.increasing (yd1 re n zn tn tg) (yd2 re n zn tn tg) junk hg.slope1 hg.slope2
  set dif := zeta re (zn (n - 1)) (zn 0) with hdif
  have hdne : dif ≠ 0 := h.dif_neg.ne
  have h0 : 0 < re + zn 0 := h.lower (by omega)
  refine ⟨fun z => -(E (xs re n zn z) * (((re + zn 0) / (re + z)) ^ 2 / dif)) /
    inv re n zn tn tg z ^ 2, ⟨?_, ?_⟩, ?_, ?_⟩
  · have hc : ContinuousOn (xs re n zn) (Icc (zn (n - 1)) (zn 0)) := fun z hz =>
      (xs_deriv z (by linarith [h.pos, hz.1] : (0 : ℝ) < re + z).ne').continuousAt.continuousWithinAt
    have hi : ContinuousOn (inv re n zn tn tg) (Icc (zn (n - 1)) (zn 0)) :=
      hE.continuousOn.comp hc h.maps
    refine ContinuousOn.div (((hE.1.comp hc h.maps).mul ((ContinuousOn.pow ?_ 2).div_const _)).neg)
      (hi.pow 2) fun z hz => pow_ne_zero 2 (hp z hz).ne'
    exact continuousOn_const.div (continuousOn_const.add continuousOn_id) fun z hz =>
      (by simp only [id]; linarith [h.pos, hz.1] : (0 : ℝ) < re + id z).ne'
  · intro z hz
    have hx := (xs_deriv (n := n) (zn := zn) z (by linarith [h.pos, hz.1] : (0 : ℝ) < re + z).ne')
    have hc : HasDerivWithinAt (inv re n zn tn tg)
        (E (xs re n zn z) * (((re + zn 0) / (re + z)) ^ 2 / dif)) (Icc (zn (n - 1)) (zn 0)) z :=
      (hE.2 _ (h.maps hz)).comp z hx.hasDerivWithinAt h.maps
    have := hc.inv (hp z hz).ne'
    refine this.congr (fun t _ => ?_) ?_ <;> simp [one_div]
  · have hE0 : E (xs re n zn (zn 0)) = yd1 re n zn tn tg := e1
    simp only [hE0, inv_node h (show 0 < n by omega), div_self h0.ne', yd1, ← hdif]
    have := hg.first
    field_simp
  · have hE0 : E (xs re n zn (zn (n - 1))) = yd2 re n zn tn tg := e2
    simp only [hE0, inv_node h (show n - 1 < n by omega), yd2, Real.rpow_two, ← hdif]
    have := hg.last
    have hl := h.pos.ne'
    have h0' := h0.ne'
    field_simp

/-- The exponent of the density: derivative and value at the top. -/
theorem area_deriv (h : Nodes re n zn) (hre : re ≠ 0) (gsurf xm R : ℝ) :
    (∀ z ∈ Icc (zn (n - 1)) (zn 0), HasDerivWithinAt
      (fun t => xm * (gsurf / (1 + zn 0 / re) ^ (2 : ℝ)) * zeta re (zn (n - 1)) (zn 0) / R *
        area re n zn tn tg t)
      (xm * grav re gsurf z / R * inv re n zn tn tg z) (Icc (zn (n - 1)) (zn 0)) z) ∧
    area re n zn tn tg (zn 0) = 0 := by
  have h3 := h.three
  obtain ⟨hd, h0⟩ := splini_deriv 1e-30 (fun k => xs re n zn (zn k)) (fun k => 1 / tn k)
    (sec re n zn tn tg) n h3 h.increasing
  refine ⟨fun z hz => ?_, h0⟩
  have hz0 : re + z ≠ 0 := (by linarith [h.pos, hz.1] : (0 : ℝ) < re + z).ne'
  have hx := xs_deriv (n := n) (zn := zn) z hz0
  have hc : HasDerivWithinAt (area re n zn tn tg) (inv re n zn tn tg z *
      (((re + zn 0) / (re + z)) ^ 2 / zeta re (zn (n - 1)) (zn 0))) (Icc (zn (n - 1)) (zn 0)) z :=
    (hd _ (h.maps hz)).comp z hx.hasDerivWithinAt h.maps
  refine (hc.const_mul _).congr_deriv ?_
  have hdne := h.dif_neg.ne
  have hn0 : re + zn 0 ≠ 0 := (h.lower (by omega)).ne'
  have e : 1 + zn 0 / re = (re + zn 0) / re := by field_simp
  rw [Real.rpow_two, e, grav]
  generalize zeta re (zn (n - 1)) (zn 0) = d at *
  generalize inv re n zn tn tg z = v
  by_cases hR : R = 0
  · subst hR; simp
  field_simp

end Verif.Atmosphere.Profile
