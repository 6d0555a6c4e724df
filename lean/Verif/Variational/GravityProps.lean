import Verif.Variational.GravityModel
import Verif.Gravity.Gradient
import Verif.Icgem.LoadProps
import Verif.Forces.Frames
import Mathlib.Analysis.Calculus.Deriv.Inv
import Mathlib.Analysis.Calculus.Deriv.Pow

/-! C114: gravity in the integration, from the file of the model to the celestial acceleration. -/
namespace Verif.Variational

open Verif.Astro Verif.Forces Verif.Gravity Verif.Mat2D Finset
open Verif.Harmonic (addrC addrS)
open Verif.Icgem (Strtod Ent Proper Readable Complete CompleteBut1 GoodHeader HeaderSays Given Norm fileOf items factor loadModel)
open Verif.Rinex Verif.Text

/-! ### Specification -/

/-- `a` is the gradient of `f` at `r`: its product with any direction is the derivative in that direction. -/
def Gradient (f : V3 → ℝ) (a r : V3) : Prop :=
  ∀ u : V3, HasDerivAt (fun s : ℝ => f (r.add (u.smul s))) (a.dot u) 0

/-- The potential of the Earth at an Earth-fixed position. -/
noncomputable def geopotential (degree order : Nat) (gm re : ℝ) (X Y : Nat → Nat → ℝ) (r : V3) : ℝ :=
  potential degree order re gm X Y (Geo.ofPos re r.x r.y r.z)

open Classical in
/-- `X`, `Y` are the (un-normalised) coefficients that a file gives up to degree `l` and order `m`. -/
def FromFile (es : List Ent) (is : List Icgem.Item) (l m : Nat) (X Y : Nat → Nat → ℝ) : Prop :=
  ∀ n k, n ≤ l → k ≤ n → k ≤ m → ∀ x s : ℚ, Given is n k x s →
    X n k = x * factor (decide (Norm es)) n k ∧ (1 ≤ k → Y n k = s * factor (decide (Norm es)) n k)

/-! ### One evaluation -/

theorem potential_congr (degree order : Nat) (re gm : ℝ) (C S X Y : Nat → Nat → ℝ) (g : Geo ℝ)
    (h : ∀ n k, n ≤ degree → k ≤ n → k ≤ order → C n k = X n k ∧ (1 ≤ k → S n k = Y n k)) :
    potential degree order re gm C S g = potential degree order re gm X Y g := by
  unfold potential tessSum
  congr 1
  congr 1
  · refine sum_congr rfl fun i hi => ?_
    rw [(h i 0 (by have := mem_range.1 hi; omega) (by omega) (by omega)).1]
  · refine sum_congr rfl fun i hi => sum_congr rfl fun j hj => ?_
    have hi := mem_range.1 hi
    have hj := mem_range.1 hj
    obtain ⟨h1, h2⟩ := h (i + 1) (j + 1) (by omega) (by omega) (by omega)
    simp only [h1, h2 (by omega)]

theorem newArray_arrays (degree order : Nat) (memV memW : Nat → ℝ) :
    Arrays (degree + 3) (order + 3) (newArray degree order memV) (newArray degree order memW) :=
  ⟨rfl, by simp [newArray], rfl, by simp [newArray]⟩

theorem line_eq (r u : V3) (s : ℝ) : r.add (u.smul s) = ⟨r.x + s * u.x, r.y + s * u.y, r.z + s * u.z⟩ := by
  simp only [V3.add, V3.smul]

theorem dot_pos (r : V3) (h : r ≠ ⟨0, 0, 0⟩) : r.x * r.x + r.y * r.y + r.z * r.z ≠ 0 := by
  have h1 := V3.norm_pos r h
  have h2 := V3.norm_sq r
  have h3 : 0 < r.norm * r.norm := mul_pos h1 h1
  rw [h2] at h3
  exact h3.ne'

/-- The call without partials. -/
theorem gravAccel_spec (h : Field) (degree order rows cols : Nat) (V W : Mat ℝ) (hA : Arrays rows cols V W)
    (hrow : degree + 2 ≤ rows) (hcol : order + 2 ≤ cols) (ho : order ≤ degree) (hre : h.re ≠ 0) (pos : V3)
    (hp : pos ≠ ⟨0, 0, 0⟩) :
    ∃ a V' W', gravAccel h degree order V W pos = some (a, V', W') ∧ Arrays rows cols V' W' ∧
      Gradient (geopotential degree order h.gm h.re h.C h.S) a pos := by
  obtain ⟨V1, W1, acc, e1, e2, e3⟩ := accel_is_gradient degree order rows cols h.re h.gm pos.x pos.y pos.z hre (dot_pos pos hp)
    V W h.C h.S hA ho hrow hcol
  obtain ⟨V2, W2, e4, hA', -, -⟩ := wrapper_accel_safe (Geo.ofPos h.re pos.x pos.y pos.z) degree order rows cols V W hA ho hrow hcol
  rw [e1] at e4
  cases e4
  refine ⟨toV3 acc, V1, W1, ?_, hA', ?_⟩
  · unfold gravAccel
    rw [hA.vShape, hA.wShape, if_neg (not_not.2 ⟨hrow, hcol⟩), if_neg (not_not.2 ⟨hrow, hcol⟩), e1]
    simp [e2]
  · intro u
    refine ((e3 u.x u.y u.z).congr_deriv ?_).congr_of_eventuallyEq (Filter.Eventually.of_forall fun s => ?_)
    · simp only [toV3, V3.dot]; ring
    · simp only [geopotential, line_eq]

/-- The matrix handed to the rotation is the one computed, entry by entry: it maps a displacement to the change of the
components of the acceleration. -/
theorem toM3_mulVec (m : Mat33 ℝ) (v : V3) :
    (toM3 m).mulVec v =
      ⟨m 0 0 * v.x + m 0 1 * v.y + m 0 2 * v.z, m 1 0 * v.x + m 1 1 * v.y + m 1 2 * v.z,
        m 2 0 * v.x + m 2 1 * v.y + m 2 2 * v.z⟩ := by
  simp only [toM3, M3.mulVec, V3.dot]

/-- The call with partials. -/
theorem gravAccelPartials_spec (h : Field) (degree order : Nat) (V W : Mat ℝ)
    (hA : Arrays (degree + 3) (order + 3) V W) (h1 : 1 ≤ order) (ho : order ≤ degree) (hre : h.re ≠ 0) (pos : V3)
    (hp : pos ≠ ⟨0, 0, 0⟩) (inp : Mat33 ℝ) :
    ∃ a m V' W', gravAccelPartials h degree order V W pos inp = some (a, m, V', W') ∧
      Arrays (degree + 3) (order + 3) V' W' ∧ Gradient (geopotential degree order h.gm h.re h.C h.S) a pos := by
  obtain ⟨V1, W1, acc, e1, e2, e3⟩ := accel_is_gradient degree order _ _ h.re h.gm pos.x pos.y pos.z hre (dot_pos pos hp)
    V W h.C h.S hA ho (by omega) (by omega)
  obtain ⟨V2, W2, e4, -, hV, hW⟩ := wrapper_accel_safe (Geo.ofPos h.re pos.x pos.y pos.z) degree order _ _ V W hA ho
    (by omega) (by omega)
  rw [e1] at e4
  cases e4
  rw [accel_eq degree order h.re h.gm V1 W1 h.C h.S _ _ hV hW] at e2
  obtain ⟨V2, W2, e5, hA', hV', hW'⟩ := wrapper_partials_safe (Geo.ofPos h.re pos.x pos.y pos.z) degree order _ _ V W hA ho rfl rfl
  have e6 := accelPartials_eq degree order h1 h.re h.gm V2 W2 h.C h.S _ _ inp hV' hW'
  rw [Option.some.injEq] at e2
  rw [e2] at e6
  refine ⟨toV3 acc, ?_, V2, W2, ?_, hA', ?_⟩
  · exact toM3 (partialsOut (parTotal h.C h.S (specV (Geo.ofPos h.re pos.x pos.y pos.z))
      (specW (Geo.ofPos h.re pos.x pos.y pos.z)) degree order) inp (h.gm / h.re / h.re / h.re))
  · unfold gravAccelPartials
    rw [hA.vShape, hA.wShape, if_neg (not_not.2 ⟨rfl, rfl⟩), if_neg (not_not.2 ⟨rfl, rfl⟩), e5]
    simp only [Option.bind_eq_bind, Option.bind_some, e6]
    rw [if_neg (by simp)]
  · intro u
    refine ((e3 u.x u.y u.z).congr_deriv ?_).congr_of_eventuallyEq (Filter.Eventually.of_forall fun s => ?_)
    · simp only [toV3, V3.dot]; ring
    · simp only [geopotential, line_eq]

/-- Gradients under a fixed linear map. -/
theorem Gradient.comp {f : V3 → ℝ} {a r : V3} (U : M3) (h : Gradient f a (U.mulVec r)) :
    Gradient (fun x => f (U.mulVec x)) (U.transpose.mulVec a) r := by
  intro u
  have := h (U.mulVec u)
  refine (this.congr_deriv ?_).congr_of_eventuallyEq (Filter.Eventually.of_forall fun s => ?_)
  · rw [M3.dot_mulVec, M3.transpose_transpose]
  · simp only [M3.mulVec_add, M3.mulVec_smul]

/-- The rotations of an evaluation are orthogonal and the position is not the geocentre. -/
structure Call.Ok (q : Call) : Prop where
  rc2i : M3.Orthogonal q.rc2i
  rpom : M3.Orthogonal q.rpom
  r : q.r ≠ ⟨0, 0, 0⟩

theorem Call.Ok.geo {q : Call} (h : q.Ok) : rcel2ter q.r q.rc2i q.era q.rpom ≠ ⟨0, 0, 0⟩ := by
  intro h0
  have h1 := length_preserved q.r q.rc2i q.rpom q.era h.rc2i h.rpom
  have h2 := V3.norm_pos q.r h.r
  rw [h0] at h1
  rw [← h1] at h2
  simp [V3.norm, V3.dot] at h2

/-- The parameters fit together. -/
structure Params.Ok (p : Params) : Prop where
  arrays : Arrays (p.degree + 3) (p.order + 3) p.V p.W
  one : 1 ≤ p.order
  order : p.order ≤ p.degree
  re : p.field.re ≠ 0

theorem gravityTerm_spec (p : Params) (hp : p.Ok) (q : Call) (hq : q.Ok) :
    ∃ a m p', gravityTerm p q = some (a, m, p') ∧ p'.Ok ∧ p'.field = p.field ∧ p'.degree = p.degree ∧ p'.order = p.order ∧
      Gradient (fun x => geopotential p.degree p.order p.field.gm p.field.re p.field.C p.field.S (rcel2ter x q.rc2i q.era q.rpom))
        a q.r := by
  obtain ⟨a, m, V', W', e, hA, hg⟩ := gravAccelPartials_spec p.field p.degree p.order p.V p.W hp.arrays hp.one hp.order hp.re
    (rcel2ter q.r q.rc2i q.era q.rpom) hq.geo q.junk
  refine ⟨rter2cel a q.rc2i q.era q.rpom, M3.mul (M3.mul (c2t q.rc2i q.era q.rpom) m) (c2t q.rc2i q.era q.rpom).transpose,
    { p with V := V', W := W' }, ?_, ⟨hA, hp.one, hp.order, hp.re⟩, rfl, rfl, rfl, ?_⟩
  · simp only [gravityTerm, e, Option.bind_eq_bind, Option.bind_some]
  · exact Gradient.comp (c2t q.rc2i q.era q.rpom) hg

theorem evaluations_spec (X Y : Nat → Nat → ℝ) : ∀ (qs : List Call) (p : Params), p.Ok → (∀ q ∈ qs, q.Ok) →
    (∀ n k, n ≤ p.degree → k ≤ n → k ≤ p.order → p.field.C n k = X n k ∧ (1 ≤ k → p.field.S n k = Y n k)) →
    ∃ as p', evaluations p qs = some (as, p') ∧
      List.Forall₂ (fun q a => Gradient (fun x => geopotential p.degree p.order p.field.gm p.field.re X Y
        (rcel2ter x q.rc2i q.era q.rpom)) a q.r) qs as := by
  intro qs
  induction qs with
  | nil => intro p _ _ _; exact ⟨[], p, rfl, .nil⟩
  | cons q qs ih =>
    intro p hp hq hc
    obtain ⟨a, m, p1, e1, hp1, f1, f2, f3, hg⟩ := gravityTerm_spec p hp q (hq q (List.mem_cons_self ..))
    obtain ⟨as, p', e2, hf⟩ := ih p1 hp1 (fun x hx => hq x (List.mem_cons_of_mem _ hx)) (by rw [f1, f2, f3]; exact hc)
    refine ⟨a :: as, p', ?_, .cons ?_ ?_⟩
    · simp only [evaluations, e1, e2, Option.bind_eq_bind, Option.bind_some]
    · intro u
      refine (hg u).congr_of_eventuallyEq (Filter.Eventually.of_forall fun s => ?_)
      exact (potential_congr p.degree p.order p.field.re p.field.gm p.field.C p.field.S X Y _ hc).symm
    · rw [f1, f2, f3] at hf
      exact hf

/-! ### C114 -/

/-- **C114** A model file with a good header and a complete data section is loaded; the integration parameters are built for
its degree, whatever the memory of the work arrays holds; and then any number of evaluations, one after the other, each
give the gradient, in the celestial frame of its epoch, of the potential with the constants and the coefficients of the
file.  Missing: files without the coefficients of degree 1 (below), order 0 (below), and the partials (C54, C58). -/
theorem gravity_from_file_partial (strtod : Strtod) (es : List Ent) (fin : List Char) (data : List Line) (b : Buf) (l m D : Nat)
    (t : Icgem.Table) (gm re : ℚ) (hh : GoodHeader strtod es fin) (hs : HeaderSays strtod es gm re D)
    (hl : 1 ≤ l) (hlD : l ≤ D) (hm : 1 ≤ m) (hml : m ≤ l) (hp : Proper l m (items strtod data))
    (hr : Readable l m (items strtod data)) (hc : Complete l m (items strtod data)) (hre : re ≠ 0)
    (X Y : Nat → Nat → ℝ) (hXY : FromFile es (items strtod data) l m X Y) (memV memW : Nat → ℝ) :
    ∃ c p, loadModel strtod (some (fileOf es fin data)) b l m true t = .ok gm re c ∧
      construct l m ⟨gm, re, c⟩ memV memW = some p ∧
      ∀ qs : List Call, (∀ q ∈ qs, q.Ok) → ∃ as p', evaluations p qs = some (as, p') ∧
        List.Forall₂ (fun q a => Gradient (fun x => geopotential l m gm re X Y (rcel2ter x q.rc2i q.era q.rpom)) a q.r) qs as := by
  obtain ⟨c, norm, h1, h2, h3, -, h5⟩ := Icgem.load_complete_partial strtod es fin data b l m D true t gm re hh hs hl hlD hm hml hp
    hr hc
  refine ⟨c, ⟨⟨gm, re, c⟩, newArray l m memV, newArray l m memW, l, m⟩, h2, if_pos h3.symm, ?_⟩
  intro qs hq
  refine evaluations_spec X Y qs _ ⟨newArray_arrays l m memV memW, hm, hml, Rat.cast_ne_zero.2 hre⟩ hq ?_
  intro n k hn hk hkm
  obtain ⟨x, s, hg, e1, e2⟩ := h5 n k hn hk hkm
  obtain ⟨q1, q2⟩ := hXY n k hn hk hkm x s hg
  have hnorm : (norm && true) = @decide (Norm es) (Classical.propDecidable _) := by
    classical
    rw [Bool.and_true]
    by_cases hN : Norm es
    · rw [h1.2 hN, eq_comm]; exact decide_eq_true hN
    · rw [@decide_eq_false _ (Classical.propDecidable _) hN]
      cases norm
      · rfl
      · exact absurd (h1.1 rfl) hN
  rw [hnorm] at e1 e2
  refine ⟨?_, fun hk1 => ?_⟩
  · show c.data (addrC c.degree n k) = _
    rw [h3, e1, q1]
  · show c.data (addrS c.degree n k) = _
    rw [h3, e2 hk1, q2 hk1]

/-- A loop depends on the turns for the elements of its list only. -/
theorem foldlM_congr_mem {σ : Type} (f g : σ → Nat → Option σ) : ∀ (l : List Nat) (s : σ), (∀ n ∈ l, ∀ s, f s n = g s n) →
    l.foldlM f s = l.foldlM g s
  | [], _, _ => rfl
  | n :: l, s, h => by
    rw [List.foldlM_cons, List.foldlM_cons, h n (List.mem_cons_self ..)]
    cases g s n with
    | none => rfl
    | some t => exact foldlM_congr_mem f g l t fun k hk => h k (List.mem_cons_of_mem _ hk)

/-- **C114** Only coefficients within the table are used: two fields with the same constants and degree, equal in the
coefficients `C(n,k)`, `k ≤ n ≤ degree`, and `S(n,k)`, `1 ≤ k ≤ n ≤ degree`, give the same results, whatever order is asked
for; all of these lie in allocated memory (`addr_inBuffer`, C06). -/
theorem coefficients_used (h h' : Field) (degree order : Nat) (V W : Mat ℝ) (pos : V3) (inp : Mat33 ℝ) (hgm : h.gm = h'.gm)
    (hre : h.re = h'.re) (hd : degree = h.table.degree) (hd' : degree = h'.table.degree)
    (ht : ∀ a : Harmonic.Name, a.Valid degree → h.table.data (Harmonic.addr degree a) = h'.table.data (Harmonic.addr degree a)) :
    gravAccel h degree order V W pos = gravAccel h' degree order V W pos ∧
    gravAccelPartials h degree order V W pos inp = gravAccelPartials h' degree order V W pos inp := by
  have hC : ∀ n k, k ≤ n → n ≤ degree → h.C n k = h'.C n k := fun n k h1 h2 => by
    unfold Field.C; rw [← hd, ← hd']; exact ht (.C n k) ⟨h1, h2⟩
  have hS : ∀ n k, 1 ≤ k → k ≤ n → n ≤ degree → h.S n k = h'.S n k := fun n k h0 h1 h2 => by
    unfold Field.S; rw [← hd, ← hd']; exact ht (.S n k) ⟨h0, h1, h2⟩
  constructor
  · have e : ∀ V W, accel degree order h.re h.gm V W h.C h.S = accel degree order h'.re h'.gm V W h'.C h'.S := by
      intro V W
      unfold accel
      rw [hgm, hre, foldlM_congr_mem (acc0Step V W h.C) (acc0Step V W h'.C),
        foldlM_congr_mem (fun s i => (List.range' 1 (min i order)).foldlM (acc1Step V W h.C h.S i) s)
          (fun s i => (List.range' 1 (min i order)).foldlM (acc1Step V W h'.C h'.S i) s)]
      · intro i hi s
        have hi := List.mem_range'_1.1 hi
        refine foldlM_congr_mem _ _ _ _ fun j hj s => ?_
        have hj := List.mem_range'_1.1 hj
        unfold acc1Step
        rw [hC i j (by omega) (by omega), hS i j (by omega) (by omega) (by omega)]
      · intro i hi s
        have hi := List.mem_range.1 hi
        unfold acc0Step
        rw [hC i 0 (by omega) (by omega)]
    simp only [hre] at e
    unfold gravAccel
    simp only [hre, e]
  · have e : ∀ V W, accelPartials degree order h.re h.gm V W h.C h.S inp =
        accelPartials degree order h'.re h'.gm V W h'.C h'.S inp := by
      intro V W
      unfold accelPartials
      rw [hgm, hre, foldlM_congr_mem (par0Step V W h.C) (par0Step V W h'.C),
        foldlM_congr_mem (par1Step V W h.C h.S) (par1Step V W h'.C h'.S),
        foldlM_congr_mem (par2Row V W h.C h.S order) (par2Row V W h'.C h'.S order)]
      · intro i hi s
        have hi := List.mem_range'_1.1 hi
        unfold par2Row
        rw [foldlM_congr_mem (par2Step V W h.C h.S i) (par2Step V W h'.C h'.S i)]
        intro j hj s
        have hj := List.mem_range'_1.1 hj
        unfold par2Step acc2Step parStep
        rw [hC i j (by omega) (by omega), hS i j (by omega) (by omega) (by omega)]
      · intro i hi s
        have hi := List.mem_range'_1.1 hi
        unfold par1Step
        rw [hC i 1 (by omega) (by omega), hS i 1 (by omega) (by omega) (by omega)]
      · intro i hi s
        have hi := List.mem_range.1 hi
        unfold par0Step
        rw [hC i 0 (by omega) (by omega)]
    simp only [hre] at e
    unfold gravAccelPartials
    simp only [hre, e]

/-- **C114** The two calls agree on the acceleration, each with arrays that fit. -/
theorem calls_agree (h : Field) (degree order rows cols : Nat) (V W V2 W2 : Mat ℝ) (hA : Arrays rows cols V W)
    (hA2 : Arrays (degree + 3) (order + 3) V2 W2) (hrow : degree + 2 ≤ rows) (hcol : order + 2 ≤ cols) (h1 : 1 ≤ order)
    (ho : order ≤ degree) (hre : h.re ≠ 0) (pos : V3) (hp : pos ≠ ⟨0, 0, 0⟩) (inp : Mat33 ℝ) :
    ∃ a m V' W' V2' W2', gravAccel h degree order V W pos = some (a, V', W') ∧
      gravAccelPartials h degree order V2 W2 pos inp = some (a, m, V2', W2') := by
  obtain ⟨a, V', W', e, -, g⟩ := gravAccel_spec h degree order rows cols V W hA hrow hcol ho hre pos hp
  obtain ⟨a', m, V2', W2', e', -, g'⟩ := gravAccelPartials_spec h degree order V2 W2 hA2 h1 ho hre pos hp inp
  have : a = a' := by
    have hx := (g ⟨1, 0, 0⟩).unique (g' ⟨1, 0, 0⟩)
    have hy := (g ⟨0, 1, 0⟩).unique (g' ⟨0, 1, 0⟩)
    have hz := (g ⟨0, 0, 1⟩).unique (g' ⟨0, 0, 1⟩)
    simp only [V3.dot, mul_one, mul_zero, add_zero, zero_add] at hx hy hz
    exact V3.ext hx hy hz
  subst this
  exact ⟨a, m, V', W', V2', W2', e, e'⟩

/-- **C114 is false for order 0** (zonal coefficients only): with the arrays of the constructor the call with partials
reads outside them. -/
theorem gravity_zonal_counterexample (degree : Nat) (hd : 1 ≤ degree) (h : Field) (memV memW : Nat → ℝ) (p : Params)
    (hp : construct degree 0 h memV memW = some p) (q : Call) : gravityTerm p q = none := by
  unfold construct at hp
  split at hp
  swap
  · cases hp
  cases hp
  have hA := newArray_arrays degree 0 memV memW
  obtain ⟨V', W', e, hA', -, -⟩ := wrapper_partials_safe (Geo.ofPos h.re (rcel2ter q.r q.rc2i q.era q.rpom).x
    (rcel2ter q.r q.rc2i q.era q.rpom).y (rcel2ter q.r q.rc2i q.era q.rpom).z) degree 0 _ _ _ _ hA (by omega) rfl rfl
  simp only [gravityTerm, gravAccelPartials]
  rw [if_neg (not_not.2 ⟨rfl, rfl⟩), if_neg (not_not.2 ⟨rfl, rfl⟩), e]
  simp only [Option.bind_eq_bind, Option.bind_some]
  rw [if_neg (by simp), partials_order0_counterexample degree hd h.re h.gm V' W' h.C h.S q.junk hA']
  rfl

/-- A line of a proper data section is the only one for its pair. -/
theorem given_unique (l m : Nat) (is : List Icgem.Item) (h : (is.filterMap (Icgem.key l m)).Nodup) (n k : Nat) (hn : n ≤ l)
    (hk : k ≤ m) (x s x' s' : ℚ) (h1 : Given is n k x s) (h2 : Given is n k x' s') : x = x' ∧ s = s' := by
  have hkey : ∀ v, Icgem.key l m (.coeff n k v) = some ((n : Int), (k : Int)) := fun v => by
    unfold Icgem.key
    exact if_pos ⟨by omega, by omega⟩
  unfold Given at h1 h2
  induction is with
  | nil => cases h1
  | cons i is ih =>
    rw [List.filterMap_cons] at h
    rcases List.mem_cons.1 h1 with e1 | m1
    · rcases List.mem_cons.1 h2 with e2 | m2
      · rw [← e1] at e2
        cases e2
        exact ⟨rfl, rfl⟩
      · rw [← e1, hkey] at h
        exact absurd (List.mem_filterMap.2 ⟨_, m2, hkey _⟩) (List.nodup_cons.1 h).1
    · rcases List.mem_cons.1 h2 with e2 | m2
      · rw [← e2, hkey] at h
        exact absurd (List.mem_filterMap.2 ⟨_, m1, hkey _⟩) (List.nodup_cons.1 h).1
      · refine ih ?_ m1 m2
        cases hi : Icgem.key l m i with
        | none => rw [hi] at h; exact h
        | some b => rw [hi] at h; exact (List.nodup_cons.1 h).2

theorem factor_ne (b : Bool) : factor b 1 1 ≠ 0 := by
  cases b
  · simp [factor]
  · simp only [factor, Harmonic.normFactor, if_true]
    refine (Real.sqrt_pos.2 ?_).ne'
    norm_num [Nat.factorial]

/-- A coefficient `S(1,1)` other by `d` changes the potential by the harmonic of that degree and order. -/
theorem potential_S11 (degree order : Nat) (hd : 1 ≤ degree) (ho : 1 ≤ order) (re gm d : ℝ) (C S S' : Nat → Nat → ℝ)
    (g : Geo ℝ) (h : ∀ n k, n ≤ degree → 1 ≤ k → k ≤ n → k ≤ order → S' n k = S n k + if n = 1 then d else 0) :
    potential degree order re gm C S' g = potential degree order re gm C S g + gm / re * (d * specW g 1 1) := by
  have e : tessSum degree order (fun i j => C i j * specV g i j + S' i j * specW g i j) =
      tessSum degree order (fun i j => C i j * specV g i j + S i j * specW g i j) + d * specW g 1 1 := by
    unfold tessSum
    have h1 : ∀ i ∈ range degree, (∑ j ∈ range (min (i + 1) order),
          (fun i j => C i j * specV g i j + S' i j * specW g i j) (i + 1) (j + 1)) =
        (∑ j ∈ range (min (i + 1) order), (fun i j => C i j * specV g i j + S i j * specW g i j) (i + 1) (j + 1)) +
          if i = 0 then d * specW g 1 1 else 0 := by
      intro i hi
      have hi := mem_range.1 hi
      by_cases h0 : i = 0
      · subst h0
        rw [if_pos rfl, show min (0 + 1) order = 1 by omega]
        simp only [sum_range_one, h 1 1 (by omega) le_rfl le_rfl ho, if_true, zero_add]
        ring
      · rw [if_neg h0, add_zero]
        refine sum_congr rfl fun j hj => ?_
        have hj := mem_range.1 hj
        simp only [h (i + 1) (j + 1) (by omega) (by omega) (by omega) (by omega)]
        rw [if_neg (by omega), add_zero]
    rw [sum_congr rfl h1, sum_add_distrib, sum_ite_eq' (range degree) 0, if_pos (mem_range.2 (by omega))]
  unfold potential
  rw [e]
  ring

/-- The harmonic of degree and order 1 on the y axis. -/
theorem specW_axis (re s : ℝ) (hs : -1 < s) : specW (Geo.ofPos re 0 (1 + s) 0) 1 1 = re * re * ((1 + s) ^ 2)⁻¹ := by
  have h1 : 0 < 1 + s := by linarith
  simp only [specW, col, sect, Geo.ofPos, Nat.sub_self, Nat.cast_zero, mul_zero, zero_add, zero_mul, add_zero, one_mul,
    zero_div]
  rw [Real.sqrt_mul_self h1.le]
  field_simp

/-- The position on the y axis, with all frames equal. -/
def axis : Call := ⟨⟨0, 1, 0⟩, M3.one, 0, M3.one, fun _ _ => 0⟩

theorem axis_c2t : c2t axis.rc2i axis.era axis.rpom = M3.one := by
  simp [c2t, axis, M3.mul, M3.one, M3.rotZ, M3.transpose, M3.mulVec, V3.dot]

theorem one_orthogonal : M3.Orthogonal M3.one := by
  simp [M3.Orthogonal, M3.mul, M3.one, M3.transpose, M3.mulVec, V3.dot]

theorem axis_ok : axis.Ok := ⟨one_orthogonal, one_orthogonal, by simp [axis]⟩

/-- **C114 is false for files without the coefficients of degree 1** (EGM2008 is one): such a file is loaded, but the
acceleration during the integration depends on what the memory held before the coefficients were read. -/
theorem gravity_degree_1_counterexample (strtod : Strtod) (es : List Ent) (fin : List Char) (data : List Line) (b : Buf)
    (l m D : Nat) (gm re : ℚ) (hh : GoodHeader strtod es fin) (hs : HeaderSays strtod es gm re D)
    (hl : 1 ≤ l) (hlD : l ≤ D) (hm : 1 ≤ m) (hml : m ≤ l) (hp : Proper l m (items strtod data))
    (hr : Readable l m (items strtod data)) (hc : CompleteBut1 l m (items strtod data)) (hre : re ≠ 0) (hgm : gm ≠ 0)
    (memV memW : Nat → ℝ) :
    ∃ (t t' : Icgem.Table) (c c' : Harmonic.Coeffs) (p p' : Params) (q : Call),
      loadModel strtod (some (fileOf es fin data)) b l m true t = .ok gm re c ∧
      loadModel strtod (some (fileOf es fin data)) b l m true t' = .ok gm re c' ∧
      construct l m ⟨gm, re, c⟩ memV memW = some p ∧ construct l m ⟨gm, re, c'⟩ memV memW = some p' ∧ q.Ok ∧
      ∃ a a' u u' v v', gravityTerm p q = some (a, u, v) ∧ gravityTerm p' q = some (a', u', v') ∧ a ≠ a' := by
  have load : ∀ t : Icgem.Table, ∃ (c : Harmonic.Coeffs) (norm : Bool), (norm = true ↔ Norm es) ∧
      loadModel strtod (some (fileOf es fin data)) b l m true t = .ok gm re c ∧ c.degree = l ∧
      (∀ n k, n ≤ l → k ≤ n → k ≤ m → n ≠ 1 → ∃ x s, Given (items strtod data) n k x s ∧
        c.data (addrC l n k) = x * factor norm n k ∧ (1 ≤ k → c.data (addrS l n k) = s * factor norm n k)) ∧
      c.data (addrC l 1 0) = 0 ∧ c.data (addrC l 1 1) = 0 ∧ c.data (addrS l 1 1) = t (addrS l 1 1) * factor norm 1 1 := by
    intro t
    obtain ⟨t', hret, hv, e0, e1, e2⟩ := Icgem.read_complete_but_1 strtod D l l m data t hl hm hml le_rfl (by omega) hp hr hc
    obtain ⟨c, norm, h1, h2, h3, h4, h5⟩ := Icgem.load_of_read strtod es fin data b l m D true t gm re hh hs hl hlD hml t' hret
    rw [Bool.and_true] at h5
    refine ⟨c, norm, h1, h2, h3, ?_, ?_, ?_, ?_⟩
    · intro n k hn hk hkm hn1
      obtain ⟨x, s, hg, hx, hs'⟩ := hv n k hn hk hkm hn1
      refine ⟨x, s, hg, ?_, fun hk1 => ?_⟩
      · have := h5 (.C n k) ⟨hk, hn⟩
        simpa only [Harmonic.addr, hx, Icgem.nameFactor] using this
      · have := h5 (.S n k) ⟨hk1, hk, hn⟩
        simpa only [Harmonic.addr, hs' hk1, Icgem.nameFactor] using this
    · have := h5 (.C 1 0) ⟨by omega, hl⟩
      simpa only [Harmonic.addr, e0, Rat.cast_zero, zero_mul] using this
    · have := h5 (.C 1 1) ⟨by omega, hl⟩
      simpa only [Harmonic.addr, e1, Rat.cast_zero, zero_mul] using this
    · have := h5 (.S 1 1) ⟨by omega, by omega, hl⟩
      simpa only [Harmonic.addr, e2, Icgem.nameFactor] using this
  obtain ⟨c, norm, n1, l1, d1, v1, z1, y1, s1⟩ := load (fun _ => 0)
  obtain ⟨c', norm', n2, l2, d2, v2, z2, y2, s2⟩ := load (fun _ => 1)
  have hnn : norm' = norm := by
    cases norm <;> cases norm' <;> simp_all
  subst hnn
  have hre' : ((re : ℚ) : ℝ) ≠ 0 := Rat.cast_ne_zero.2 hre
  have hgm' : ((gm : ℚ) : ℝ) ≠ 0 := Rat.cast_ne_zero.2 hgm
  obtain ⟨a, u, v, g1, -, -, -, -, G1⟩ := gravityTerm_spec ⟨⟨gm, re, c⟩, newArray l m memV, newArray l m memW, l, m⟩
    ⟨newArray_arrays l m memV memW, hm, hml, hre'⟩ axis axis_ok
  obtain ⟨a', u', v', g2, -, -, -, -, G2⟩ := gravityTerm_spec ⟨⟨gm, re, c'⟩, newArray l m memV, newArray l m memW, l, m⟩
    ⟨newArray_arrays l m memV memW, hm, hml, hre'⟩ axis axis_ok
  refine ⟨fun _ => 0, fun _ => 1, c, c', _, _, axis, l1, l2, if_pos d1.symm, if_pos d2.symm, axis_ok, a, a', u, u', v, v', g1, g2, ?_⟩
  rintro rfl
  have hC : ∀ n k, n ≤ l → k ≤ n → k ≤ m → (⟨gm, re, c'⟩ : Field).C n k = (⟨gm, re, c⟩ : Field).C n k := by
    intro n k hn hk hkm
    show c'.data (addrC c'.degree n k) = c.data (addrC c.degree n k)
    rw [d1, d2]
    by_cases hn1 : n = 1
    · subst hn1
      rcases (show k = 0 ∨ k = 1 by omega) with rfl | rfl
      · rw [z1, z2]
      · rw [y1, y2]
    · obtain ⟨x, s, hg, hx, -⟩ := v1 n k hn hk hkm hn1
      obtain ⟨x', s', hg', hx', -⟩ := v2 n k hn hk hkm hn1
      rw [hx, hx', (given_unique l m _ hp.once n k hn hkm x s x' s' hg hg').1]
  have hS : ∀ n k, n ≤ l → 1 ≤ k → k ≤ n → k ≤ m → (⟨gm, re, c'⟩ : Field).S n k =
      (⟨gm, re, c⟩ : Field).S n k + if n = 1 then factor norm' 1 1 else 0 := by
    intro n k hn hk1 hk hkm
    show c'.data (addrS c'.degree n k) = c.data (addrS c.degree n k) + _
    rw [d1, d2]
    by_cases hn1 : n = 1
    · subst hn1
      obtain rfl : k = 1 := by omega
      rw [s1, s2, if_pos rfl]
      simp
    · obtain ⟨x, s, hg, -, hx⟩ := v1 n k hn hk hkm hn1
      obtain ⟨x', s', hg', -, hx'⟩ := v2 n k hn hk hkm hn1
      rw [hx hk1, hx' hk1, (given_unique l m _ hp.once n k hn hkm x s x' s' hg hg').2, if_neg hn1, add_zero]
  have hd := (G2 ⟨0, 1, 0⟩).sub (G1 ⟨0, 1, 0⟩)
  rw [sub_self] at hd
  have hw : HasDerivAt (fun s : ℝ => ((gm : ℝ) / re) * (factor norm' 1 1 * ((re : ℝ) * re * ((1 + s) ^ 2)⁻¹)))
      (((gm : ℝ) / re) * (factor norm' 1 1 * ((re : ℝ) * re * (-2)))) 0 := by
    have h1 : HasDerivAt (fun s : ℝ => 1 + s) 1 0 := (hasDerivAt_id (0 : ℝ)).const_add 1
    have h2 := (h1.pow 2).inv (by norm_num)
    refine (((h2.const_mul ((re : ℝ) * re)).const_mul (factor norm' 1 1)).const_mul ((gm : ℝ) / re)).congr_deriv ?_
    norm_num
  have heq : (fun s : ℝ => ((gm : ℝ) / re) * (factor norm' 1 1 * ((re : ℝ) * re * ((1 + s) ^ 2)⁻¹))) =ᶠ[nhds 0]
      (fun s : ℝ => geopotential l m gm re (⟨gm, re, c'⟩ : Field).C (⟨gm, re, c'⟩ : Field).S
          (rcel2ter (axis.r.add (V3.smul s ⟨0, 1, 0⟩)) axis.rc2i axis.era axis.rpom)) -
        fun s : ℝ => geopotential l m gm re (⟨gm, re, c⟩ : Field).C (⟨gm, re, c⟩ : Field).S
          (rcel2ter (axis.r.add (V3.smul s ⟨0, 1, 0⟩)) axis.rc2i axis.era axis.rpom) := by
    have hev : ∀ᶠ s : ℝ in nhds 0, -1 < s := lt_mem_nhds (by norm_num)
    filter_upwards [hev] with s hs
    have hpos : rcel2ter (axis.r.add (V3.smul s ⟨0, 1, 0⟩)) axis.rc2i axis.era axis.rpom = ⟨0, 1 + s, 0⟩ := by
      unfold rcel2ter
      rw [axis_c2t, M3.one_mulVec]
      simp [axis, V3.add, V3.smul]
    simp only [Pi.sub_apply, hpos, geopotential]
    rw [← specW_axis re s hs, potential_S11 l m hl hm re gm (factor norm' 1 1) _ _ _ _ hS]
    rw [potential_congr l m re gm (⟨gm, re, c'⟩ : Field).C _ (⟨gm, re, c⟩ : Field).C _ _ (fun n k hn hk hkm => ⟨hC n k hn hk hkm, fun _ => rfl⟩)]
    ring
  have := hw.unique (hd.congr_of_eventuallyEq heq)
  have hne := factor_ne norm'
  have : ((gm : ℝ) / re) * (factor norm' 1 1 * ((re : ℝ) * re * (-2))) ≠ 0 := by
    refine mul_ne_zero (div_ne_zero hgm' hre') (mul_ne_zero hne (mul_ne_zero (mul_ne_zero hre' hre') (by norm_num)))
  contradiction

/-! ### Concrete instances -/

/-- The file of the examples of C109, with normalised coefficients of degree 1: any evaluations give the gradient of the
potential with these coefficients, multiplied by the factors. -/
example (b : Buf) (t : Icgem.Table) (memV memW : Nat → ℝ) : ∃ c p,
    loadModel Icgem.intStrtod (some (fileOf Icgem.es2 "end_of_head ====".toList Icgem.data1)) b 1 1 true t = .ok 398 637 c ∧
      construct 1 1 ⟨398, 637, c⟩ memV memW = some p ∧ ∃ as p', evaluations p [axis, axis] = some (as, p') ∧ as.length = 2 := by
  obtain ⟨c, p, h1, h2, h3⟩ := gravity_from_file_partial Icgem.intStrtod Icgem.es2 "end_of_head ====".toList Icgem.data1 b 1 1 2 t
    398 637 Icgem.es2_good Icgem.es2_says le_rfl (by omega) le_rfl le_rfl Icgem.data1_proper Icgem.data1_readable
    Icgem.data1_complete (by norm_num)
    (fun n k => (if n = 0 then 1 else if k = 0 then 5 else 6) * factor true n k) (fun n k => 7 * factor true n k)
    (by
      intro n k hn hk hkm x s hg
      rw [Icgem.data1_items] at hg
      rw [@decide_eq_true _ (Classical.propDecidable _) Icgem.es2_norm]
      simp only [Given, List.mem_cons, Icgem.Item.coeff.injEq, List.not_mem_nil, or_false, Option.some.injEq,
        Prod.mk.injEq] at hg
      rcases hg with ⟨h1, h2, rfl, rfl⟩ | ⟨h1, h2, rfl, rfl⟩ | ⟨h1, h2, rfl, rfl⟩
      · obtain rfl : n = 0 := by omega
        obtain rfl : k = 0 := by omega
        simp
      · obtain rfl : n = 1 := by omega
        obtain rfl : k = 0 := by omega
        simp
      · obtain rfl : n = 1 := by omega
        obtain rfl : k = 1 := by omega
        simp) memV memW
  obtain ⟨as, p', h4, h5⟩ := h3 [axis, axis] (by simp [axis_ok])
  exact ⟨c, p, h1, by exact_mod_cast h2, as, p', h4, by rw [← h5.length_eq]; rfl⟩

/-- The file of the examples of C109 without degree 1 meets the hypotheses of the counterexample. -/
example (b : Buf) (memV memW : Nat → ℝ) : ∃ (t t' : Icgem.Table) (c c' : Harmonic.Coeffs) (p p' : Params) (q : Call),
    loadModel Icgem.intStrtod (some (fileOf Icgem.es2 "end_of_head ====".toList Icgem.data2)) b 2 2 true t = .ok 398 637 c ∧
    loadModel Icgem.intStrtod (some (fileOf Icgem.es2 "end_of_head ====".toList Icgem.data2)) b 2 2 true t' = .ok 398 637 c' ∧
    ∃ a a' u u' v v', gravityTerm p q = some (a, u, v) ∧ gravityTerm p' q = some (a', u', v') ∧ a ≠ a' := by
  obtain ⟨t, t', c, c', p, p', q, h1, h2, -, -, -, h3⟩ := gravity_degree_1_counterexample Icgem.intStrtod Icgem.es2 _ Icgem.data2 b
    2 2 2 398 637 Icgem.es2_good Icgem.es2_says (by omega) le_rfl (by omega) le_rfl Icgem.data2_proper Icgem.data2_readable
    Icgem.data2_complete (by norm_num) (by norm_num) memV memW
  exact ⟨t, t', c, c', p, p', q, h1, h2, h3⟩

end Verif.Variational
