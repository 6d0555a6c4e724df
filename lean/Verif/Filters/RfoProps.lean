import Verif.Filters.RfoModel
import Mathlib.Tactic.Ring
import Mathlib.Tactic.FieldSimp
import Mathlib.Tactic.Linarith
import Mathlib.Tactic.LinearCombination
import Mathlib.Tactic.Positivity
import Mathlib.Tactic.NormNum
import Mathlib.Algebra.BigOperators.Group.List.Lemmas

/-! C37: the two-parameter filter. -/
namespace Verif.Filters.Rfo

/-! ### Specification -/

/-- A valid filter: positive definite covariance `[[p0, p1], [p1, p2]]`, positive weight. -/
structure Valid (f : Filter) : Prop where
  p0 : 0 < f.p0
  det : 0 < f.p0 * f.p2 - f.p1 * f.p1
  r : 0 < f.r

/-- Information matrix (the inverse of the covariance: entries 00, 01, 11) and information vector
(inverse covariance times estimate). -/
structure Info where
  n00 : ℝ
  n01 : ℝ
  n11 : ℝ
  b0 : ℝ
  b1 : ℝ

@[ext] theorem Info.ext' {a b : Info} (h0 : a.n00 = b.n00) (h1 : a.n01 = b.n01) (h2 : a.n11 = b.n11)
    (h3 : a.b0 = b.b0) (h4 : a.b1 = b.b1) : a = b := by
  cases a; cases b; simp_all

noncomputable def info (f : Filter) : Info :=
  let d := f.p0 * f.p2 - f.p1 * f.p1
  ⟨f.p2 / d, -f.p1 / d, f.p0 / d, (f.p2 * f.x0 - f.p1 * f.x1) / d, (f.p0 * f.x1 - f.p1 * f.x0) / d⟩

/-- What least squares says an observation `z` at time `dt` with weight `1/r` contributes: the
normal matrix of the design row `(1, dt)`. -/
noncomputable def contribution (r : ℝ) (o : ℝ × ℝ) : Info :=
  ⟨1 / r, o.1 / r, o.1 * o.1 / r, o.2 / r, o.1 * o.2 / r⟩

def Info.add (a b : Info) : Info :=
  ⟨a.n00 + b.n00, a.n01 + b.n01, a.n11 + b.n11, a.b0 + b.b0, a.b1 + b.b1⟩

/-- Sum over observations. -/
noncomputable def total (r : ℝ) (a : Info) (obs : List (ℝ × ℝ)) : Info :=
  ⟨a.n00 + (obs.map fun o => (contribution r o).n00).sum,
   a.n01 + (obs.map fun o => (contribution r o).n01).sum,
   a.n11 + (obs.map fun o => (contribution r o).n11).sum,
   a.b0 + (obs.map fun o => (contribution r o).b0).sum,
   a.b1 + (obs.map fun o => (contribution r o).b1).sum⟩

/-! ### One update -/

/-- The innovation variance `s`. -/
noncomputable def innov (f : Filter) (dt : ℝ) : ℝ := f.p0 + f.p1 * dt + dt * (f.p1 + f.p2 * dt) + f.r

theorem innov_pos (f : Filter) (h : Valid f) (dt : ℝ) : 0 < innov f dt := by
  have hp := h.p0
  have key : innov f dt = ((f.p0 + f.p1 * dt) ^ 2 + (f.p0 * f.p2 - f.p1 * f.p1) * dt ^ 2) / f.p0 + f.r := by
    unfold innov; field_simp; ring
  rw [key]
  have hd := h.det
  have hr := h.r
  positivity

/-- The entries of the covariance after an update. -/
theorem update_entries (f : Filter) (h : Valid f) (dt z : ℝ) :
    let s := innov f dt
    (f.update dt z).p0 = f.p0 - (f.p0 + f.p1 * dt) ^ 2 / s ∧
    (f.update dt z).p1 = f.p1 - (f.p0 + f.p1 * dt) * (f.p1 + f.p2 * dt) / s ∧
    (f.update dt z).p2 = f.p2 - (f.p1 + f.p2 * dt) ^ 2 / s ∧
    (f.update dt z).x0 = f.x0 + (f.p0 + f.p1 * dt) / s * (z - (f.x0 + dt * f.x1)) ∧
    (f.update dt z).x1 = f.x1 + (f.p1 + f.p2 * dt) / s * (z - (f.x0 + dt * f.x1)) := by
  intro s
  have hs := innov_pos f h dt
  have hs' : f.p0 + f.p1 * dt + dt * (f.p1 + f.p2 * dt) + f.r = s := rfl
  refine ⟨?_, ?_, ?_, ?_, ?_⟩ <;> simp only [Filter.update, Filter.valueAt, hs']
  · ring
  · ring
  · ring

theorem update_det (f : Filter) (h : Valid f) (dt z : ℝ) :
    (f.update dt z).p0 * (f.update dt z).p2 - (f.update dt z).p1 * (f.update dt z).p1 =
      f.r * (f.p0 * f.p2 - f.p1 * f.p1) / innov f dt := by
  obtain ⟨h0, h1, h2, -, -⟩ := update_entries f h dt z
  rw [h0, h1, h2]
  have hs := (innov_pos f h dt).ne'
  rw [eq_div_iff hs]
  have e : f.r = innov f dt - (f.p0 + f.p1 * dt + dt * (f.p1 + f.p2 * dt)) := by unfold innov; ring
  rw [e]
  field_simp
  ring

/-- **C37 (a)** An observation keeps the filter valid: symmetric (one stored off-diagonal entry, the
mean of two equal values) and positive definite. -/
theorem update_valid (f : Filter) (h : Valid f) (dt z : ℝ) : Valid (f.update dt z) := by
  have hs := innov_pos f h dt
  have hp := h.p0
  have hd := h.det
  have hr := h.r
  refine ⟨?_, ?_, h.r⟩
  · rw [(update_entries f h dt z).1]
    have : f.p0 - (f.p0 + f.p1 * dt) ^ 2 / innov f dt =
        ((f.p0 * f.p2 - f.p1 * f.p1) * dt ^ 2 + f.p0 * f.r) / innov f dt := by
      rw [eq_div_iff hs.ne', sub_mul, div_mul_cancel₀ _ hs.ne']
      unfold innov; ring
    rw [this]
    positivity
  · rw [update_det f h dt z]
    positivity

/-- The two expressions averaged in line 41-42 are equal. -/
theorem offdiagonal_symmetric (f : Filter) (dt : ℝ) :
    let s := innov f dt
    let k0 := (f.p0 + f.p1 * dt) / s
    let k1 := (f.p1 + f.p2 * dt) / s
    (1 - k0) * f.p1 - f.p2 * k0 * dt = -k1 * f.p0 + (1 - k1 * dt) * f.p1 := by
  intro s k0 k1
  simp only [k0, k1]
  ring

/-- **C37 (b)** An observation adds its normal equations to the information. -/
theorem update_info (f : Filter) (h : Valid f) (dt z : ℝ) :
    info (f.update dt z) = (info f).add (contribution f.r (dt, z)) := by
  have hs := (innov_pos f h dt).ne'
  have hd := h.det.ne'
  have hd2 : f.p0 * f.p2 - f.p1 ^ 2 ≠ 0 := by rw [pow_two]; exact hd
  have hd3 : f.p2 * f.p0 - f.p1 ^ 2 ≠ 0 := by rw [pow_two, mul_comm f.p2]; exact hd
  have hr := h.r.ne'
  obtain ⟨h0, h1, h2, h3, h4⟩ := update_entries f h dt z
  have hdet := update_det f h dt z
  have er : innov f dt = f.p0 + f.p1 * dt + dt * (f.p1 + f.p2 * dt) + f.r := rfl
  have hdiv : ∀ a : ℝ, a / (f.r * (f.p0 * f.p2 - f.p1 * f.p1) / innov f dt) =
      a * innov f dt / (f.r * (f.p0 * f.p2 - f.p1 * f.p1)) := by
    intro a; field_simp
  apply Info.ext'
  · simp only [info, Info.add, contribution]
    rw [hdet, hdiv, h2]
    rw [sub_mul, div_mul_cancel₀ _ hs, er]
    field_simp
    ring
  · simp only [info, Info.add, contribution]
    rw [hdet, hdiv, h1]
    rw [neg_sub, sub_mul, div_mul_cancel₀ _ hs, er]
    field_simp
    ring
  · simp only [info, Info.add, contribution]
    rw [hdet, hdiv, h0]
    rw [sub_mul, div_mul_cancel₀ _ hs, er]
    field_simp
    ring
  · simp only [info, Info.add, contribution]
    rw [hdet, hdiv, h1, h2, h3, h4]
    generalize hS : innov f dt = S at *
    have er' : f.r = S - (f.p0 + f.p1 * dt + dt * (f.p1 + f.p2 * dt)) := by rw [er]; ring
    field_simp
    rw [er']
    ring
  · simp only [info, Info.add, contribution]
    rw [hdet, hdiv, h0, h1, h3, h4]
    generalize hS : innov f dt = S at *
    have er' : f.r = S - (f.p0 + f.p1 * dt + dt * (f.p1 + f.p2 * dt)) := by rw [er]; ring
    field_simp
    rw [er']
    ring

/-! ### C37 -/

theorem update_r (f : Filter) (dt z : ℝ) : (f.update dt z).r = f.r := rfl

/-- **C37 (c)** After any sequence of observations the filter is valid and its information is that
of the start plus the sum over the observations. -/
theorem run_info (f : Filter) (h : Valid f) (obs : List (ℝ × ℝ)) :
    Valid (f.run obs) ∧ (f.run obs).r = f.r ∧ info (f.run obs) = total f.r (info f) obs := by
  induction obs generalizing f with
  | nil => exact ⟨h, rfl, by simp [total, Filter.run]⟩
  | cons o obs ih =>
    obtain ⟨h1, h2, h3⟩ := ih (f.update o.1 o.2) (update_valid f h _ _)
    refine ⟨h1, h2, ?_⟩
    have : info (f.run (o :: obs)) = info ((f.update o.1 o.2).run obs) := rfl
    rw [this, h3, update_info f h o.1 o.2, update_r]
    simp only [total, Info.add, List.map_cons, List.sum_cons, Info.mk.injEq]
    refine ⟨?_, ?_, ?_, ?_, ?_⟩ <;> ring

/-- The information determines estimate and covariance. -/
theorem info_injective (f g : Filter) (hf : Valid f) (hg : Valid g) (hr : f.r = g.r)
    (h : info f = info g) : f = g := by
  have hdf := hf.det
  have hdg := hg.det
  obtain ⟨x0, x1, p0, p1, p2, r⟩ := f
  obtain ⟨y0, y1, q0, q1, q2, r'⟩ := g
  simp only [info, Info.mk.injEq] at h hr hdf hdg
  obtain ⟨e0, e1, e2, e3, e4⟩ := h
  set d := p0 * p2 - p1 * p1 with hd
  set d' := q0 * q2 - q1 * q1 with hd'
  have hdd : d = d' := by
    have h1 : (p2 / d) * (p0 / d) - (-p1 / d) * (-p1 / d) = 1 / d := by
      rw [hd] at hdf ⊢; field_simp
    have h2 : (q2 / d') * (q0 / d') - (-q1 / d') * (-q1 / d') = 1 / d' := by
      rw [hd'] at hdg ⊢; field_simp
    rw [e0, e1, e2, h2] at h1
    field_simp at h1
    exact h1
  rw [← hdd] at e0 e1 e2 e3 e4
  have hd0 := hdf.ne'
  have f2 : p2 = q2 := by field_simp at e0; exact e0
  have f1 : p1 = q1 := by field_simp at e1; linarith
  have f0 : p0 = q0 := by field_simp at e2; exact e2
  subst f2 f1 f0
  have g3 : p2 * x0 - p1 * x1 = p2 * y0 - p1 * y1 := by field_simp at e3; exact e3
  have g4 : p0 * x1 - p1 * x0 = p0 * y1 - p1 * y0 := by field_simp at e4; exact e4
  have hx0 : d * (x0 - y0) = 0 := by rw [hd]; linear_combination p0 * g3 + p1 * g4
  have hx1 : d * (x1 - y1) = 0 := by rw [hd]; linear_combination p1 * g3 + p2 * g4
  have a0 : x0 = y0 := by
    rcases mul_eq_zero.1 hx0 with h | h
    · exact absurd h hd0
    · linarith
  have a1 : x1 = y1 := by
    rcases mul_eq_zero.1 hx1 with h | h
    · exact absurd h hd0
    · linarith
  rw [a0, a1, hr]

/-- **C37 (d)** The order of the observations is irrelevant: estimate and covariance are the same. -/
theorem run_perm (f : Filter) (h : Valid f) (obs obs' : List (ℝ × ℝ)) (hp : obs.Perm obs') :
    f.run obs = f.run obs' := by
  obtain ⟨h1, h2, h3⟩ := run_info f h obs
  obtain ⟨k1, k2, k3⟩ := run_info f h obs'
  refine info_injective _ _ h1 k1 (by rw [h2, k2]) ?_
  rw [h3, k3]
  have key : ∀ g : ℝ × ℝ → ℝ, (obs.map g).sum = (obs'.map g).sum := fun g => (hp.map g).sum_eq
  simp only [total, key]

/-- **C37 (e)** A newly constructed filter with nonzero standard deviations is valid. -/
theorem new_valid (x0 x1 s0 s1 o : ℝ) (h0 : s0 ≠ 0) (h1 : s1 ≠ 0) (ho : o ≠ 0) :
    Valid (Filter.new x0 x1 s0 s1 o) := by
  refine ⟨?_, ?_, ?_⟩ <;> simp only [Filter.new]
  · exact mul_self_pos.2 h0
  · have : s0 * s0 * (s1 * s1) - 0 * 0 = (s0 * s1) ^ 2 := by ring
    rw [this]; positivity
  · exact mul_self_pos.2 ho

/-- A concrete filter: the constructor's values as in `fit_relative_frequency_offset`. -/
example : Valid (Filter.new 10 3 1 (1 / 2) 2) ∧
    (Filter.run (Filter.new 10 3 1 (1 / 2) 2) [(0, 15), (2, 4)]).r = 4 := by
  refine ⟨new_valid _ _ _ _ _ (by norm_num) (by norm_num) (by norm_num), ?_⟩
  rw [(run_info _ (new_valid _ _ _ _ _ (by norm_num) (by norm_num) (by norm_num)) _).2.1]
  norm_num [Filter.new]

end Verif.Filters.Rfo
