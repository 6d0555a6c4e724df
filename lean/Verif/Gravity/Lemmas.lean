import Verif.Gravity.Model
import Verif.Mat2D.Props
import Mathlib.Tactic.Ring
import Mathlib.Tactic.Linarith
import Mathlib.Tactic.Push
import Mathlib.Tactic.NormNum

/- Memory safety and values of the work arrays. -/
namespace Verif.Gravity

open Verif.Mat2D

variable {K : Type} [Field K]

/-- A loop over consecutive integers keeps an invariant. -/
theorem foldlM_inv {σ : Type} (f : σ → Nat → Option σ) (I : Nat → σ → Prop) (cnt : Nat) :
    ∀ (a : Nat) (s : σ), I a s →
      (∀ n, a ≤ n → n < a + cnt → ∀ s, I n s → ∃ s', f s n = some s' ∧ I (n + 1) s') →
      ∃ s', (List.range' a cnt).foldlM f s = some s' ∧ I (a + cnt) s' := by
  induction cnt with
  | zero => intro a s h _; exact ⟨s, rfl, h⟩
  | succ cnt ih =>
    intro a s h hs
    obtain ⟨s1, e1, h1⟩ := hs a (Nat.le_refl _) (by omega) s h
    obtain ⟨s2, e2, h2⟩ := ih (a + 1) s1 h1 (fun n hn hn' s hI => hs n (by omega) (by omega) s hI)
    refine ⟨s2, ?_, by rw [show a + (cnt + 1) = a + 1 + cnt from by omega]; exact h2⟩
    rw [List.range'_succ, List.foldlM_cons, e1]
    exact e2

/-- `M` has shape `s`, its own buffer, and the cells in `P` hold `F`. -/
structure Has (s : Shape) (P : Nat → Nat → Prop) (F : Nat → Nat → K) (M : Mat K) : Prop where
  shape : M.shape = s
  len : M.data.length = numElements .trapezoid s
  dom : ∀ i j, P i j → Cell .trapezoid s i j
  val : ∀ i j, P i j → rd M i j = some (F i j)

theorem Has.mono {s : Shape} {P Q : Nat → Nat → Prop} {F : Nat → Nat → K} {M : Mat K} (h : Has s P F M)
    (hq : ∀ i j, Q i j → P i j) : Has s Q F M :=
  ⟨h.shape, h.len, fun i j hh => h.dom i j (hq i j hh), fun i j hh => h.val i j (hq i j hh)⟩

theorem Has.write {s : Shape} {P : Nat → Nat → Prop} {F : Nat → Nat → K} {M : Mat K} (h : Has s P F M)
    (i j : Nat) (hc : Cell .trapezoid s i j) (v : K) (hv : v = F i j) :
    ∃ M', wr M i j v = some M' ∧ Has s (fun a b => P a b ∨ (a = i ∧ b = j)) F M' := by
  have hl : M.data.length = numElements .trapezoid M.shape := by rw [h.shape]; exact h.len
  obtain ⟨M', e, hs, hlen, -⟩ := get_set K .trapezoid M i j i j v hl (by rw [h.shape]; exact hc)
    (by rw [h.shape]; exact hc)
  refine ⟨M', e, ⟨hs.trans h.shape, hlen.trans h.len, ?_, ?_⟩⟩
  · intro a b hab
    rcases hab with hab | ⟨rfl, rfl⟩
    · exact h.dom a b hab
    · exact hc
  · intro a b hab
    have hcab : Cell .trapezoid s a b := by
      rcases hab with hab | ⟨rfl, rfl⟩
      · exact h.dom a b hab
      · exact hc
    obtain ⟨M'', e'', -, -, hg⟩ := get_set K .trapezoid M i j a b v hl (by rw [h.shape]; exact hc)
      (by rw [h.shape]; exact hcab)
    have : M'' = M' := Option.some.inj (e''.symm.trans e)
    subst this
    show M''.get? .trapezoid a b = _
    rw [hg]
    by_cases hh : a = i ∧ b = j
    · rw [if_pos hh, hh.1, hh.2, hv]
    · rw [if_neg hh]
      rcases hab with hab | hab
      · exact h.val a b hab
      · exact absurd hab hh

theorem specV_succ2 (g : Geo K) (n m : Nat) (h : m + 2 ≤ n) :
    specV g n m = ((2 * n - 1 : Nat) * g.z0 * specV g (n - 1) m - (n + m - 1 : Nat) * g.rho * specV g (n - 2) m)
      / (n - m : Nat) := by
  obtain ⟨d, rfl⟩ : ∃ d, n = m + d + 2 := ⟨n - m - 2, by omega⟩
  unfold specV
  rw [show m + d + 2 - m = d + 2 from by omega, show m + d + 2 - 1 - m = d + 1 from by omega,
    show m + d + 2 - 2 - m = d from by omega]
  show nextInColumn g m d _ _ = _
  unfold nextInColumn
  rw [show 2 * (m + d + 2) - 1 = 2 * m + 2 * d + 3 from by omega,
    show m + d + 2 + m - 1 = 2 * m + d + 1 from by omega]
  push_cast
  ring

theorem specW_succ2 (g : Geo K) (n m : Nat) (h : m + 2 ≤ n) :
    specW g n m = ((2 * n - 1 : Nat) * g.z0 * specW g (n - 1) m - (n + m - 1 : Nat) * g.rho * specW g (n - 2) m)
      / (n - m : Nat) := by
  obtain ⟨d, rfl⟩ : ∃ d, n = m + d + 2 := ⟨n - m - 2, by omega⟩
  unfold specW
  rw [show m + d + 2 - m = d + 2 from by omega, show m + d + 2 - 1 - m = d + 1 from by omega,
    show m + d + 2 - 2 - m = d from by omega]
  show nextInColumn g m d _ _ = _
  unfold nextInColumn
  rw [show 2 * (m + d + 2) - 1 = 2 * m + 2 * d + 3 from by omega,
    show m + d + 2 + m - 1 = 2 * m + d + 1 from by omega]
  push_cast
  ring

theorem spec_diag (g : Geo K) (m : Nat) (h : 1 ≤ m) :
    specV g m m = (2 * m - 1 : Nat) * (g.x0 * specV g (m - 1) (m - 1) - g.y0 * specW g (m - 1) (m - 1)) ∧
    specW g m m = (2 * m - 1 : Nat) * (g.x0 * specW g (m - 1) (m - 1) + g.y0 * specV g (m - 1) (m - 1)) := by
  obtain ⟨k, rfl⟩ : ∃ k, m = k + 1 := ⟨m - 1, by omega⟩
  unfold specV specW
  rw [Nat.sub_self, Nat.sub_self, Nat.add_sub_cancel, show 2 * (k + 1) - 1 = 2 * k + 1 from by omega]
  push_cast
  exact ⟨rfl, rfl⟩

theorem spec_subdiag (g : Geo K) (m : Nat) :
    specV g (m + 1) m = (2 * m + 1 : Nat) * g.z0 * specV g m m ∧
    specW g (m + 1) m = (2 * m + 1 : Nat) * g.z0 * specW g m m := by
  unfold specV specW
  rw [Nat.sub_self, show m + 1 - m = 1 from by omega]
  push_cast
  exact ⟨rfl, rfl⟩

/-- Zonal `W` vanish. -/
theorem col_zero_snd (g : Geo K) (d : Nat) : (col g 0 d).2 = 0 ∧ (col g 0 (d + 1)).2 = 0 := by
  induction d with
  | zero => exact ⟨rfl, by show _ * _ * (0 : K) = 0; ring⟩
  | succ d ih =>
    refine ⟨ih.2, ?_⟩
    show nextInColumn g 0 d _ _ = 0
    rw [ih.1, ih.2]; unfold nextInColumn; simp

theorem specW_zero (g : Geo K) (n : Nat) : specW g n 0 = 0 := (col_zero_snd g _).1

theorem zonalStep_spec (g : Geo K) (s : Shape) (n : Nat) (hn : 2 ≤ n) (hr : n < s.rows) (hcol : 0 < s.cols)
    (VW : Mat K × Mat K)
    (hV : Has s (fun i j => j = 0 ∧ i < n) (specV g) VW.1)
    (hW : Has s (fun i j => j = 0 ∧ i < n) (specW g) VW.2) :
    ∃ VW', zonalStep g VW n = some VW' ∧ Has s (fun i j => j = 0 ∧ i < n + 1) (specV g) VW'.1 ∧
      Has s (fun i j => j = 0 ∧ i < n + 1) (specW g) VW'.2 := by
  have e1 := hV.val (n - 1) 0 ⟨rfl, by omega⟩
  have e2 := hV.val (n - 2) 0 ⟨rfl, by omega⟩
  have hc : Cell .trapezoid s n 0 := ⟨hr, hcol, fun _ => Nat.zero_le _⟩
  have hz := specV_succ2 g n 0 (by omega)
  rw [Nat.add_zero, Nat.sub_zero] at hz
  obtain ⟨V', eV, hV'⟩ := hV.write n 0 hc _ hz.symm
  obtain ⟨W', eW, hW'⟩ := hW.write n 0 hc 0 (specW_zero g n).symm
  refine ⟨(V', W'), ?_, hV'.mono ?_, hW'.mono ?_⟩
  · simp only [zonalStep, e1, e2, Option.bind_eq_bind, Option.bind_some, eV, eW]
  · intro i j h; by_cases hi : i = n
    · exact Or.inr ⟨hi, h.1⟩
    · exact Or.inl ⟨h.1, by omega⟩
  · intro i j h; by_cases hi : i = n
    · exact Or.inr ⟨hi, h.1⟩
    · exact Or.inl ⟨h.1, by omega⟩

/-- Cells known while column `m` is being filled, up to degree `n - 1`. -/
def Front (l m n i j : Nat) : Prop := i ≤ l ∧ j ≤ i ∧ (j < m ∨ (j = m ∧ i < n))

theorem innerStep_spec (g : Geo K) (s : Shape) (l m n : Nat) (hn : m + 2 ≤ n) (hnl : n ≤ l)
    (hr : l < s.rows) (hcol : m < s.cols) (VW : Mat K × Mat K)
    (hV : Has s (Front l m n) (specV g) VW.1) (hW : Has s (Front l m n) (specW g) VW.2) :
    ∃ VW', innerStep g m VW n = some VW' ∧ Has s (Front l m (n + 1)) (specV g) VW'.1 ∧
      Has s (Front l m (n + 1)) (specW g) VW'.2 := by
  have p1 : Front l m n (n - 1) m := ⟨by omega, by omega, Or.inr ⟨rfl, by omega⟩⟩
  have p2 : Front l m n (n - 2) m := ⟨by omega, by omega, Or.inr ⟨rfl, by omega⟩⟩
  have e1 := hV.val _ _ p1
  have e2 := hV.val _ _ p2
  have e3 := hW.val _ _ p1
  have e4 := hW.val _ _ p2
  have hc : Cell .trapezoid s n m := ⟨by omega, hcol, fun _ => by omega⟩
  obtain ⟨V', eV, hV'⟩ := hV.write n m hc _ (specV_succ2 g n m hn).symm
  obtain ⟨W', eW, hW'⟩ := hW.write n m hc _ (specW_succ2 g n m hn).symm
  have hm : ∀ i j, Front l m (n + 1) i j → Front l m n i j ∨ (i = n ∧ j = m) := by
    intro i j h
    by_cases hi : i = n ∧ j = m
    · exact Or.inr hi
    · refine Or.inl ⟨h.1, h.2.1, ?_⟩
      rcases h.2.2 with h3 | ⟨h3, h4⟩
      · exact Or.inl h3
      · exact Or.inr ⟨h3, by have : i ≠ n := fun hh => hi ⟨hh, h3⟩
                             omega⟩
  refine ⟨(V', W'), ?_, hV'.mono hm, hW'.mono hm⟩
  simp only [innerStep, e1, e2, e3, e4, Option.bind_eq_bind, Option.bind_some, eV, eW]

theorem outerStep_spec (g : Geo K) (s : Shape) (l m : Nat) (hm : 1 ≤ m) (hml : m ≤ l)
    (hr : l < s.rows) (hcol : m < s.cols) (VW : Mat K × Mat K)
    (hV : Has s (Front l m 0) (specV g) VW.1) (hW : Has s (Front l m 0) (specW g) VW.2) :
    ∃ VW', outerStep g l VW m = some VW' ∧ Has s (Front l (m + 1) 0) (specV g) VW'.1 ∧
      Has s (Front l (m + 1) 0) (specW g) VW'.2 := by
  have p0 : Front l m 0 (m - 1) (m - 1) := ⟨by omega, by omega, Or.inl (by omega)⟩
  have e1 := hV.val _ _ p0
  have e2 := hW.val _ _ p0
  have hc : Cell .trapezoid s m m := ⟨by omega, hcol, fun _ => by omega⟩
  obtain ⟨V1, eV, hV1⟩ := hV.write m m hc _ (spec_diag g m hm).1.symm
  obtain ⟨W1, eW, hW1⟩ := hW.write m m hc _ (spec_diag g m hm).2.symm
  have e1' := hV1.val (m - 1) (m - 1) (Or.inl p0)
  have e3 := hV1.val m m (Or.inr ⟨rfl, rfl⟩)
  have e4 := hW1.val m m (Or.inr ⟨rfl, rfl⟩)
  -- after the subdiagonal
  have hsub : ∃ s2, (if m < l then (do
        let v ← rd V1 m m
        let V ← wr V1 (m + 1) m ((2 * m + 1 : Nat) * g.z0 * v)
        let w ← rd W1 m m
        let W ← wr W1 (m + 1) m ((2 * m + 1 : Nat) * g.z0 * w)
        some (V, W))
      else some (V1, W1)) = some s2 ∧ Has s (Front l m (m + 2)) (specV g) s2.1 ∧
        Has s (Front l m (m + 2)) (specW g) s2.2 := by
    by_cases hlt : m < l
    · have hc2 : Cell .trapezoid s (m + 1) m := ⟨by omega, hcol, fun _ => by omega⟩
      obtain ⟨V2, eV2, hV2⟩ := hV1.write (m + 1) m hc2 _ (spec_subdiag g m).1.symm
      obtain ⟨W2, eW2, hW2⟩ := hW1.write (m + 1) m hc2 _ (spec_subdiag g m).2.symm
      have hmm : ∀ i j, Front l m (m + 2) i j →
          (Front l m 0 i j ∨ (i = m ∧ j = m)) ∨ (i = m + 1 ∧ j = m) := by
        rintro i j ⟨h1, h2, h3 | ⟨h3, h4⟩⟩
        · exact Or.inl (Or.inl ⟨h1, h2, Or.inl h3⟩)
        · by_cases hi : i = m
          · exact Or.inl (Or.inr ⟨hi, h3⟩)
          · exact Or.inr ⟨by omega, h3⟩
      refine ⟨(V2, W2), ?_, hV2.mono hmm, hW2.mono hmm⟩
      rw [if_pos hlt]
      simp only [e3, e4, Option.bind_eq_bind, Option.bind_some, eV2, eW2]
    · have hmm : ∀ i j, Front l m (m + 2) i j → (Front l m 0 i j ∨ (i = m ∧ j = m)) := by
        rintro i j ⟨h1, h2, h3 | ⟨h3, h4⟩⟩
        · exact Or.inl ⟨h1, h2, Or.inl h3⟩
        · exact Or.inr ⟨by omega, h3⟩
      exact ⟨(V1, W1), by rw [if_neg hlt], hV1.mono hmm, hW1.mono hmm⟩
  obtain ⟨s2, es2, hV2, hW2⟩ := hsub
  obtain ⟨s3, es3, hV3, hW3⟩ := foldlM_inv (innerStep g m)
    (fun n t => Has s (Front l m n) (specV g) t.1 ∧ Has s (Front l m n) (specW g) t.2)
    (l - (m + 1)) (m + 2) s2 ⟨hV2, hW2⟩
    (fun n h1 h2 t ht => innerStep_spec g s l m n h1 (by omega) hr hcol t ht.1 ht.2)
  have hfin : ∀ i j, Front l (m + 1) 0 i j → Front l m (m + 2 + (l - (m + 1))) i j := by
    rintro i j ⟨h1, h2, h3 | ⟨h3, h4⟩⟩
    · refine ⟨h1, h2, ?_⟩
      by_cases hj : j = m
      · exact Or.inr ⟨hj, by omega⟩
      · exact Or.inl (by omega)
    · omega
  refine ⟨s3, ?_, hV3.mono hfin, hW3.mono hfin⟩
  unfold outerStep
  simp only [e1, e2, e1', Option.bind_eq_bind, Option.bind_some, eV, eW] at es2 ⊢
  rw [es2]
  exact es3

/-- The recursion as a whole. -/
theorem lagrange_spec (g : Geo K) (l k : Nat) (hk : k ≤ l) (s : Shape) (V W : Mat K)
    (hV : V.shape = s) (hVl : V.data.length = numElements .trapezoid s)
    (hW : W.shape = s) (hWl : W.data.length = numElements .trapezoid s)
    (hr : l < s.rows) (hr2 : 1 < s.rows) (hc : k < s.cols) :
    ∃ V' W', lagrange g l k V W = some (0, V', W') ∧ Has s (Front l (k + 1) 0) (specV g) V' ∧
      Has s (Front l (k + 1) 0) (specW g) W' := by
  have hV0 : Has s (fun _ _ => False) (specV g) V := ⟨hV, hVl, fun _ _ h => h.elim, fun _ _ h => h.elim⟩
  have hW0 : Has s (fun _ _ => False) (specW g) W := ⟨hW, hWl, fun _ _ h => h.elim, fun _ _ h => h.elim⟩
  have c00 : Cell .trapezoid s 0 0 := ⟨by omega, by omega, fun _ => by omega⟩
  have c10 : Cell .trapezoid s 1 0 := ⟨by omega, by omega, fun _ => by omega⟩
  obtain ⟨V1, eV1, hV1⟩ := hV0.write 0 0 c00 g.v00 rfl
  obtain ⟨W1, eW1, hW1⟩ := hW0.write 0 0 c00 0 rfl
  have e0 : rd V1 0 0 = some g.v00 := hV1.val 0 0 (Or.inr ⟨rfl, rfl⟩)
  obtain ⟨V2, eV2, hV2⟩ := hV1.write 1 0 c10 (g.z0 * g.v00) (by
    show g.z0 * g.v00 = (2 * ((0 : Nat) : K) + 1) * g.z0 * g.v00
    push_cast; ring)
  obtain ⟨W2, eW2, hW2⟩ := hW1.write 1 0 c10 0 (specW_zero g 1).symm
  have hmm : ∀ i j, (j = 0 ∧ i < 2) → (((fun _ _ => False) i j ∨ (i = 0 ∧ j = 0)) ∨ (i = 1 ∧ j = 0)) := by
    rintro i j ⟨h1, h2⟩
    by_cases hi : i = 0
    · exact Or.inl (Or.inr ⟨hi, h1⟩)
    · exact Or.inr ⟨by omega, h1⟩
  obtain ⟨s3, es3, hV3, hW3⟩ := foldlM_inv (zonalStep g)
    (fun n t => Has s (fun i j => j = 0 ∧ i < n) (specV g) t.1 ∧ Has s (fun i j => j = 0 ∧ i < n) (specW g) t.2)
    (l - 1) 2 (V2, W2) ⟨hV2.mono hmm, hW2.mono hmm⟩
    (fun n h1 h2 t ht => zonalStep_spec g s n h1 (by omega) (by omega) t ht.1 ht.2)
  have hm3 : ∀ i j, Front l 1 0 i j → (j = 0 ∧ i < 2 + (l - 1)) := by
    rintro i j ⟨h1, h2, h3 | ⟨h3, h4⟩⟩
    · exact ⟨by omega, by omega⟩
    · omega
  obtain ⟨s4, es4, hV4, hW4⟩ := foldlM_inv (outerStep g l)
    (fun m t => Has s (Front l m 0) (specV g) t.1 ∧ Has s (Front l m 0) (specW g) t.2)
    k 1 s3 ⟨hV3.mono hm3, hW3.mono hm3⟩
    (fun m h1 h2 t ht => outerStep_spec g s l m h1 (by omega) hr (by omega) t ht.1 ht.2)
  refine ⟨s4.1, s4.2, ?_, by rw [Nat.add_comm]; exact hV4, by rw [Nat.add_comm]; exact hW4⟩
  unfold lagrange
  rw [if_neg (by omega)]
  simp only [Option.bind_eq_bind, Option.bind_some, eV1, eW1, e0, eV2, eW2, es3, es4]

end Verif.Gravity
