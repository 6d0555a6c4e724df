import Verif.Mat2D.Lemmas
import Mathlib.Data.List.Nodup

/-!
C03 (trapezoidal storage), C04 (dense storage), C05 (buffer ownership).
-/
namespace Verif.Mat2D

/-! ### Specification -/

/-- The cells a client may use: inside the matrix and, for trapezoidal storage, on or below
the diagonal. -/
def Cell (st : Storage) (s : Shape) (i j : Nat) : Prop :=
  i < s.rows ∧ j < s.cols ∧ (st = .trapezoid → j ≤ i)

instance (st : Storage) (s : Shape) (i j : Nat) : Decidable (Cell st s i j) := by
  unfold Cell; infer_instance

theorem offset_of_cell {s : Shape} {i j : Nat} (h : Cell .trapezoid s i j) :
    offset .trapezoid s i j = trapSlice s i + j ∧ j < ptsInRow s i := by
  obtain ⟨h1, h2, h3⟩ := h
  have h3 := h3 rfl
  refine ⟨?_, by unfold ptsInRow; omega⟩
  simp only [offset, trapOffset]
  rw [if_pos (by omega)]

/-! ### C03, C04: cells and slots are in bijection -/

/-- **C03 (a), C04 (a)** every cell lies inside the allocated buffer. -/
theorem offset_lt (st : Storage) (s : Shape) (i j : Nat) (h : Cell st s i j) :
    offset st s i j < numElements st s := by
  obtain ⟨hi, hj, -⟩ := id h
  cases st with
  | trapezoid =>
    obtain ⟨he, hp⟩ := offset_of_cell h
    have := trapSlice_succ_le s hi
    rw [he]
    simp only [numElements, trapNumElements_eq]
    omega
  | rowWise =>
    simp only [offset, numElements]
    have : (i + 1) * s.cols ≤ s.rows * s.cols := Nat.mul_le_mul_right _ hi
    rw [Nat.add_mul] at this; omega
  | columnWise =>
    simp only [offset, numElements]
    have : (j + 1) * s.rows ≤ s.cols * s.rows := Nat.mul_le_mul_right _ hj
    rw [Nat.add_mul] at this
    rw [Nat.mul_comm s.rows]; omega

theorem mul_add_inj {n a b c d : Nat} (hb : b < n) (hd : d < n) (h : a * n + b = c * n + d) :
    a = c ∧ b = d := by
  have hac : a = c := by
    rcases Nat.lt_trichotomy a c with hlt | heq | hgt
    · have := Nat.mul_le_mul_right n (show a + 1 ≤ c from hlt)
      rw [Nat.add_mul] at this; omega
    · exact heq
    · have := Nat.mul_le_mul_right n (show c + 1 ≤ a from hgt)
      rw [Nat.add_mul] at this; omega
  subst hac
  exact ⟨rfl, by omega⟩

/-- **C03 (b), C04 (b)** two different cells never share storage. -/
theorem offset_inj (st : Storage) (s : Shape) (i j i' j' : Nat)
    (h : Cell st s i j) (h' : Cell st s i' j') (he : offset st s i j = offset st s i' j') :
    i = i' ∧ j = j' := by
  cases st with
  | trapezoid =>
    obtain ⟨e1, p1⟩ := offset_of_cell h
    obtain ⟨e2, p2⟩ := offset_of_cell h'
    rw [e1, e2] at he
    rcases Nat.lt_trichotomy i i' with hlt | heq | hgt
    · have := trapSlice_succ_le s hlt; omega
    · subst heq; exact ⟨rfl, by omega⟩
    · have := trapSlice_succ_le s hgt; omega
  | rowWise =>
    exact mul_add_inj h.2.1 h'.2.1 he
  | columnWise =>
    have := mul_add_inj h.1 h'.1 he
    exact ⟨this.2, this.1⟩

/-- **C03 (c), C04 (c)** every slot of the buffer belongs to some cell. -/
theorem offset_surj (st : Storage) (s : Shape) (k : Nat) (hk : k < numElements st s) :
    ∃ i j, Cell st s i j ∧ offset st s i j = k := by
  cases st with
  | trapezoid =>
    simp only [numElements, trapNumElements_eq] at hk
    obtain ⟨i, j, hi, hj, he⟩ := trapSlice_search s _ _ hk
    have hc : Cell .trapezoid s i j := by
      unfold ptsInRow at hj
      exact ⟨hi, by omega, fun _ => by omega⟩
    exact ⟨i, j, hc, by rw [(offset_of_cell hc).1]; exact he⟩
  | rowWise =>
    simp only [numElements] at hk
    have hc : 0 < s.cols := by
      rcases Nat.eq_zero_or_pos s.cols with h | h
      · rw [h] at hk; omega
      · exact h
    refine ⟨k / s.cols, k % s.cols, ⟨?_, Nat.mod_lt _ hc, by intro h; cases h⟩, ?_⟩
    · rw [Nat.div_lt_iff_lt_mul hc]; exact hk
    · simp only [offset]; rw [Nat.mul_comm]; exact Nat.div_add_mod k s.cols
  | columnWise =>
    simp only [numElements] at hk
    have hc : 0 < s.rows := by
      rcases Nat.eq_zero_or_pos s.rows with h | h
      · rw [h] at hk; omega
      · exact h
    refine ⟨k % s.rows, k / s.rows, ⟨Nat.mod_lt _ hc, ?_, by intro h; cases h⟩, ?_⟩
    · rw [Nat.div_lt_iff_lt_mul hc, Nat.mul_comm]; exact hk
    · simp only [offset]; rw [Nat.mul_comm]; exact Nat.div_add_mod k s.rows

/-- **C03 (d)** consecutive cells of a trapezoid row are consecutive in memory, starting at
the row's slice. -/
theorem trap_row_contiguous (s : Shape) (i j : Nat) (h : Cell .trapezoid s i j) :
    offset .trapezoid s i j = slice .trapezoid s i + j :=
  (offset_of_cell h).1

/-- **C04 (d)** slices start where their first cell is: rows of row-wise storage, columns of
column-wise storage, and cells follow consecutively. -/
theorem dense_slices (s : Shape) (i j : Nat) :
    offset .rowWise s i j = slice .rowWise s i + j ∧
    offset .columnWise s i j = slice .columnWise s j + i := ⟨rfl, rfl⟩

/-- number of cells of the dense matrix -/
theorem dense_numElements (s : Shape) :
    numElements .rowWise s = s.rows * s.cols ∧ numElements .columnWise s = s.rows * s.cols :=
  ⟨rfl, rfl⟩

/-- Closed form of the trapezoid size for at least as many rows as columns: the full triangle
plus full rows. -/
theorem trap_numElements_closed (s : Shape) (h : s.cols ≤ s.rows) :
    2 * numElements .trapezoid s = s.cols * (s.cols + 1) + 2 * ((s.rows - s.cols) * s.cols) := by
  simp only [numElements, trapNumElements_eq, trapSlice_eq_loop]
  obtain ⟨d, hd⟩ : ∃ d, s.rows = s.cols + d := ⟨s.rows - s.cols, by omega⟩
  rw [hd]
  have : ∀ d, 2 * trapLoop s.cols (s.cols + d) = s.cols * (s.cols + 1) + 2 * (d * s.cols) := by
    intro d
    induction d with
    | zero =>
      have := trapLoop_twice s.cols s.cols (Nat.le_refl _)
      simp only [Nat.add_zero, Nat.zero_mul, Nat.mul_zero, this]
    | succ d ih =>
      rw [← Nat.add_assoc]
      simp only [trapLoop, Nat.add_mul, Nat.one_mul]
      have : min (s.cols + d + 1) s.cols = s.cols := by omega
      omega
  rw [this d]
  congr 3; omega

/-! ### Stores and loads -/

/-- Reading after writing the same cell returns the written value; other cells keep theirs. -/
theorem get_set (α : Type) (st : Storage) (m : Mat α) (i j i' j' : Nat) (v : α)
    (hm : m.data.length = numElements st m.shape)
    (h : Cell st m.shape i j) (h' : Cell st m.shape i' j') :
    ∃ m', m.set? st i j v = some m' ∧ m'.shape = m.shape ∧ m'.data.length = m.data.length ∧
      m'.get? st i' j' = if i' = i ∧ j' = j then some v else m.get? st i' j' := by
  have hlt := offset_lt st m.shape i j h
  refine ⟨{ m with data := m.data.set (offset st m.shape i j) v },
    by unfold Mat.set?; rw [if_pos (by omega)], rfl, by simp, ?_⟩
  simp only [Mat.get?]
  split
  · rename_i he
    rw [he.1, he.2, List.getElem?_set]
    simp; omega
  · rename_i he
    rw [List.getElem?_set]
    rw [if_neg]
    intro hoff
    have := offset_inj st m.shape _ _ _ _ h h' hoff
    exact he ⟨this.1.symm, this.2.symm⟩

/-- A sequence of stores. -/
def runSets {α : Type} (st : Storage) (m : Mat α) : List (Nat × Nat × α) → Option (Mat α)
  | [] => some m
  | (i, j, v) :: t => (m.set? st i j v).bind fun m' => runSets st m' t

/-- Specification: the value of a cell after a sequence of stores is the last value stored
there, or the initial one. -/
def lastStore {α : Type} (i j : Nat) (init : Option α) : List (Nat × Nat × α) → Option α
  | [] => init
  | (a, b, v) :: t => lastStore i j (if i = a ∧ j = b then some v else init) t

/-- **C03 (e), C04 (e)** after every sequence of stores to cells of a matrix, every cell holds
the last value stored in it, and no store touches memory outside the buffer. -/
theorem runSets_spec (α : Type) (st : Storage) (ops : List (Nat × Nat × α)) :
    ∀ (m : Mat α), m.data.length = numElements st m.shape →
    (∀ o ∈ ops, Cell st m.shape o.1 o.2.1) →
    ∃ m', runSets st m ops = some m' ∧ m'.shape = m.shape ∧
      ∀ i j, Cell st m.shape i j → m'.get? st i j = lastStore i j (m.get? st i j) ops := by
  induction ops with
  | nil => intro m _ _; exact ⟨m, rfl, rfl, fun _ _ _ => rfl⟩
  | cons o t ih =>
    obtain ⟨a, b, v⟩ := o
    intro m hm hops
    have hab : Cell st m.shape a b := hops _ (List.mem_cons_self ..)
    obtain ⟨m1, e1, s1, l1, -⟩ := get_set α st m a b a b v hm hab hab
    obtain ⟨m2, e2, s2, g2⟩ := ih m1 (by rw [l1, s1]; exact hm)
      (by intro o ho; rw [s1]; exact hops o (List.mem_cons_of_mem _ ho))
    refine ⟨m2, by simp [runSets, e1, e2], by rw [s2, s1], ?_⟩
    intro i j hij
    rw [g2 i j (by rw [s1]; exact hij)]
    obtain ⟨m1', e1', -, -, g1⟩ := get_set α st m a b i j v hm hab hij
    rw [e1] at e1'
    cases e1'
    rw [g1]
    rfl

/-- `fill_with` puts the value in every cell. -/
theorem fillWith_spec (α : Type) (st : Storage) (m : Mat α) (v : α)
    (hm : m.data.length = numElements st m.shape) :
    ∃ m', m.fillWith st v = some m' ∧
      ∀ i j, Cell st m.shape i j → m'.get? st i j = some v := by
  refine ⟨{ m with data := List.replicate (numElements st m.shape) v
      ++ m.data.drop (numElements st m.shape) },
    by unfold Mat.fillWith; rw [if_pos (by omega)], ?_⟩
  intro i j h
  have hlt := offset_lt st m.shape i j h
  simp only [Mat.get?]
  rw [List.getElem?_append_left (by simpa using hlt)]
  simp [hlt]

/-- `fill_with` leaves the buffer exactly when the buffer is smaller than the matrix. -/
theorem fillWith_outside (α : Type) (st : Storage) (m : Mat α) (v : α) :
    m.fillWith st v = none ↔ m.data.length < numElements st m.shape := by
  unfold Mat.fillWith
  split
  · rename_i h
    exact ⟨fun hh => by simp at hh, fun hh => by omega⟩
  · rename_i h
    exact ⟨fun _ => by omega, fun _ => rfl⟩

/-- The restriction to cells on or below the diagonal is needed: above the diagonal a
trapezoid cell is stored on top of another one. -/
theorem trap_upper_alias (s : Shape) (i : Nat) (h : i + 1 < s.rows) (hc : i + 1 < s.cols) :
    offset .trapezoid s i (i + 1) = offset .trapezoid s (i + 1) 0 := by
  simp only [offset, trapOffset]
  rw [if_pos (by omega), if_pos (by omega)]
  simp only [trapSlice, ptsInRow]; omega

/-- … and the last row's upper cells lie outside the buffer. -/
theorem trap_upper_out_of_bounds (s : Shape) (h : 0 < s.rows) (hc : s.rows < s.cols) :
    ¬ offset .trapezoid s (s.rows - 1) s.rows < numElements .trapezoid s := by
  simp only [offset, trapOffset, numElements, trapNumElements_eq]
  rw [if_pos (by omega)]
  obtain ⟨r, hr⟩ : ∃ r, s.rows = r + 1 := ⟨s.rows - 1, by omega⟩
  rw [hr]
  simp only [Nat.add_sub_cancel, trapSlice, ptsInRow]
  omega

example : Cell .trapezoid ⟨4, 3⟩ 3 2 ∧ offset .trapezoid ⟨4, 3⟩ 3 2 = 8 ∧
    numElements .trapezoid ⟨4, 3⟩ = 9 := by decide
example : Cell .trapezoid ⟨2, 5⟩ 1 1 ∧ numElements .trapezoid ⟨2, 5⟩ = 3 := by decide
example : (runSets .columnWise (⟨⟨2, 3⟩, [0, 0, 0, 0, 0, 0]⟩ : Mat Nat)
    [(0, 1, 7), (1, 2, 9), (0, 1, 8)]).bind (fun m => m.get? .columnWise 0 1) = some 8 := by decide

/-! ### C05: ownership of the buffer -/

open Verif.Heap (Heap)

/-- Abstract content of an object: holds a buffer, or was moved from. -/
inductive Ghost where
  | full
  | hollow
deriving DecidableEq, Repr

/-- What a client expects of one operation, without any pointers. Move assignment and element
access of a moved-from matrix have no meaning. -/
def specStep (g : Nat → Option Ghost) : Op → Except Err (Nat → Option Ghost)
  | .construct x => if (g x).isSome then .error .misuse
      else .ok fun z => if z = x then some .full else g z
  | .moveConstruct x y =>
      if (g x).isSome ∨ (g y).isNone then .error .misuse
      else .ok fun z => if z = y then some .hollow else if z = x then g y else g z
  | .moveAssign x y => if (g x).isSome ∧ (g y).isSome then .error .ub else .error .misuse
  | .destroy x => if (g x).isNone then .error .misuse
      else .ok fun z => if z = x then none else g z
  | .access x => match g x with
      | none => .error .misuse
      | some .hollow => .error .ub
      | some .full => .ok g

/-- A history on ghosts. -/
def specRun (g : Nat → Option Ghost) : List Op → Except Err (Nat → Option Ghost)
  | [] => .ok g
  | op :: ops => match specStep g op with
    | .error e => .error e
    | .ok g' => specRun g' ops

/-- Forget the pointer value. -/
def ghostOf (objs : Nat → Option Obj) : Nat → Option Ghost := fun x =>
  (objs x).map fun o => match o.ptr with
    | none => .hollow
    | some _ => .full

/-- Ownership invariant: the live blocks are exactly the buffers of the full objects, each
owned once. -/
structure Inv (s : State) : Prop where
  wf : s.heap.WF
  owned : ∀ x p, s.objs x = some ⟨some p⟩ → p ∈ s.heap.live
  once : ∀ x y p, s.objs x = some ⟨some p⟩ → s.objs y = some ⟨some p⟩ → x = y
  noLeak : ∀ p ∈ s.heap.live, ∃ x, s.objs x = some ⟨some p⟩

theorem inv_init : Inv State.init where
  wf := ⟨List.nodup_nil, by intro p hp; cases hp⟩
  owned := by intro x p h; cases h
  once := by intro x y p h; cases h
  noLeak := by intro p hp; cases hp

theorem step_spec (s : State) (hs : Inv s) (op : Op) :
    match step s op with
    | .error e => specStep (ghostOf s.objs) op = .error e
    | .ok s' => specStep (ghostOf s.objs) op = .ok (ghostOf s'.objs) ∧ Inv s' := by
  cases op with
  | construct x =>
    cases hx : s.objs x with
    | some o => simp [step, hx, specStep, ghostOf]
    | none =>
      simp only [step, hx, Heap.Heap.alloc, specStep, ghostOf, Option.map_none, Option.isSome_none]
      refine ⟨?_, ?_⟩
      · simp only [Bool.false_eq_true, if_false]
        refine congrArg Except.ok (funext fun z => ?_)
        simp only [ghostOf, upd]; split <;> simp
      · have hfresh : s.heap.next ∉ s.heap.live := fun h => Nat.lt_irrefl _ (hs.wf.2 _ h)
        constructor
        · refine ⟨List.nodup_cons.2 ⟨hfresh, hs.wf.1⟩, ?_⟩
          intro p hp
          rcases List.mem_cons.1 hp with rfl | hp
          · exact Nat.lt_succ_self _
          · exact Nat.lt_succ_of_lt (hs.wf.2 p hp)
        · intro z p h
          simp only [upd] at h
          split at h
          · cases h; exact List.mem_cons_self ..
          · exact List.mem_cons_of_mem _ (hs.owned z p h)
        · intro z z' p h h'
          simp only [upd] at h h'
          split at h <;> split at h'
          · omega
          · cases h; exact absurd (hs.owned _ _ h') hfresh
          · cases h'; exact absurd (hs.owned _ _ h) hfresh
          · exact hs.once z z' p h h'
        · intro p hp
          rcases List.mem_cons.1 hp with rfl | hp
          · exact ⟨x, by simp [upd]⟩
          · obtain ⟨z, hz⟩ := hs.noLeak p hp
            refine ⟨z, ?_⟩
            have : z ≠ x := by rintro rfl; rw [hx] at hz; cases hz
            simp [upd, this, hz]
  | moveConstruct x y =>
    cases hx : s.objs x with
    | some o => simp [step, hx, specStep, ghostOf]
    | none =>
      cases hy : s.objs y with
      | none => simp [step, hx, hy, specStep, ghostOf]
      | some o =>
        have hxy : x ≠ y := by rintro rfl; rw [hx] at hy; cases hy
        simp only [step, hx, hy, specStep, ghostOf, Option.map_none, Option.isSome_none,
          Option.map_some, Option.isNone_some]
        refine ⟨?_, ?_⟩
        · simp only [Bool.false_eq_true, or_self, if_false]
          refine congrArg Except.ok (funext fun z => ?_)
          simp only [ghostOf, upd]
          split
          · simp
          · split <;> simp
        · constructor
          · exact hs.wf
          · intro z p h
            simp only [upd] at h
            split at h
            · cases h
            · split at h
              · exact hs.owned y p (by rw [hy]; exact h)
              · exact hs.owned z p h
          · intro z z' p h h'
            simp only [upd] at h h'
            split at h
            · cases h
            · split at h'
              · cases h'
              · rename_i h1 h2
                split at h <;> split at h'
                · omega
                · exact absurd (hs.once y z' p (by rw [hy]; exact h) h') (fun e => h2 e.symm)
                · exact absurd (hs.once z y p h (by rw [hy]; exact h')) h1
                · exact hs.once z z' p h h'
          · intro p hp
            obtain ⟨z, hz⟩ := hs.noLeak p hp
            by_cases hzy : z = y
            · subst hzy
              exact ⟨x, by simp [upd, hxy]; rw [hy] at hz; simpa using hz⟩
            · have : z ≠ x := by rintro rfl; rw [hx] at hz; cases hz
              exact ⟨z, by simp [upd, hzy, this, hz]⟩
  | moveAssign x y =>
    cases hx : s.objs x <;> cases hy : s.objs y <;> simp [step, hx, hy, specStep, ghostOf]
  | destroy x =>
    cases hx : s.objs x with
    | none => simp [step, hx, specStep, ghostOf]
    | some o =>
      obtain ⟨p⟩ := o
      cases p with
      | none =>
        simp only [step, hx, specStep, ghostOf, Option.map_some, Option.isNone_some]
        refine ⟨?_, ?_⟩
        · simp only [Bool.false_eq_true, if_false]
          refine congrArg Except.ok (funext fun z => ?_)
          simp only [ghostOf, upd]; split <;> simp
        · constructor
          · exact hs.wf
          · intro z p h
            simp only [upd] at h
            split at h
            · cases h
            · exact hs.owned z p h
          · intro z z' p h h'
            simp only [upd] at h h'
            split at h
            · cases h
            · split at h'
              · cases h'
              · exact hs.once z z' p h h'
          · intro p hp
            obtain ⟨z, hz⟩ := hs.noLeak p hp
            have : z ≠ x := by rintro rfl; rw [hx] at hz; cases hz
            exact ⟨z, by simp [upd, this, hz]⟩
      | some p =>
        have hp := hs.owned x p hx
        simp only [step, hx, Heap.Heap.free, if_pos hp, specStep, ghostOf, Option.map_some,
          Option.isNone_some]
        refine ⟨?_, ?_⟩
        · simp only [Bool.false_eq_true, if_false]
          refine congrArg Except.ok (funext fun z => ?_)
          simp only [ghostOf, upd]; split <;> simp
        · constructor
          · exact ⟨hs.wf.1.erase p, fun q hq => hs.wf.2 q (List.mem_of_mem_erase hq)⟩
          · intro z q h
            simp only [upd] at h
            split at h
            · cases h
            · rename_i hz
              have hq := hs.owned z q h
              refine (List.mem_erase_of_ne ?_).2 hq
              rintro rfl
              exact hz (hs.once z x q h hx)
          · intro z z' p h h'
            simp only [upd] at h h'
            split at h
            · cases h
            · split at h'
              · cases h'
              · exact hs.once z z' p h h'
          · intro q hq
            have hne : q ≠ p := by
              rintro rfl
              exact (List.Nodup.not_mem_erase hs.wf.1) hq
            obtain ⟨z, hz⟩ := hs.noLeak q (List.mem_of_mem_erase hq)
            have : z ≠ x := by
              rintro rfl
              rw [hx] at hz
              cases hz
              exact hne rfl
            exact ⟨z, by simp [upd, this, hz]⟩
  | access x =>
    cases hx : s.objs x with
    | none => simp [step, hx, specStep, ghostOf]
    | some o =>
      obtain ⟨p⟩ := o
      cases p with
      | none => simp [step, hx, specStep, ghostOf]
      | some p =>
        have hp := hs.owned x p hx
        simp [step, hx, hp, specStep, ghostOf, hs]

/-- **C05 (a)** Every history of constructions, move constructions, element accesses and
destructions has exactly the outcome that the pointer-free specification predicts (so: no
double free and no dangling access, ever), and the blocks still allocated are exactly the
buffers of the matrices that hold one, each owned by one matrix. -/
theorem run_refines (ops : List Op) :
    match run State.init ops with
    | .error e => specRun (fun _ => none) ops = .error e
    | .ok s => specRun (fun _ => none) ops = .ok (ghostOf s.objs) ∧ Inv s := by
  have H : ∀ (ops : List Op) (s : State), Inv s →
      match run s ops with
      | .error e => specRun (ghostOf s.objs) ops = .error e
      | .ok s' => specRun (ghostOf s.objs) ops = .ok (ghostOf s'.objs) ∧ Inv s' := by
    intro ops
    induction ops with
    | nil => intro s hs; exact ⟨rfl, hs⟩
    | cons op t ih =>
      intro s hs
      have h1 := step_spec s hs op
      cases hstep : step s op with
      | error e => rw [hstep] at h1; simp only [run, hstep, specRun]; rw [h1]
      | ok s' =>
        rw [hstep] at h1
        simp only [run, hstep, specRun]
        rw [h1.1]
        exact ih s' h1.2
  exact H ops State.init inv_init

/-- **C05 (b)** When every matrix has been destroyed, nothing is left allocated. -/
theorem no_leak (ops : List Op) (s : State) (h : run State.init ops = .ok s)
    (hd : ∀ x, s.objs x = none) : s.heap.live = [] := by
  have := run_refines ops
  rw [h] at this
  cases hl : s.heap.live with
  | nil => rfl
  | cons p t =>
    obtain ⟨x, hx⟩ := this.2.noLeak p (by rw [hl]; exact List.mem_cons_self ..)
    rw [hd x] at hx; cases hx

/-- **C05 (c)** Histories without move assignment and without access to a moved-from matrix
never run into undefined behaviour. -/
theorem no_ub (ops : List Op) (hm : ∀ x y, Op.moveAssign x y ∉ ops)
    (ha : ∀ x, Op.access x ∉ ops) : run State.init ops ≠ .error .ub := by
  intro hub
  have h := run_refines ops
  rw [hub] at h
  have H : ∀ (ops : List Op) (g : Nat → Option Ghost), (∀ x y, Op.moveAssign x y ∉ ops) →
      (∀ x, Op.access x ∉ ops) → specRun g ops ≠ .error .ub := by
    intro ops
    induction ops with
    | nil => intro g _ _ h; cases h
    | cons op t ih =>
      intro g h1 h2 h
      have ih' := fun g => ih g (fun x y hx => h1 x y (List.mem_cons_of_mem _ hx))
        (fun x hx => h2 x (List.mem_cons_of_mem _ hx))
      cases op with
      | moveAssign x y => exact h1 x y (List.mem_cons_self ..)
      | access x => exact h2 x (List.mem_cons_self ..)
      | construct x =>
        simp only [specRun] at h
        split at h
        · rename_i e he
          cases h
          simp only [specStep] at he
          split at he <;> cases he
        · exact ih' _ h
      | moveConstruct x y =>
        simp only [specRun] at h
        split at h
        · rename_i e he
          cases h
          simp only [specStep] at he
          split at he <;> cases he
        · exact ih' _ h
      | destroy x =>
        simp only [specRun] at h
        split at h
        · rename_i e he
          cases h
          simp only [specStep] at he
          split at he <;> cases he
        · exact ih' _ h
  exact H ops _ hm ha h

/-- **C05 (d), violation** Move assignment between two live matrices is undefined behaviour
(no `return`) … -/
theorem moveAssign_ub (s : State) (x y : Nat) (ox oy : Obj) (hx : s.objs x = some ox)
    (hy : s.objs y = some oy) : step s (.moveAssign x y) = .error .ub := by
  simp [step, hx, hy]

/-- … and even with the `return` added, the buffer of the assigned-to matrix is lost: it stays
allocated but no matrix owns it, for every state reached by a history. -/
theorem moveAssign_leaks (s : State) (hs : Inv s) (x y p : Nat) (oy : Obj)
    (hx : s.objs x = some ⟨some p⟩) (hy : s.objs y = some oy) :
    ∃ s', moveAssignEffect s x y = .ok s' ∧ p ∈ s'.heap.live ∧
      ∀ z, s'.objs z ≠ some ⟨some p⟩ := by
  refine ⟨⟨s.heap, upd (upd s.objs x (some oy)) y (some ⟨none⟩)⟩,
    by simp only [moveAssignEffect, hx, hy], hs.owned x p hx, ?_⟩
  intro z hz
  simp only [upd] at hz
  split at hz
  · cases hz
  · rename_i hzy
    split at hz
    · rename_i hzx
      exact hzy (hzx.trans (hs.once x y p hx (by rw [hy]; exact hz)))
    · rename_i hzx
      exact hzx (hs.once z x p hz hx)

example : ∃ s, run State.init [.construct 0, .moveConstruct 1 0, .access 1, .destroy 0,
    .destroy 1] = .ok s ∧ s.heap.live = [] := ⟨_, rfl, rfl⟩
example : run State.init [.construct 0, .moveConstruct 1 0, .access 0] = .error .ub := rfl
example : run State.init [.construct 0, .construct 1, .moveAssign 0 1] = .error .ub := rfl

end Verif.Mat2D
