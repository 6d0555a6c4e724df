import Verif.Sgode.MemPieces

/-! C113: the integrator stays inside its work arrays and reads nothing it has not written. -/
namespace Verif.Sgode
open Arr Ev

variable {K : Type} [Field K] [LinearOrder K] [IsStrictOrderedRing K] {n : Nat}

/-! ### Specification -/

/-- Each access lies in its array, and each element read was written earlier (the table `gstr` is a
constant). -/
def MemorySafe (l : List Ev) : Prop :=
  ∀ pre ev post, l = pre ++ ev :: post →
    match ev with
    | .wr a i => InBounds a i
    | .rd a i => InBounds a i ∧ (a = gstr ∨ wr a i ∈ pre)

/-- The histories of an integrator object together with all accesses since its construction (when
no element has a value): starts, restarts (possibly in another direction), rejections, acceptances.
The states are those of `AtAttempt`. -/
inductive Traced (e : Ext K n) : K → St K n → List Ev → Prop
  /-- the first attempt of a new object -/
  | first (d : K) (s : St K n) (eps round : K) (h : 0 < d * s.h) (heps : 0 < eps) :
      Traced e d (initialise e eps (1 / 2 * eps) round (initCoefs s))
        (initCoefsT ++ initialiseT (initialise e eps (1 / 2 * eps) round (initCoefs s)).nornd)
  /-- a restart, from any state the caller chooses, after an accepted attempt -/
  | restart (d d' : K) (s0 s : St K n) (l : List Ev) (q : Est K) (eps round : K) (hs : Traced e d' s0 l) (h : 0 < d * s.h)
      (heps : 0 < eps) :
      Traced e d (initialise e eps (1 / 2 * eps) round (initCoefs s))
        (l ++ attemptT s0 ++ acceptT s0.k s0.nornd (estimated q (attempt e s0)) ++ initCoefsT ++
          initialiseT (initialise e eps (1 / 2 * eps) round (initCoefs s)).nornd)
  /-- a restart after a rejected attempt at which the step size became too small -/
  | restart' (d d' : K) (s0 s : St K n) (l : List Ev) (eps round : K) (hs : Traced e d' s0 l) (h : 0 < d * s.h)
      (heps : 0 < eps) :
      Traced e d (initialise e eps (1 / 2 * eps) round (initCoefs s))
        (l ++ attemptT s0 ++ rejectT s0.k ++ initCoefsT ++
          initialiseT (initialise e eps (1 / 2 * eps) round (initCoefs s)).nornd)
  /-- after a rejected attempt -/
  | retry (d : K) (s : St K n) (l : List Ev) (eps : K) (ifail : Int) (hs : Traced e d s l) (heps : 0 < eps) :
      Traced e d (reject e (1 / 2 * eps) (estimates e (attempt e s)) ifail s.x (attempt e s))
        (l ++ attemptT s ++ rejectT s.k)
  /-- the next step after an accepted attempt -/
  | next (d : K) (s : St K n) (l : List Ev) (eps h' : K) (wt : Vec K n) (hs : Traced e d s l) (hh : 0 < d * h') :
      Traced e d (initCoefs { accept e (1 / 2 * eps) (estimates e (attempt e s)) (attempt e s) with h := h', wt := wt })
        (l ++ attemptT s ++ acceptT s.k s.nornd (estimated (estimates e (attempt e s)) (attempt e s)) ++ initCoefsT)

theorem Traced.atAttempt {e : Ext K n} {d : K} {s : St K n} {l : List Ev} (h : Traced e d s l) : AtAttempt e d s := by
  induction h with
  | first d s eps round h heps => exact .first s eps round h heps
  | restart d d' s0 s l q eps round hs h heps => exact .first s eps round h heps
  | restart' d d' s0 s l eps round hs h heps => exact .first s eps round h heps
  | retry d s l eps ifail hs heps ih => exact .retry s eps ifail ih heps
  | next d s l eps h' wt hs hh ih => exact .next s eps h' wt ih hh

/-! ### Proof -/

/-- The memory of a new object: only the constant table has values. -/
def fresh : Mem := fun a _ => a = gstr

theorem memorySafe_iff (l : List Ev) : MemorySafe l ↔ Ok fresh l := by
  suffices h : ∀ (l : List Ev) (W : Mem), Ok W l ↔ ∀ pre ev post, l = pre ++ ev :: post →
      match ev with
      | .wr a i => InBounds a i
      | .rd a i => InBounds a i ∧ (W a i ∨ wr a i ∈ pre) by
    rw [h l fresh]
    rfl
  intro l
  induction l with
  | nil =>
    intro W
    simp [Ok]
  | cons x l ih =>
    intro W
    constructor
    · intro h pre ev post hl
      cases pre with
      | nil =>
        simp only [List.nil_append, List.cons.injEq] at hl
        obtain ⟨rfl, rfl⟩ := hl
        cases x with
        | rd a i => exact ⟨h.1, Or.inl h.2.1⟩
        | wr a i => exact h.1
      | cons y pre =>
        simp only [List.cons_append, List.cons.injEq] at hl
        obtain ⟨rfl, hl⟩ := hl
        cases x with
        | rd a i =>
          have := (ih W).1 h.2.2 pre ev post hl
          cases ev with
          | rd b j => exact ⟨this.1, this.2.imp id (by simp)⟩
          | wr b j => exact this
        | wr a i =>
          have := (ih _).1 h.2 pre ev post hl
          cases ev with
          | rd b j =>
            refine ⟨this.1, ?_⟩
            rcases this.2 with (h1 | ⟨h1, h2⟩) | h1
            · exact Or.inl h1
            · subst h1 h2
              exact Or.inr (by simp)
            · exact Or.inr (by simp [h1])
          | wr b j => exact this
    · intro h
      cases x with
      | rd a i =>
        have h0 := h [] (rd a i) l rfl
        refine ⟨h0.1, by simpa using h0.2, (ih W).2 ?_⟩
        intro pre ev post hl
        have := h (rd a i :: pre) ev post (by simp [hl])
        cases ev with
        | rd b j => exact ⟨this.1, by simpa using this.2⟩
        | wr b j => exact this
      | wr a i =>
        have h0 := h [] (wr a i) l rfl
        refine ⟨h0, (ih _).2 ?_⟩
        intro pre ev post hl
        have := h (wr a i :: pre) ev post (by simp [hl])
        cases ev with
        | rd b j =>
          refine ⟨this.1, ?_⟩
          rcases this.2 with h1 | h1
          · exact Or.inl (Or.inl h1)
          · simp only [List.mem_cons, Ev.wr.injEq] at h1
            rcases h1 with h1 | h1
            · exact Or.inl (Or.inr h1)
            · exact Or.inr h1
        | wr b j => exact this

theorem Reg.keep {m : Int} {r : Bool} {W : Mem} (h : Reg m r W) (l : List Ev) : Reg m r (after W l) :=
  ⟨h.psi.keep l, h.alpha.keep l, h.beta.keep l, h.v.keep l, h.sig.keep l, h.g.keep l, h.g2.keep l, h.diff.keep l,
    h.gstr.keep l, fun hr => after_mono _ _ _ _ (h.rnd hr)⟩

/-- The invariant: `m` is the highest order attempted so far. -/
structure MInv (s : St K n) (m : Int) (W : Mem) : Prop where
  m0 : 0 ≤ m
  m12 : m ≤ 12
  reg : Reg m s.nornd W
  kold : (s.kold : Int) ≤ m
  ns : s.h = s.hold → (s.ns : Int) ≤ m + 1

theorem nextNs_le {s : St K n} {m : Int} {W : Mem} (h : MInv s m W) : (nextNs s : Int) ≤ m + 1 := by
  have h1 := h.kold
  have h2 := h.ns
  have h3 := h.m0
  unfold nextNs
  by_cases hh : s.h = s.hold
  · have := h2 hh
    simp only [hh, ne_eq, not_true_eq_false, if_false]
    split <;> omega
  · simp only [ne_eq, hh, not_false_eq_true, if_true]
    split <;> omega

theorem attemptT_safe {d : K} {s : St K n} {m : Int} {W : Mem} (hi : LInv d s) (h : MInv s m W) :
    Safely W (attemptT s) fun V => Reg (max m s.k) s.nornd V ∧ (s.nornd = false → V rnd 15) := by
  have hk1 := hi.k1
  have hk12 := hi.k12
  have hkk := hi.kk
  have hn1 := hi.nextNs_pos
  have hn := nextNs_le h
  have hkold := h.kold
  have hm0 := h.m0
  unfold attemptT
  have hA := block1T_safe (k := s.k) (kold := s.kold) (ns := nextNs s) h.reg (by omega) (by omega) (by omega) (by omega) hkold hn
  obtain ⟨hA0, a1, a2, a3, a4, a5, a6⟩ := hA
  have hB := predictT_safe (W := after W (block1T s.k s.kold (nextNs s))) (k := s.k) (ns := nextNs s) (m := max m s.k)
    (nornd := s.nornd) (by omega) (by omega) (by omega) (by omega) (m + 2) (by omega) (h.reg.diff.keep _) a3 a6
    (fun hr => after_mono _ _ _ _ (h.reg.rnd hr))
  obtain ⟨hB0, b1, b2⟩ := hB
  have b1' := b1.le (m' := max m s.k + 2) (by omega)
  have hC := estimateT_safe (k := s.k) (m := max m s.k) (by omega) (by omega) (by omega) b1' (a5.keep _) (a6.keep _)
    ((h.reg.gstr.keep _).keep _)
  refine ⟨(ok_append _ _ _).2 ⟨(ok_append _ _ _).2 ⟨hA0, hB0⟩, ?_⟩, ?_⟩
  · rw [after_append]
    exact hC.1
  · rw [after_append, after_append, hC.2]
    exact ⟨⟨a1.keep _, a2.keep _, a3.keep _, a4.keep _, a5.keep _, a6.keep _, (h.reg.g2.keep _).keep _, b1',
      (h.reg.gstr.keep _).keep _, fun hr => after_mono _ _ _ _ (after_mono _ _ _ _ (h.reg.rnd hr))⟩, b2⟩

theorem reg_start {W : Mem} {m : Int} (h0 : 0 ≤ m) (r : Bool) (hp : Upto W psi m) (ha : Upto W alpha m) (hb : Upto W beta m)
    (hv : Upto W v m) (hs : 1 ≤ m → Upto W sig (m + 1)) (hg : 1 ≤ m → Upto W g (m + 1)) (hd : 1 ≤ m → Upto W diff (m + 2))
    (hc : Upto W gstr 13) : Reg m r (after W (initCoefsT ++ initialiseT r)) := by
  have e1 : ∀ a i, after W (initCoefsT ++ initialiseT r) a i ↔ W a i ∨ wr a i ∈ initCoefsT ++ initialiseT r :=
    after_iff _ _
  refine ⟨hp.keep _, ha.keep _, hb.keep _, hv.keep _, ?_, ?_, ?_, ?_, hc.keep _, ?_⟩
  · by_cases h1 : 1 ≤ m
    · exact (hs h1).keep _
    · intro i h2 h3
      have : i = 0 := by omega
      subst this
      rw [e1]
      simp [initCoefsT]
  · by_cases h1 : 1 ≤ m
    · exact (hg h1).keep _
    · intro i h2 h3
      have : i = 0 := by omega
      subst this
      rw [e1]
      simp [initCoefsT]
  · intro i h2 h3
    rw [e1]
    have : i = 0 ∨ i = 1 := by omega
    rcases this with rfl | rfl <;> simp [initCoefsT]
  · by_cases h1 : 1 ≤ m
    · exact (hd h1).keep _
    · intro i h2 h3
      rw [e1]
      have : i = 0 ∨ i = 1 := by omega
      rcases this with rfl | rfl <;> simp [initialiseT]
  · intro hr
    subst hr
    rw [e1]
    simp [initialiseT]

theorem start_ok (W : Mem) (r : Bool) : Ok W (initCoefsT ++ initialiseT r) := by
  cases r
  · simp [initCoefsT, initialiseT, Ok, InBounds]
  · simp [initCoefsT, initialiseT, Ok, InBounds]

theorem initialise_ns {e : Ext K n} (he : e.Ok) {d eps p5eps round : K} (heps : 0 < eps) (s : St K n) (h : 0 < d * s.h) :
    (initialise e eps p5eps round s).h ≠ (initialise e eps p5eps round s).hold := by
  have hi := initialise_inv he (p5eps := p5eps) (round := round) heps s h
  have h0 : (initialise e eps p5eps round s).hold = 0 := rfl
  rw [h0]
  exact dir_ne hi.hdir

theorem start_inv {e : Ext K n} (he : e.Ok) {d eps p5eps round : K} (heps : 0 < eps) (s : St K n) (h : 0 < d * s.h)
    {W : Mem} {m : Int} (h0 : 0 ≤ m) (h12 : m ≤ 12) (hr : Reg m (initialise e eps p5eps round s).nornd W) :
    MInv (initialise e eps p5eps round s) m W where
  m0 := h0
  m12 := h12
  reg := hr
  kold := by
    have : (initialise e eps p5eps round s).kold = 0 := rfl
    rw [this]
    exact_mod_cast h0
  ns := fun hh => absurd hh (initialise_ns he heps s h)

theorem attempt_flags (e : Ext K n) (s : St K n) : (attempt e s).nornd = s.nornd ∧ (attempt e s).ns = nextNs s := by
  unfold attempt predicted block1
  simp only
  split <;> simp

theorem Traced.inv {e : Ext K n} (he : e.Ok) {d : K} {s : St K n} {l : List Ev} (h : Traced e d s l) :
    Ok fresh l ∧ ∃ m, MInv s m (after fresh l) := by
  induction h with
  | first d s eps round h heps =>
    refine ⟨start_ok _ _, 0, start_inv he heps (initCoefs s) h (by omega) (by omega) ?_⟩
    exact reg_start (W := fresh) (m := 0) (by omega) _ (fun i h1 h2 => by omega) (fun i h1 h2 => by omega) (fun i h1 h2 => by omega)
      (fun i h1 h2 => by omega) (fun h => by omega) (fun h => by omega) (fun h => by omega) fun i h1 h2 => rfl
  | restart d d' s0 s l q eps round hs h heps ih =>
    obtain ⟨ho, m, hm⟩ := ih
    have hi := hs.atAttempt.inv he
    have hk1 := hi.k1
    have hk12 := hi.k12
    have m0 := hm.m0
    have m12 := hm.m12
    obtain ⟨hA, hR, hr⟩ := attemptT_safe hi hm
    have hB := acceptT_safe (k := s0.k) (m := max m s0.k) (nornd := s0.nornd) (est := estimated q (attempt e s0))
      (by omega) (by omega) (by omega) hR.diff hR.g hR.gstr hr
    have hK := hR.keep (acceptT s0.k s0.nornd (estimated q (attempt e s0)))
    rw [List.append_assoc _ initCoefsT]
    refine ⟨?_, max m s0.k, start_inv he heps (initCoefs s) h (by omega) (by omega) ?_⟩
    · rw [ok_append, ok_append, ok_append, after_append]
      exact ⟨⟨⟨ho, hA⟩, hB⟩, start_ok _ _⟩
    · rw [after_append (l ++ _ ++ _), after_append (l ++ _), after_append l]
      exact reg_start (by omega) _ hK.psi hK.alpha hK.beta hK.v (fun _ => hK.sig) (fun _ => hK.g) (fun _ => hK.diff) hK.gstr
  | restart' d d' s0 s l eps round hs h heps ih =>
    obtain ⟨ho, m, hm⟩ := ih
    have hi := hs.atAttempt.inv he
    have hk1 := hi.k1
    have hk12 := hi.k12
    have m0 := hm.m0
    have m12 := hm.m12
    obtain ⟨hA, hR, hr⟩ := attemptT_safe hi hm
    have hB := rejectT_safe (k := s0.k) (m := max m s0.k) (by omega) (by omega) (by omega) hR.diff hR.beta hR.psi
    have hK := hR.keep (rejectT s0.k)
    rw [List.append_assoc _ initCoefsT]
    refine ⟨?_, max m s0.k, start_inv he heps (initCoefs s) h (by omega) (by omega) ?_⟩
    · rw [ok_append, ok_append, ok_append, after_append]
      exact ⟨⟨⟨ho, hA⟩, hB⟩, start_ok _ _⟩
    · rw [after_append (l ++ _ ++ _), after_append (l ++ _), after_append l]
      exact reg_start (by omega) _ hK.psi hK.alpha hK.beta hK.v (fun _ => hK.sig) (fun _ => hK.g) (fun _ => hK.diff) hK.gstr
  | retry d s l eps ifail hs heps ih =>
    obtain ⟨ho, m, hm⟩ := ih
    have hi := hs.atAttempt.inv he
    have hk1 := hi.k1
    have hk12 := hi.k12
    have hkk := hi.kk
    have hn := nextNs_le hm
    have m0 := hm.m0
    have m12 := hm.m12
    obtain ⟨hA, hR, hr⟩ := attemptT_safe hi hm
    have hB := rejectT_safe (k := s.k) (m := max m s.k) (by omega) (by omega) (by omega) hR.diff hR.beta hR.psi
    refine ⟨?_, max m s.k, ⟨by omega, by omega, ?_, ?_, ?_⟩⟩
    · rw [ok_append, ok_append, after_append]
      exact ⟨⟨ho, hA⟩, hB⟩
    · rw [after_append, after_append]
      have hf : (reject e (1 / 2 * eps) (estimates e (attempt e s)) ifail s.x (attempt e s)).nornd = s.nornd :=
        (attempt_flags e s).1
      rw [hf]
      exact hR.keep _
    · have : (reject e (1 / 2 * eps) (estimates e (attempt e s)) ifail s.x (attempt e s)).kold = s.kold :=
        (reject_fields e _ _ ifail s.x (attempt e s)).1.trans (attempt_fields e s).2.2.2.1
      have := hm.kold
      omega
    · intro _
      have : (reject e (1 / 2 * eps) (estimates e (attempt e s)) ifail s.x (attempt e s)).ns = nextNs s :=
        (reject_fields e _ _ ifail s.x (attempt e s)).2.2.1.trans (attempt_flags e s).2
      omega
  | next d s l eps h' wt hs hh ih =>
    obtain ⟨ho, m, hm⟩ := ih
    have hi := hs.atAttempt.inv he
    have hk1 := hi.k1
    have hk12 := hi.k12
    have hkk := hi.kk
    have hn := nextNs_le hm
    have m0 := hm.m0
    have m12 := hm.m12
    obtain ⟨hA, hR, hr⟩ := attemptT_safe hi hm
    have hB := acceptT_safe (k := s.k) (m := max m s.k) (nornd := s.nornd)
      (est := estimated (estimates e (attempt e s)) (attempt e s))
      (by omega) (by omega) (by omega) hR.diff hR.g hR.gstr hr
    refine ⟨?_, max m s.k, ⟨by omega, by omega, ?_, ?_, ?_⟩⟩
    · rw [ok_append, ok_append, ok_append, after_append]
      exact ⟨⟨⟨ho, hA⟩, hB⟩, by simp [initCoefsT, Ok, InBounds]⟩
    · rw [after_append, after_append, after_append]
      have hf : (accept e (1 / 2 * eps) (estimates e (attempt e s)) (attempt e s)).nornd = s.nornd :=
        (attempt_flags e s).1
      have hK := (hR.keep (acceptT s.k s.nornd (estimated (estimates e (attempt e s)) (attempt e s)))).keep initCoefsT
      simpa only [initCoefs, hf] using hK
    · have hf : (accept e (1 / 2 * eps) (estimates e (attempt e s)) (attempt e s)).kold = s.k :=
        (accept_fields e _ _ _).1.trans (attempt_fields e s).1
      simp only [initCoefs, hf]
      omega
    · intro _
      have hf : (accept e (1 / 2 * eps) (estimates e (attempt e s)) (attempt e s)).ns = nextNs s :=
        (accept_fields e _ _ _).2.2.1.trans (attempt_flags e s).2
      simp only [initCoefs, hf]
      omega

/-! ### C113 -/

/-- **C113** Through any history of starts, restarts, rejected and accepted steps, from the
construction of the object on, every access of `step` to the coefficient arrays, to the differences
and to the table of constants lies within the array, and reads only elements written before —
whether the attempt made in the end is rejected or accepted. -/
theorem step_memory_safe (e : Ext K n) (he : e.Ok) (d : K) (s : St K n) (l : List Ev) (h : Traced e d s l) (est : Bool) :
    MemorySafe (l ++ attemptT s ++ rejectT s.k) ∧ MemorySafe (l ++ attemptT s ++ acceptT s.k s.nornd est) := by
  obtain ⟨ho, m, hm⟩ := h.inv he
  have hi := h.atAttempt.inv he
  have hk1 := hi.k1
  have hk12 := hi.k12
  obtain ⟨hA, hR, hr⟩ := attemptT_safe hi hm
  have hB := rejectT_safe (k := s.k) (m := max m s.k) (by omega) (by omega) (by omega) hR.diff hR.beta hR.psi
  have hC := acceptT_safe (k := s.k) (m := max m s.k) (nornd := s.nornd) (est := est)
      (by omega) (by omega) (by omega) hR.diff hR.g hR.gstr hr
  simp only [memorySafe_iff, ok_append, after_append]
  exact ⟨⟨⟨ho, hA⟩, hB⟩, ⟨ho, hA⟩, hC⟩

/-- **C113** Interpolation after an accepted step: its local arrays are written before they are
read, and all accesses lie within the arrays. -/
theorem intrp_memory_safe (e : Ext K n) (he : e.Ok) (d : K) (s : St K n) (l : List Ev) (h : Traced e d s l) (est : Bool) :
    MemorySafe (l ++ attemptT s ++ acceptT s.k s.nornd est ++ intrpT s.k) := by
  obtain ⟨ho, m, hm⟩ := h.inv he
  have hi := h.atAttempt.inv he
  have hk1 := hi.k1
  have hk12 := hi.k12
  obtain ⟨hA, hR, hr⟩ := attemptT_safe hi hm
  have hC := acceptT_safe (k := s.k) (m := max m s.k) (nornd := s.nornd) (est := est)
      (by omega) (by omega) (by omega) hR.diff hR.g hR.gstr hr
  have hK := hR.keep (acceptT s.k s.nornd est)
  have hD := intrpT_safe (kold := s.k) (m := max m s.k) (by omega) (by omega) (by omega) hK.diff hK.psi
  simp only [memorySafe_iff, ok_append, after_append]
  exact ⟨⟨⟨ho, hA⟩, hC⟩, hD⟩

/-- The order with which `intrp` is called after the step. -/
theorem intrp_order (e : Ext K n) (eps : K) (s : St K n) :
    (accept e (1 / 2 * eps) (estimates e (attempt e s)) (attempt e s)).kold = s.k :=
  (accept_fields e _ _ _).1.trans (attempt_fields e s).1

/-- The storage an array lives in: `Arrays13`, the columns of `Phi`, the local pool of `intrp`, the
table of constants. -/
def storage : Arr → Nat
  | .psi | .alpha | .beta | .v | .w | .sig | .g => 0
  | .diff | .rnd => 1
  | .ig | .iw | .irho => 2
  | .gstr => 3

/-- How many elements (columns) the storage has (sgode.hpp:15, 17; sgode_intrp.cpp:10; sgode_step.cpp:13-15). -/
def storageSize (b : Nat) : Int := if b = 0 then 13 * 7 else if b = 1 then 16 else if b = 2 then 3 * 13 else 13

/-- **C113** Elements in bounds lie inside their storage, and two different ones never share a
place: no array runs into another, and the differences never reach the columns of the round-off. -/
theorem places_distinct (a b : Arr) (i j : Int) (ha : InBounds a i) (hb : InBounds b j) :
    (0 ≤ address a i ∧ address a i < storageSize (storage a)) ∧
      (storage a = storage b → address a i = address b j → a = b ∧ i = j) := by
  constructor
  · cases a <;> simp only [InBounds, address, storage, storageSize] at * <;> norm_num <;> omega
  · cases a <;> cases b <;> simp only [InBounds, address, storage] at * <;> intro h1 h2 <;>
      simp at h1 ⊢ <;> omega

/-- The histories of the theorems: a first attempt, accepted, and the next one, rejected. -/
example (h' : ℚ) (hh : 0 < 1 * h') : ∃ s l, Traced ext 1 s l ∧ 8 ≤ l.length :=
  ⟨_, _, .retry 1 _ _ (1 / 10) 1 (.next 1 _ _ (1 / 10) h' (fun _ => 1)
    (.first 1 st0 (1 / 10) 0 (by decide +kernel) (by decide +kernel)) hh) (by norm_num), by
    simp [initCoefsT, initialiseT]
    omega⟩

/-- Accesses of block 1 for order 2 at the first step of a size, and of the interpolation after a step
of order 1. -/
example : block1T 2 1 1 = [wr beta 0, wr alpha 0, wr sig 1, rd psi 0, wr psi 0, rd beta 0, rd psi 0, wr beta 1,
    wr alpha 1, rd alpha 1, rd sig 1, wr sig 2, wr psi 1, wr v 0, wr v 1, rd v 0, wr w 0, rd v 1, wr w 1,
    rd alpha 1, rd w 0, rd w 1, wr w 0, rd w 0, wr g 2] := by decide +kernel

/-- What the theorems exclude: in an object that has not made a step, block 1 of order 2 would read
`psi(0)` before it has a value. -/
example : ¬ MemorySafe (block1T 2 1 1) := by
  rw [memorySafe_iff]
  have h : block1T 2 1 1 = [wr beta 0, wr alpha 0, wr sig 1] ++ rd psi 0 :: (block1T 2 1 1).drop 4 := by decide +kernel
  rw [h, ok_append]
  intro h
  simp [Ok, after, fresh] at h

end Verif.Sgode
