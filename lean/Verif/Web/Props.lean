import Verif.Web.Model

/-
C69: downloads.
-/
namespace Verif.Web

/-- The complete body sent by the server. -/
def body (e : Env) : List UInt8 := (e.chunks.map Prod.fst).flatten

/-- Everything the server sent was accepted, and the server ended without an error. -/
def Succeeds (e : Env) : Prop := (∀ c ∈ e.chunks, c.1.length ≤ c.2) ∧ e.code = 0

/-- Without `force`, an existing file is left alone: nothing is transferred, nothing changes. -/
theorem existing_untouched (e : Env) (fs : Fs) (path : String) (content : List UInt8)
    (h : fs path = .file content) : httpGet e fs path false = (-1, fs, false) := by
  simp [httpGet, fileExists, h]

/-- A negative value means exactly this refusal. -/
theorem refused_iff (e : Env) (fs : Fs) (path : String) (force : Bool) :
    (httpGet e fs path force).1 < 0 ↔ force = false ∧ ∃ c, fs path = .file c := by
  unfold httpGet
  constructor
  · intro h
    by_cases hc : (!force && fileExists fs path) = true
    · simp only [Bool.and_eq_true, Bool.not_eq_true'] at hc
      refine ⟨hc.1, ?_⟩
      have h2 := hc.2
      unfold fileExists at h2
      cases hn : fs path with
      | absent => simp [hn] at h2
      | file c => exact ⟨c, rfl⟩
      | dir b => simp [hn] at h2
    · rw [if_neg hc] at h
      dsimp only at h
      split at h <;> omega
  · rintro ⟨rfl, c, hc⟩
    simp [fileExists, hc]

theorem removeFile_other (e : Env) (fs : Fs) (path q : String) (hq : q ≠ path) :
    removeFile e fs path q = fs q := by
  unfold removeFile
  cases hn : fs path with
  | absent => rfl
  | file c => cases e.removes <;> simp [Fs.put, hq]
  | dir b => cases b <;> cases e.removes <;> simp [Fs.put, hq]

/-- No other file is touched. -/
theorem others_untouched (e : Env) (fs : Fs) (path q : String) (force : Bool) (hq : q ≠ path) :
    (httpGet e fs path force).2.1 q = fs q := by
  unfold httpGet
  split
  · rfl
  · dsimp only
    have h : (fetch e fs path).2 q = fs q := by
      unfold fetch
      split
      · simp [Fs.put, hq]
      · rfl
    split
    · rw [removeFile_other _ _ _ _ hq, h]
    · exact h

/-- What a complete or broken transfer delivers. -/
theorem perform_spec (cs : List (List UInt8 × Nat)) (code : Nat) :
    ((perform cs code).2 = 0 ↔ (∀ c ∈ cs, c.1.length ≤ c.2) ∧ code = 0) ∧
      ((perform cs code).2 = 0 → (perform cs code).1 = (cs.map Prod.fst).flatten) := by
  induction cs with
  | nil => simp [perform]
  | cons c cs ih =>
    obtain ⟨c, n⟩ := c
    unfold perform
    by_cases h : n < c.length
    · rw [if_pos h]
      refine ⟨⟨fun h' => absurd (show (23 : Nat) = 0 from h') (by decide), fun h' => ?_⟩,
        fun h' => absurd (show (23 : Nat) = 0 from h') (by decide)⟩
      have := h'.1 (c, n) (List.mem_cons_self)
      dsimp only at this
      omega
    · rw [if_neg h]
      dsimp only
      constructor
      · rw [ih.1]
        constructor
        · rintro ⟨h1, h2⟩
          refine ⟨fun d hd => ?_, h2⟩
          rcases List.mem_cons.mp hd with rfl | hd
          · exact Nat.le_of_not_lt h
          · exact h1 d hd
        · rintro ⟨h1, h2⟩
          exact ⟨fun d hd => h1 d (List.mem_cons_of_mem _ hd), h2⟩
      · intro h'
        rw [ih.2 h']
        rfl

/-- **C69, status.**  0 is returned exactly if the file may be written, could be opened, and the whole
body arrived and was accepted. -/
theorem zero_iff (e : Env) (fs : Fs) (path : String) (force : Bool) :
    (httpGet e fs path force).1 = 0 ↔
      (force = true ∨ ∀ c, fs path ≠ .file c) ∧ (∀ b, fs path ≠ .dir b) ∧ e.opens = true ∧
        Succeeds e := by
  have hp := (perform_spec e.chunks e.code).1
  unfold httpGet
  by_cases hc : (!force && fileExists fs path) = true
  · rw [if_pos hc]
    simp only [Bool.and_eq_true, Bool.not_eq_true'] at hc
    refine ⟨fun h => absurd (show (-1 : Int) = 0 from h) (by decide), ?_⟩
    rintro ⟨h, -⟩
    rcases h with h | h
    · rw [hc.1] at h; exact absurd h (by decide)
    · have h2 := hc.2
      unfold fileExists at h2
      cases hn : fs path with
      | absent => simp [hn] at h2
      | file c => exact absurd hn (h c)
      | dir b => simp [hn] at h2
  · rw [if_neg hc]
    have hf : force = true ∨ ∀ c, fs path ≠ .file c := by
      cases force with
      | true => exact Or.inl rfl
      | false =>
        right
        intro c hn
        apply hc
        simp [fileExists, hn]
    dsimp only
    have e1 : ((if (fetch e fs path).1 < 0 then (fetch e fs path).1 * (-1) else (fetch e fs path).1) = 0)
        ↔ (fetch e fs path).1 = 0 := by
      split <;> omega
    rw [e1]
    unfold fetch canOpen
    cases hn : fs path with
    | dir b => simp
    | absent =>
      cases ho : e.opens with
      | false => simp
      | true =>
        simp only [if_true]
        rw [show (((perform e.chunks e.code).2 : Int) = 0) ↔ (perform e.chunks e.code).2 = 0 by omega, hp]
        simp [Succeeds]
    | file c =>
      cases ho : e.opens with
      | false => simp
      | true =>
        simp only [if_true]
        rw [show (((perform e.chunks e.code).2 : Int) = 0) ↔ (perform e.chunks e.code).2 = 0 by omega, hp]
        constructor
        · intro h
          refine ⟨hf.imp id (fun h c => hn ▸ h c), fun b hb => by simp at hb, trivial, h⟩
        · exact fun h => h.2.2.2

/-- **C69, success.**  If 0 is returned and the stream lost nothing on closing, the file holds the
complete body. -/
theorem success_complete_partial (e : Env) (fs : Fs) (path : String) (force : Bool)
    (h : (httpGet e fs path force).1 = 0) (hk : (body e).length ≤ e.kept) :
    (httpGet e fs path force).2.1 path = .file (body e) := by
  obtain ⟨hf, hd, ho, hs⟩ := (zero_iff e fs path force).mp h
  have hp := perform_spec e.chunks e.code
  have h0 : (perform e.chunks e.code).2 = 0 := hp.1.mpr hs
  have hb : (perform e.chunks e.code).1 = body e := hp.2 h0
  have hc : ¬ ((!force && fileExists fs path) = true) := by
    intro hc
    simp only [Bool.and_eq_true, Bool.not_eq_true'] at hc
    rcases hf with hf | hf
    · rw [hc.1] at hf; exact absurd hf (by decide)
    · have h2 := hc.2
      unfold fileExists at h2
      cases hn : fs path with
      | absent => simp [hn] at h2
      | file c => exact hf c hn
      | dir b => simp [hn] at h2
  have ho' : canOpen e fs path = true := by
    unfold canOpen
    cases hn : fs path with
    | dir b => exact absurd hn (hd b)
    | absent => exact ho
    | file c => exact ho
  unfold httpGet
  rw [if_neg hc]
  unfold fetch
  rw [if_pos ho']
  dsimp only
  rw [h0, hb, List.take_of_length_le hk]
  simp [Fs.put]

/-- **C69, failure.**  If a transfer was attempted or failed to start (a positive value is returned) and
`remove` works, no file is left behind. -/
theorem failure_absent_partial (e : Env) (fs : Fs) (path : String) (force : Bool)
    (h : (httpGet e fs path force).1 > 0) (hr : e.removes = true) :
    ∀ c, (httpGet e fs path force).2.1 path ≠ .file c := by
  intro c
  unfold httpGet at h ⊢
  split at h
  · exact absurd (show (-1 : Int) > 0 from h) (by decide)
  · rename_i hc
    rw [if_neg hc]
    dsimp only at h ⊢
    have hne : (fetch e fs path).1 ≠ 0 := by
      intro h0
      rw [h0] at h
      exact absurd h (by decide)
    rw [if_pos hne]
    unfold removeFile
    generalize (fetch e fs path).2 = g
    cases hn : g path with
    | absent => simp [hn]
    | file c' => simp [hr, Fs.put]
    | dir b => cases b <;> simp [hr, Fs.put, hn]

/-- The value is -1, 0 or positive. -/
theorem value_range (e : Env) (fs : Fs) (path : String) (force : Bool) :
    (httpGet e fs path force).1 = -1 ∨ 0 ≤ (httpGet e fs path force).1 := by
  unfold httpGet
  split
  · exact Or.inl rfl
  · right
    dsimp only
    split <;> omega

/-- A server that sends two chunks and then breaks off. -/
def broken : Env := ⟨true, [([1, 2], 2), ([3], 1)], 18, 100, true⟩

example : (httpGet broken (fun _ => .absent) "f" false).1 = 18 ∧
    (httpGet broken (fun _ => .absent) "f" false).2.1 "f" = .absent := by decide

/-- A server that sends everything. -/
def complete : Env := ⟨true, [([1, 2], 2), ([3], 1)], 0, 100, true⟩

example : (httpGet complete (fun _ => .absent) "f" false).1 = 0 ∧
    (httpGet complete (fun _ => .absent) "f" false).2.1 "f" = .file [1, 2, 3] := by decide

/-- **C69 is false if the last buffered bytes cannot be written.**  `fclose` reports it, the result is
ignored: the value is 0 and the file is incomplete. -/
theorem lost_tail_counterexample :
    (httpGet { complete with kept := 1 } (fun _ => .absent) "f" false).1 = 0 ∧
      (httpGet { complete with kept := 1 } (fun _ => .absent) "f" false).2.1 "f" = .file [1] := by
  decide

/-- **C69 is false if the partial file cannot be removed** (the result of `remove` is ignored too). -/
theorem unremoved_counterexample :
    (httpGet { broken with removes := false } (fun _ => .absent) "f" false).2.1 "f" =
      .file [1, 2, 3] := by decide

/-- **A directory of that name is deleted, without `force`**, if it is empty: it does not count as an
existing file, cannot be opened, and is then removed. -/
theorem directory_counterexample :
    (httpGet complete (fun _ => .dir true) "f" false).1 = 1 ∧
      (httpGet complete (fun _ => .dir true) "f" false).2.1 "f" = .absent := by decide

/-- With `force`, a previous file that cannot be opened for writing is deleted although nothing was
transferred. -/
theorem unopened_counterexample :
    (httpGet { complete with opens := false } (fun _ => .file [9]) "f" true).1 = 1 ∧
      (httpGet { complete with opens := false } (fun _ => .file [9]) "f" true).2.1 "f" = .absent := by
  decide

end Verif.Web
