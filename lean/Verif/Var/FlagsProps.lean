import Verif.Var.FlagsModel
import Mathlib.Tactic.NormNum
import Mathlib.Tactic.Linarith
import Mathlib.Tactic.FinCases
import Mathlib.Tactic.IntervalCases

/-
C137: event flags and packed flags of measurements.
-/
namespace Verif.Var

/-! ### Event flags -/

theorem isSet_eq (f : BitVec 64) (e : Event) : isSet f e = f.getLsbD e.val := by
  unfold isSet
  by_cases h : f.getLsbD e.val
  · rw [h, bne_iff_ne]
    intro h0
    have := congrArg (fun v : BitVec 64 => v.getLsbD 0) h0
    simp [h] at this
  · simp only [Bool.not_eq_true] at h
    rw [h, bne_eq_false_iff_eq]
    apply BitVec.eq_of_getLsbD_eq
    intro i hi
    by_cases h0 : i = 0
    · subst h0; simp [h]
    · simp [h0]

theorem bit_get (e d : Event) : (bit e).getLsbD d.val = decide (d = e) := by
  revert e d
  decide +kernel

/-- **C137** Setting an event sets this one and changes no other. -/
theorem set_event (f : BitVec 64) (e d : Event) : isSet (setEvent f e) d = (isSet f d || decide (d = e)) := by
  simp only [isSet_eq, setEvent, BitVec.getLsbD_or, bit_get]

/-- **C137** Clearing an event clears this one and changes no other. -/
theorem clear_event (f : BitVec 64) (e d : Event) : isSet (clearEvent f e) d = (isSet f d && !decide (d = e)) := by
  simp only [isSet_eq, clearEvent, BitVec.getLsbD_and, BitVec.getLsbD_not, bit_get]
  have : d.val < 64 := by omega
  simp [this]

/-- **C137** Resetting clears all. -/
theorem reset_all (f : BitVec 64) (d : Event) : isSet (resetFlag f) d = false ∧ isClean (resetFlag f) = true := by
  refine ⟨?_, rfl⟩
  rw [isSet_eq]
  simp [resetFlag]

theorem foldl_orWrapper (rest : List Event) (w : BitVec 64) (d : Event) :
    isSet (rest.foldl orWrapper w) d = (isSet w d || decide (d ∈ rest)) := by
  induction rest generalizing w with
  | nil => simp
  | cons e rest ih =>
    rw [List.foldl_cons, ih, show orWrapper w e = setEvent w e from rfl, set_event, Bool.or_assoc]
    simp

/-- **C137** A combination holds the events it is made of. -/
theorem combination_spec (e1 e2 : Event) (rest : List Event) (d : Event) :
    isSet (combination e1 e2 rest) d = decide (d ∈ e1 :: e2 :: rest) := by
  unfold combination
  rw [foldl_orWrapper]
  have : orEvents e1 e2 = setEvent (setEvent 0#64 e1) e2 := rfl
  rw [this, set_event, set_event, (show isSet 0#64 d = false by rw [isSet_eq]; simp)]
  simp [Bool.or_assoc]

/-- A flag made by events only: `is_clean` if no event is set. -/
theorem isClean_iff (es : List Event) :
    isClean (es.foldl setEvent 0#64) = true ↔ ∀ d, isSet (es.foldl setEvent 0#64) d = false := by
  have h : ∀ (es : List Event) (w : BitVec 64) d, isSet (es.foldl setEvent w) d = (isSet w d || decide (d ∈ es)) :=
    fun es w d => foldl_orWrapper es w d
  constructor
  · intro hc d
    rw [show es.foldl setEvent 0#64 = 0#64 from eq_of_beq hc, isSet_eq]
    simp
  · intro hd
    cases es with
    | nil => rfl
    | cons e es =>
      have := hd e
      rw [h] at this
      simp at this

/-- **C137** Setting a combination: exactly its events are set afterwards. -/
theorem set_combination_partial (f : BitVec 64) (e1 e2 : Event) (rest : List Event) (d : Event) :
    isSet (setWrapper f (combination e1 e2 rest)) d = decide (d ∈ e1 :: e2 :: rest) :=
  combination_spec e1 e2 rest d

/-- **C137** Setting a combination of events takes back every other event that was set, although setting one event
takes back none. -/
theorem set_combination_counterexample (f : BitVec 64) (e1 e2 : Event) (rest : List Event) (d : Event)
    (hd : isSet f d = true) (hn : d ∉ e1 :: e2 :: rest) :
    isSet (setWrapper f (combination e1 e2 rest)) d = false ∧ ∀ e, isSet (setEvent f e) d = true := by
  refine ⟨by rw [set_combination_partial]; simpa using hn, fun e => ?_⟩
  rw [set_event, hd, Bool.true_or]

/-! ### Packed flags -/

theorem land_255 (n : Nat) : n &&& 0xFF = n % 256 := Nat.and_two_pow_sub_one_eq_mod n 8

theorem packed (a b c : Nat) (hb : b < 256) (hc : c < 256) :
    (0 <<< 24) ||| (a <<< 16) ||| (b <<< 8) ||| c = a * 65536 + b * 256 + c := by
  rw [Nat.zero_shiftLeft, Nat.zero_or, ← Nat.shiftLeft_add_eq_or_of_lt (show b <<< 8 < 2 ^ 16 by rw [Nat.shiftLeft_eq]; omega) a]
  have e : a <<< 16 + b <<< 8 = (a * 256 + b) <<< 8 := by
    simp only [Nat.shiftLeft_eq]; omega
  rw [e, ← Nat.shiftLeft_add_eq_or_of_lt (show c < 2 ^ 8 by omega), Nat.shiftLeft_eq]
  omega

theorem getters (f : Nat) : getFlag1 f = f % 256 ∧ getFlag2 f = f / 256 % 256 ∧ getMissing f = f / 65536 % 256 := by
  refine ⟨land_255 f, ?_, ?_⟩
  · unfold getFlag2; rw [land_255, Nat.shiftRight_eq_div_pow]
  · unfold getMissing; rw [land_255, Nat.shiftRight_eq_div_pow]

/-- **C137** Each of the three numbers in the packed flag can be set to any of 0 to 255 and read again, and setting it
leaves the other two as they are, whatever the flag held before. -/
theorem packed_flags (f v : Nat) (hv : v < 256) :
    (getFlag1 (setFlag1 f v) = v ∧ getFlag2 (setFlag1 f v) = getFlag2 f ∧ getMissing (setFlag1 f v) = getMissing f) ∧
    (getFlag1 (setFlag2 f v) = getFlag1 f ∧ getFlag2 (setFlag2 f v) = v ∧ getMissing (setFlag2 f v) = getMissing f) ∧
    (getFlag1 (setMissing f v) = getFlag1 f ∧ getFlag2 (setMissing f v) = getFlag2 f ∧ getMissing (setMissing f v) = v) := by
  obtain ⟨h1, h2, h3⟩ := getters f
  have b1 : getFlag1 f < 256 := by rw [h1]; omega
  have b2 : getFlag2 f < 256 := by rw [h2]; omega
  have b3 : getMissing f < 256 := by rw [h3]; omega
  have key : ∀ a b c : Nat, a < 256 → b < 256 → c < 256 → getFlag1 (a * 65536 + b * 256 + c) = c ∧
      getFlag2 (a * 65536 + b * 256 + c) = b ∧ getMissing (a * 65536 + b * 256 + c) = a := by
    intro a b c ha hb hc
    obtain ⟨k1, k2, k3⟩ := getters (a * 65536 + b * 256 + c)
    rw [k1, k2, k3]
    omega
  refine ⟨?_, ?_, ?_⟩
  · unfold setFlag1
    rw [packed _ _ _ b2 hv]
    exact key _ _ _ b3 b2 hv
  · unfold setFlag2
    rw [packed _ _ _ hv b1]
    exact key _ _ _ b3 hv b1
  · unfold setMissing
    rw [packed _ _ _ b2 b1]
    exact key _ _ _ hv b2 b1

/-! ### Three versions of a measurement -/

/-- The result that is wanted. -/
def wanted (m : Meas) : ℚ :=
  if m.missing then -99999 / 100
  else if m.f1 > 16 then m.val + 1000 else if m.f2 < 16 then m.val - 1 / 1000 else m.val / 1000

theorem flag3_parts (m : Meas) (h1 : m.f1 < 256) (h2 : m.f2 < 256) :
    getFlag1 (flag3 m) = m.f1 ∧ getFlag2 (flag3 m) = m.f2 ∧ getMissing (flag3 m) = if m.missing then 1 else 0 := by
  unfold flag3
  obtain ⟨_, ⟨a1, a2, a3⟩, _⟩ := packed_flags (setFlag1 (if m.missing then setMissing 0 1 else 0) m.f1) m.f2 h2
  obtain ⟨⟨b1, b2, b3⟩, _, _⟩ := packed_flags (if m.missing then setMissing 0 1 else 0) m.f1 h1
  refine ⟨by rw [a1, b1], a2, ?_⟩
  rw [a3, b3]
  cases m.missing <;> decide

/-- **C137** The version with packed flags gives the result that is wanted for all measurements. -/
theorem version3_spec (m : Meas) (h1 : m.f1 < 256) (h2 : m.f2 < 256) : version3 m = wanted m := by
  obtain ⟨a1, a2, a3⟩ := flag3_parts m h1 h2
  unfold version3 wanted byFlags
  rw [a1, a2, a3]
  cases m.missing
  · simp only [Bool.false_eq_true, if_false, ne_eq, not_true_eq_false]
    by_cases g1 : m.f1 > 16
    · rw [if_pos g1, if_pos (by exact_mod_cast g1)]
    · rw [if_neg g1, if_neg (by exact_mod_cast g1)]
      by_cases g2 : m.f2 < 16
      · rw [if_pos g2, if_pos (by exact_mod_cast g2)]
      · rw [if_neg g2, if_neg (by exact_mod_cast g2)]
  · simp

theorem toInt8_small (n : Nat) (h : n < 128) : toInt8 n = n := by
  unfold toInt8
  rw [Int.bmod_eq_of_le (by omega) (by omega)]

theorem toInt8_big (n : Nat) (h : 128 ≤ n) (h' : n < 256) : toInt8 n = n - 256 := by
  unfold toInt8
  rw [Int.bmod_def]
  omega

/-- **C137** The version with separate signed flags gives it exactly for missing measurements, for flags below 128, and
for a first flag of 17 to 127. -/
theorem version1_iff (m : Meas) (h1 : m.f1 < 256) (h2 : m.f2 < 256) (h0 : 0 < m.val) (hv : m.val ≠ 1 / 999) :
    version1 m = wanted m ↔ m.missing = true ∨ (m.f1 < 128 ∧ (m.f2 < 128 ∨ 16 < m.f1)) := by
  obtain ⟨val, missing, f1, f2⟩ := m
  simp only at h1 h2 h0 hv ⊢
  unfold version1 wanted byFlags
  cases missing
  · simp only [Bool.false_eq_true, if_false, ne_eq, not_true_eq_false, false_or]
    by_cases g1 : f1 < 128
    · rw [toInt8_small f1 g1]
      by_cases g2 : f1 > 16
      · rw [if_pos (by exact_mod_cast g2), if_pos g2]
        simp only [true_iff]
        exact ⟨g1, .inr g2⟩
      · rw [if_neg (by exact_mod_cast g2), if_neg g2]
        by_cases g3 : f2 < 128
        · rw [toInt8_small f2 g3]
          have : ((f2 : Int) < 16) ↔ f2 < 16 := by omega
          simp only [this, true_iff]
          exact ⟨g1, .inl g3⟩
        · rw [toInt8_big f2 (by omega) h2, if_pos (by omega), if_neg (by omega)]
          refine ⟨fun h => absurd (by linarith) hv, fun h => ?_⟩
          omega
    · rw [toInt8_big f1 (by omega) h1, if_neg (show ¬ ((f1 : Int) - 256 > 16) by omega), if_pos (show f1 > 16 by omega)]
      refine ⟨fun h => ?_, fun h => absurd h.1 g1⟩
      split at h <;> linarith
  · simp

/-- **C137** A first flag of 128 or more is read as negative: the version with separate flags takes a good measurement
with a flag of 200 for one with a flag not above 16. -/
theorem signed_flag_counterexample :
    version1 ⟨5000, false, 200, 100⟩ = 5 ∧ wanted ⟨5000, false, 200, 100⟩ = 6000 := by
  decide +kernel

/-- **C137** The version with a special value gives the same as the one with a mark, exactly for measurements that are
missing or have another value. -/
theorem version2_iff (m : Meas) (h : m.val ≠ -999.99 - 1000 ∧ m.val ≠ -999.99 + 1 / 1000 ∧ m.val ≠ -999990) :
    version2 m = version1 m ↔ m.missing = true ∨ m.val ≠ MISSING := by
  obtain ⟨val, missing, f1, f2⟩ := m
  simp only at h ⊢
  unfold version2 version1
  cases missing
  · simp only [Bool.false_eq_true, if_false, ne_eq, not_true_eq_false, false_or]
    by_cases hm : val = MISSING
    · rw [if_pos hm]
      refine ⟨fun he => ?_, fun hn => absurd hm hn⟩
      exfalso
      unfold byFlags at he
      obtain ⟨k1, k2, k3⟩ := h
      split at he
      · apply k1; linarith
      · split at he
        · apply k2; linarith
        · apply k3; linarith
    · rw [if_neg hm]
      exact ⟨fun _ => hm, fun _ => rfl⟩
  · simp

/-- **C137** A measurement with the value `numeric_limits<double>::min()`, which is the least positive number and not
the least number, and which the random numbers of the program include, is taken for missing. -/
theorem special_value_counterexample :
    version2 ⟨MISSING, false, 100, 100⟩ = -99999 / 100 ∧ wanted ⟨MISSING, false, 100, 100⟩ = MISSING + 1000 ∧ 0 < MISSING := by
  refine ⟨by simp [version2], by simp [wanted], ?_⟩
  exact div_pos one_pos (pow_pos (by norm_num) _)

/-! ### Marks -/

theorem marks_spec (n c : Nat) : (marks n c).2 = c + n ∧ (marks n c).1 = (List.range' (c + 1) n).map fun k => decide (k < 33) := by
  induction n generalizing c with
  | zero => simp [marks]
  | succ n ih =>
    obtain ⟨h1, h2⟩ := ih (c + 1)
    simp only [marks]
    refine ⟨by rw [h1]; omega, ?_⟩
    rw [h2, List.range'_succ, List.map_cons]
    congr 1
    rw [Bool.eq_iff_iff, beq_iff_eq, decide_eq_true_eq, Nat.div_eq_zero_iff]
    omega

theorem marks_count (n c : Nat) : (marks n c).1.count true = min n (32 - c) := by
  rw [(marks_spec n c).2]
  induction n generalizing c with
  | zero => simp
  | succ n ih =>
    rw [List.range'_succ, List.map_cons, List.count_cons, ih (c + 1)]
    by_cases h : c + 1 < 33
    · rw [decide_eq_true h]; simp only [beq_self_eq_true, if_true]; omega
    · rw [decide_eq_false h]
      simp only [Bool.false_beq, Bool.not_true, Bool.false_eq_true, if_false]
      omega

/-- **C137** In the first pass every version has the same measurements missing: the first 32. -/
theorem first_round_partial (n : Nat) : ∃ l, (round n 0).1 = (l, l, l) ∧ l.count true = min n 32 :=
  ⟨(marks n 0).1, rfl, marks_count n 0⟩

/-- **C137** In every later pass of 32 or more calls, the first version has no measurement missing and the other two
have 32, as the counter is not put back at the start of a pass: the times printed are for different work. -/
theorem later_rounds_counterexample (n k : Nat) (hn : 32 ≤ n) (r : List Bool × List Bool × List Bool)
    (hr : (rounds n k 0)[i + 1]? = some r) : r.1.count true = 0 ∧ r.2.1.count true = 32 ∧ r.2.2.count true = 32 := by
  have key : ∀ k c, 32 ≤ c → ∀ r ∈ rounds n k c, r.1.count true = 0 ∧ r.2.1.count true = 32 ∧ r.2.2.count true = 32 := by
    intro k
    induction k with
    | zero => intro c _ r hr; simp [rounds] at hr
    | succ k ih =>
      intro c hc r hr
      simp only [rounds, round, List.mem_cons] at hr
      rcases hr with hr | hr
      · subst hr
        simp only [marks_count]
        omega
      · refine ih _ ?_ r hr
        rw [(marks_spec n 0).1]; omega
  cases k with
  | zero => simp [rounds] at hr
  | succ k =>
    simp only [rounds, round, List.getElem?_cons_succ] at hr
    refine key k _ ?_ r (List.mem_of_getElem? hr)
    rw [(marks_spec n 0).1]; omega

/-! ### Examples -/

/-- The combination of the program (var/flags.cc:91). -/
example : combination 0 1 [2, 11, 1] = 0b100000000111#64 := by decide +kernel

/-- Events 0 and 2, then 5 and 6 combined: events 0 and 2 are lost. -/
example : let f := setEvent (setEvent 0#64 0) 2
    isSet f 0 = true ∧ (0 : Event) ∉ [5, 6] ∧ isSet (setWrapper f (combination 5 6 [])) 0 = false := by decide +kernel

/-- The numbers of the program (var/compound_measurement.cc:137-144). -/
example : let f := setMissing (setFlag2 (setFlag1 0 9) 23) 1
    (getFlag1 f, getFlag2 f, getMissing f) = (9, 23, 1) := by decide +kernel

example : version3 ⟨5000, false, 200, 100⟩ = 6000 ∧ version2 ⟨5000, true, 200, 100⟩ = -99999 / 100 := by decide +kernel

example : (rounds 40 2 0)[1]?.map (fun r => (r.1.count true, r.2.1.count true)) = some (0, 32) := by decide +kernel

end Verif.Var
