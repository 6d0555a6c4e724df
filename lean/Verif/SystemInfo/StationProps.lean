import Verif.SystemInfo.Props
import Verif.Text.Lemmas

/-
C74: a STATION REFERENCE line decodes to its columns.
-/
namespace Verif.SystemInfo
open Verif.Text

/-- `t` is `s` without trailing blanks, except that the first character always stays. -/
structure TrimmedTail (s t : List Char) : Prop where
  split : ∃ k, s = t ++ List.replicate k ' '
  first : s ≠ [] → t ≠ []
  last : 2 ≤ t.length → t.getLast? ≠ some ' '

theorem dropWhile_replicate (s : List Char) :
    ∃ k, s = List.replicate k ' ' ++ s.dropWhile (· == ' ') := by
  induction s with
  | nil => exact ⟨0, rfl⟩
  | cons c s ih =>
    rw [List.dropWhile_cons]
    by_cases h : c = ' '
    · subst h
      obtain ⟨k, hk⟩ := ih
      refine ⟨k + 1, ?_⟩
      simp only [beq_self_eq_true, if_true, List.replicate_succ, List.cons_append]
      rw [← hk]
    · exact ⟨0, by simp [h]⟩

theorem trimKeepFirst_spec (s : List Char) : TrimmedTail s (trimKeepFirst s) := by
  cases s with
  | nil => exact ⟨⟨0, rfl⟩, fun h => absurd rfl h, by simp [trimKeepFirst]⟩
  | cons c t =>
    refine ⟨?_, by simp [trimKeepFirst], ?_⟩
    · obtain ⟨k, hk⟩ := dropWhile_replicate t.reverse
      refine ⟨k, ?_⟩
      have := congrArg List.reverse hk
      rw [List.reverse_reverse, List.reverse_append, List.reverse_replicate] at this
      simp only [trimKeepFirst, List.cons_append]
      rw [← this]
    · intro hl
      simp only [trimKeepFirst, List.length_cons, List.length_reverse] at hl ⊢
      cases hd : t.reverse.dropWhile (· == ' ') with
      | nil => rw [hd] at hl; simp at hl
      | cons d r =>
        have hne : (d == ' ') = false := by
          have := List.head?_dropWhile_not (fun c : Char => c == ' ') t.reverse
          rw [hd] at this
          simpa using this
        rw [List.reverse_cons, ← List.cons_append, List.getLast?_append]
        simp at hne ⊢
        exact hne

theorem reads_unique {s : List Char} {v w : Int} (h : Reads s v) (h' : Reads s w) : v = w := by
  obtain ⟨r, h1, -, h2⟩ := (reads_iff s v).1 h
  obtain ⟨r', h1', -, h2'⟩ := (reads_iff s w).1 h'
  rw [h1] at h1'
  simp at h1'
  rw [← h2, ← h2', h1']

/-- What a STATION REFERENCE line must decode to. -/
structure StationLine (line : List Char) (s : Beacon) : Prop where
  long : 60 ≤ line.length
  code : s.internalCode = (line.drop 0).take 3
  id : s.stationId = (line.drop 5).take 4
  name : TrimmedTail ((line.drop 10).take 30) s.name
  domes : TrimmedTail ((line.drop 40).take 10) s.domes
  /-- stored in 8 bits -/
  type : ∃ v, Reads (line.drop 50) v ∧ (-128 ≤ v → v < 128 → s.type = v) ∧ s.type = Int.bmod v (2 ^ 8)
  /-- stored in 32 bits -/
  shift : ∃ v, Reads (line.drop 52) v ∧ (-2 ^ 31 ≤ v → v < 2 ^ 31 → s.shift = v) ∧ s.shift = Int.bmod v (2 ^ 32)

/-- **C74.** A line is accepted only with the content of its columns … -/
theorem station_line_columns (line : List Char) (s : Beacon)
    (h : Beacon.setFromRinexLine line = .ok s) : StationLine line s := by
  unfold Beacon.setFromRinexLine at h
  split at h
  · simp at h
  · rename_i hlen
    split at h
    · simp at h
    · rename_i ty hty
      split at h
      · simp at h
      · rename_i hty2
        split at h
        · simp at h
        · rename_i sh hsh
          split at h
          · simp at h
          · rename_i hsh2
            simp at h
            subst h
            exact ⟨by omega, rfl, rfl, trimKeepFirst_spec _, trimKeepFirst_spec _,
              ⟨ty.value, (reads_iff _ _).2 ⟨ty, hty, by simpa using hty2, rfl⟩,
                fun h1 h2 => by simp only [toInt8]; rw [Int.bmod_eq_of_le] <;> omega, rfl⟩,
              ⟨sh.value, (reads_iff _ _).2 ⟨sh, hsh, by simpa using hsh2, rfl⟩,
                fun h1 h2 => by simp only [toInt32]; rw [Int.bmod_eq_of_le] <;> omega, rfl⟩⟩

/-- … and each kind of bad line has its own status. -/
theorem station_line_status (line : List Char) :
    (Beacon.setFromRinexLine line = .error 1 ↔ line.length < 60) ∧
    (Beacon.setFromRinexLine line = .error 2 ↔ 60 ≤ line.length ∧ ∀ v, ¬ Reads (line.drop 50) v) ∧
    (Beacon.setFromRinexLine line = .error 3 ↔ 60 ≤ line.length ∧ (∃ v, Reads (line.drop 50) v) ∧
      ∀ v, ¬ Reads (line.drop 52) v) ∧
    ((∃ s, Beacon.setFromRinexLine line = .ok s) ↔ 60 ≤ line.length ∧
      (∃ v, Reads (line.drop 50) v) ∧ ∃ v, Reads (line.drop 52) v) := by
  have key : ∀ s : List Char, (∃ v, Reads s v) ∨ (strtol s = none ∨
      ∃ r, strtol s = some r ∧ r.erange = true) := by
    intro s
    cases h : strtol s with
    | none => exact Or.inr (Or.inl rfl)
    | some r =>
      cases hr : r.erange with
      | true => exact Or.inr (Or.inr ⟨r, rfl, hr⟩)
      | false => exact Or.inl ⟨r.value, (reads_iff _ _).2 ⟨r, h, hr, rfl⟩⟩
  have neg : ∀ s : List Char, (strtol s = none ∨ ∃ r, strtol s = some r ∧ r.erange = true) →
      ∀ v, ¬ Reads s v := by
    rintro s (h | ⟨r, h, hr⟩) v hv <;> obtain ⟨r', h1, h2, -⟩ := (reads_iff _ _).1 hv
    · rw [h] at h1; simp at h1
    · rw [h] at h1; simp at h1; subst h1; rw [hr] at h2; simp at h2
  unfold Beacon.setFromRinexLine
  by_cases hlen : line.length < 60
  · have : ¬ 60 ≤ line.length := by omega
    simp [hlen, this]
  · have h60 : 60 ≤ line.length := by omega
    rcases key (line.drop 50) with ⟨v, hv⟩ | hv
    · obtain ⟨r, h1, h2, -⟩ := (reads_iff _ _).1 hv
      have hn1 : ¬ ∀ v, ¬ Reads (line.drop 50) v := fun h => h v hv
      rcases key (line.drop 52) with ⟨w, hw⟩ | hw
      · obtain ⟨q, g1, g2, -⟩ := (reads_iff _ _).1 hw
        have hn2 : ¬ ∀ v, ¬ Reads (line.drop 52) v := fun h => h w hw
        simp only [hlen, if_false, h1, h2, g1, g2, h60, true_and, hn1, hn2]
        simp
        exact ⟨⟨v, hv⟩, ⟨w, hw⟩⟩
      · have hn2 := neg _ hw
        have hE : ∃ v, Reads (line.drop 50) v := ⟨v, hv⟩
        have hE2 : ¬ ∃ v, Reads (line.drop 52) v := fun ⟨x, hx⟩ => hn2 x hx
        rcases hw with hw | ⟨q, g1, g2⟩
        · simp only [hlen, if_false, h1, h2, hw, h60, true_and, hn1, hE, hE2, hn2]
          simp
        · simp only [hlen, if_false, h1, h2, g1, g2, h60, true_and, hn1, hE, hE2, hn2]
          simp
    · have hn := neg _ hv
      have hE : ¬ ∃ v, Reads (line.drop 50) v := fun ⟨x, hx⟩ => hn x hx
      rcases hv with hv | ⟨r, h1, h2⟩
      · simp only [hlen, if_false, hv, h60, true_and, hE, hn]
        simp
      · simp only [hlen, if_false, h1, h2, h60, true_and, hE, hn]
        simp

def sampleStation : List Char :=
  "D02  KRWB KOUROU                        97301S006  3 -3     STATION REFERENCE".toList

example : Beacon.setFromRinexLine sampleStation =
    .ok ⟨"D02".toList, "KRWB".toList, "KOUROU".toList, "97301S006".toList, 3, -3⟩ := by
  decide +kernel

end Verif.SystemInfo
