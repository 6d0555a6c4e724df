import Verif.Rinex.Stream

namespace Verif.Rinex

theorem getline_ok {cap : Nat} {s : Stream} {b : Buf} (h : (getline cap s b).1.fail = false) :
    ∃ l rest, s.lines = l :: rest ∧ s.good = true ∧ l.text.length ≤ cap - 1 ∧
      getline cap s b = (⟨rest, false, !l.eol⟩, fill b l.text) := by
  obtain ⟨lines, fail, eof⟩ := s
  cases fail <;> cases eof <;> cases lines with
  | nil => simp_all [getline, Stream.good]
  | cons l rest => 
    by_cases hl : l.text.length > cap - 1
    · simp [getline, Stream.good, hl] at h
    · first
      | (simp [getline, Stream.good] at h; done)
      | exact ⟨l, rest, rfl, rfl, by omega, by simp [getline, Stream.good, hl]⟩

theorem getline_good {cap : Nat} {s : Stream} {l : Line} {rest : List Line} (b : Buf)
    (hg : s.good = true) (hl : s.lines = l :: rest) (hlen : l.text.length ≤ cap - 1) :
    getline cap s b = (⟨rest, false, !l.eol⟩, fill b l.text) := by
  have : ¬ l.text.length > cap - 1 := by omega
  simp [getline, hg, hl, this]

theorem getline_bad {cap : Nat} {s : Stream} (b : Buf) (hg : s.good = false) :
    getline cap s b = ({ s with fail := true }, fill b []) := by
  simp [getline, hg]

theorem getline_end {cap : Nat} {s : Stream} (b : Buf) (hg : s.good = true) (hl : s.lines = []) :
    getline cap s b = ({ s with fail := true, eof := true }, fill b []) := by
  simp [getline, hg, hl]

theorem getline_stream (cap : Nat) (s : Stream) (b b' : Buf) :
    (getline cap s b).1 = (getline cap s b').1 := by
  unfold getline
  split
  · rfl
  · split
    · rfl
    · split <;> rfl

theorem getline_fail_mono {cap : Nat} {s : Stream} {b : Buf} (h : s.fail = true) :
    (getline cap s b).1.fail = true := by
  simp [getline, Stream.good, h]

end Verif.Rinex
