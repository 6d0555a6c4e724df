import Verif.Text.Model

/-
Input streams and C line buffers, as used by the RINEX readers.
-/
namespace Verif.Rinex

/-- One line of a file: its characters without the newline, and whether a newline follows
(only the last line of a file may lack it). -/
structure Line where
  text : List Char
  eol : Bool
deriving DecidableEq, Repr

/-- State of a `std::ifstream` positioned at the start of a line. -/
structure Stream where
  lines : List Line
  /-- `failbit` (or `badbit`) -/
  fail : Bool
  /-- `eofbit` -/
  eof : Bool
deriving DecidableEq, Repr

/-- `good()`. -/
def Stream.good (s : Stream) : Bool := !s.fail && !s.eof

/-- A freshly opened file. -/
def Stream.open (lines : List Line) : Stream := ⟨lines, false, false⟩

/-- A character array.  Its length never changes. -/
abbrev Buf := List Char

/-- Write `chars` and a terminating NUL at the start of a buffer, leaving the rest as it was. -/
def fill (b : Buf) (chars : List Char) : Buf := chars ++ '\x00' :: b.drop (chars.length + 1)

/-- `stream.getline(buf, cap)`: at most `cap - 1` characters are stored.  A stream that is not
good stores only a NUL and fails; at end of file likewise (setting `eofbit`); an over-long line
stores its first `cap - 1` characters and sets `failbit`. -/
def getline (cap : Nat) (s : Stream) (b : Buf) : Stream × Buf :=
  if s.good = false then ({ s with fail := true }, fill b [])
  else
    match s.lines with
    | [] => ({ s with fail := true, eof := true }, fill b [])
    | l :: rest =>
      if l.text.length > cap - 1 then
        (⟨⟨l.text.drop (cap - 1), l.eol⟩ :: rest, true, false⟩, fill b (l.text.take (cap - 1)))
      else (⟨rest, false, !l.eol⟩, fill b l.text)

/-- The C string starting at offset `k` of a buffer (up to the first NUL, or the end of the
array when there is none). -/
def cstr (b : Buf) (k : Nat) : List Char := (b.drop k).takeWhile (· != '\x00')

/-- Byte at offset `k`; callers use offsets inside the array. -/
def at' (b : Buf) (k : Nat) : Char := b.getD k '\x00'

/-- Equality in the sense of `strncmp(a, b, n) == 0`. -/
def strncmpEq : Nat → List Char → List Char → Bool
  | 0, _, _ => true
  | n + 1, a, b =>
    let x := a.headD '\x00'
    let y := b.headD '\x00'
    if x != y then false
    else if x == '\x00' then true
    else strncmpEq n a.tail b.tail

end Verif.Rinex
