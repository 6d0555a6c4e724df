/-
C text primitives used by the readers (`<cctype>`, `<cstdlib>`), on character lists.

A character list stands for the bytes from a pointer up to (not including) the terminating
NUL.  `long` has 64 bits.
-/
namespace Verif.Text

/-- `isspace` in the "C" locale. -/
def isSpace (c : Char) : Bool :=
  c == ' ' || c == '\t' || c == '\n' || c == '\x0b' || c == '\x0c' || c == '\r'

/-- `isdigit`. -/
def isDigit (c : Char) : Bool := '0' ≤ c && c ≤ '9'

/-- Value of a decimal digit. -/
def digitVal (c : Char) : Nat := c.toNat - '0'.toNat

/-- Leading digits of `s`: accumulated value, number of digits, rest. -/
def scanDigits : List Char → Nat → Nat → Nat × Nat × List Char
  | [], acc, n => (acc, n, [])
  | c :: s, acc, n =>
    if isDigit c then scanDigits s (10 * acc + digitVal c) (n + 1) else (acc, n, c :: s)

/-- Result of `strtol`. -/
structure LongResult where
  /-- the returned value -/
  value : Int
  /-- `*end` -/
  rest : List Char
  /-- `errno` was set to `ERANGE` -/
  erange : Bool
deriving DecidableEq, Repr

/-- Largest `long`. -/
def longMax : Int := 9223372036854775807

/-- Optional sign. -/
def takeSign : List Char → Bool × List Char
  | '-' :: s => (true, s)
  | '+' :: s => (false, s)
  | s => (false, s)

/-- `strtol(s, &end, 10)`; `none`: no conversion was performed (`end == s`, value 0). -/
def strtol (s : List Char) : Option LongResult :=
  let (neg, s1) := takeSign (s.dropWhile isSpace)
  let (v, n, rest) := scanDigits s1 0 0
  if n = 0 then none
  else
    let x : Int := if neg then -(v : Int) else v
    if x > longMax then some ⟨longMax, rest, true⟩
    else if x < -longMax - 1 then some ⟨-longMax - 1, rest, true⟩
    else some ⟨x, rest, false⟩

/-- Conversion of an integer to a signed 8-bit type (`int_fast8_t` on the usual platforms). -/
def toInt8 (x : Int) : Int := Int.bmod x 256

/-- Conversion of an integer to `int` (32 bits). -/
def toInt32 (x : Int) : Int := Int.bmod x (2 ^ 32)

/-- `line[off .. off+n)` of a NUL-terminated string long enough to contain it. -/
def field (line : List Char) (off n : Nat) : List Char := (line.drop off).take n

end Verif.Text
