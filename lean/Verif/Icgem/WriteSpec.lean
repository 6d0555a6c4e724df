import Verif.Icgem.HeaderProps
import Verif.Script.GfcProps

/-!
C150: what a file of gravity field coefficients looks like, as a writer.  Nothing here is code of the library; the keywords
are those of the ICGEM format (product_type gravity_field).
-/
namespace Verif.Icgem.Write

open Verif.Rinex Verif.Text
open Verif.Script.Gfc (Mant Expo Break gfcLine)
open Verif.Script.Bulletin (dec)

/-- A number: mantissa with decimals, and exponent. -/
structure Num where
  m : List Char
  x : List Char

/-- The number with the letter `l` for the exponent. -/
def Num.text (l : Char) (a : Num) : List Char := a.m ++ l :: a.x

def Num.Ok (a : Num) : Prop := Mant a.m ∧ Expo a.x

/-- A line of the data section: degree, order, the two coefficients, the blanks between them, further columns. -/
structure Coef where
  n : Nat
  k : Nat
  c : Num
  s : Num
  g1 : Nat
  g2 : Nat
  g3 : Nat
  g4 : Nat
  tail : List Char

def Coef.text (l : Char) (q : Coef) : List Char :=
  gfcLine q.g1 q.g2 q.g3 q.g4 q.n q.k q.c.m q.c.x q.s.m q.s.x l l q.tail

/-- A gravity field model: name, constants, degree, normalisation, coefficients in any order. -/
structure Gfc where
  name : List Char
  gm : Num
  re : Num
  degree : Nat
  normalized : Bool
  coefs : List Coef

/-- The argument of the keyword `norm`. -/
def Gfc.normText (g : Gfc) : List Char :=
  if g.normalized then "fully_normalized".toList else "unnormalized".toList

/-- The header without the line on the normalisation. -/
def Gfc.rest (g : Gfc) : List Ent :=
  [.key 0 .productType 0 "gravity_field".toList, .key 0 .modelname 0 g.name, .key 0 .gm 0 (g.gm.text 'e'),
    .key 0 .radius 0 (g.re.text 'e'), .key 0 .maxDegree 0 (dec g.degree), .key 0 .errors 0 "formal".toList,
    .key 0 .tideSystem 0 "tide_free".toList]

/-- The header. -/
def Gfc.ents (g : Gfc) : List Ent := .key 0 .norm 0 g.normText :: g.rest

/-- The line that ends the header. -/
def fin : List Char := "end_of_head ======".toList

/-- The data section, with the letter `l` for exponents. -/
def Gfc.data (l : Char) (g : Gfc) : List Line := g.coefs.map fun q => ⟨q.text l, true⟩

/-- The file. -/
def Gfc.lines (g : Gfc) : List Line := g.ents.map Ent.line ++ ⟨fin, true⟩ :: g.data 'e'

/-- The file with the coefficients (not the constants) in Fortran notation, as Python's `readline` returns its lines. -/
def Gfc.fortran (g : Gfc) : List (List Char) :=
  (g.ents.map fun e => e.text ++ ['\n']) ++ (fin ++ ['\n']) :: g.coefs.map fun q => q.text 'D' ++ ['\n']

/-- Text that one keyword can have. -/
def Word (n : Nat) (t : List Char) : Prop := t ≠ [] ∧ t.length ≤ n ∧ ∀ c ∈ t, isSpace c = false ∧ c ≠ '\x00'

structure Coef.Ok (val : List Char → List Char → ℚ) (q : Coef) : Prop where
  c : q.c.Ok
  s : q.s.Ok
  tail : Break q.tail
  len : (q.text 'e').length ≤ 511
  sine : q.k = 0 → val q.s.m q.s.x = 0

/-- The coefficients of the model are those up to its degree, each given once. -/
structure Gfc.Ok (val : List Char → List Char → ℚ) (g : Gfc) : Prop where
  name : Word 120 g.name
  gm : g.gm.Ok ∧ (g.gm.text 'e').length ≤ 100 ∧ val g.gm.m g.gm.x ≠ 0
  re : g.re.Ok ∧ (g.re.text 'e').length ≤ 100 ∧ val g.re.m g.re.x ≠ 0
  degree : 1 ≤ g.degree ∧ g.degree < 2 ^ 31
  coefs : ∀ q ∈ g.coefs, q.Ok val
  once : (g.coefs.map fun q => (q.n, q.k)).Nodup
  all : ∀ n k, (∃ q ∈ g.coefs, q.n = n ∧ q.k = k) ↔ k ≤ n ∧ n ≤ g.degree

end Verif.Icgem.Write
