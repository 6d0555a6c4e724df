import Verif.Script.LogModel
import Verif.Rinex.Stream

/-!
Model of the remaining scripts: script/fetch_celestrak_space_weather_data_csv.py, script/ids_logs2station_info.py,
script/pydoris/fetch_quaternions.py and script/jpl/c2cpp_header.py, with the functions of `os.path` that they call.

Simplifications: a path is its text; a server is a function from addresses to replies, and answers always; `strptime` is a
parameter; what a log file that raises an exception has already written is a parameter; lines printed are given without
their newline characters.
-/
namespace Verif.Script.Tools

open Verif.Text
open Verif.Script.Bulletin (strip dec)
open Verif.Script.Log (Py Antenna antennas)

/-! ### os.path -/

/-- `os.path.join(a, b)`. -/
def join (a b : List Char) : List Char :=
  if b.head? = some '/' then b else if a = [] ∨ a.getLast? = some '/' then a ++ b else a ++ '/' :: b

/-- `s.rfind(c)`. -/
def rfind (c : Char) : List Char → Option Nat
  | [] => none
  | x :: s => match rfind c s with
    | some i => some (i + 1)
    | none => if x = c then some 0 else none

/-- `os.path.basename(p)`. -/
def basename (p : List Char) : List Char :=
  match rfind '/' p with
  | none => p
  | some i => p.drop (i + 1)

/-- `os.path.splitext(p)[1]`: from the last dot of the last part, unless there are only dots before it. -/
def extension (p : List Char) : List Char :=
  let name := (rfind '/' p).elim 0 (· + 1)
  match rfind '.' p with
  | none => []
  | some dot => if name ≤ dot ∧ ((p.drop name).take (dot - name)).any (· != '.') then p.drop dot else []

/-! ### Space weather -/

/-- The reply of a server. -/
structure Reply where
  status : Nat
  content : List Char

/-- `remote_csv_all`, `remote_csv_5yr` (script/fetch_celestrak_space_weather_data_csv.py:51-52). -/
def remoteCsv (all : Bool) : List Char :=
  if all then "https://celestrak.org/SpaceData/SW-All.csv".toList else "https://celestrak.org/SpaceData/SW-Last5Years.csv".toList

/-- How a script ends: its exit code, and the file it has written. -/
structure Done where
  code : Nat
  written : Option (List Char × List Char)

/-- The script (script/fetch_celestrak_space_weather_data_csv.py:54-70). -/
def celestrak (isdir : List Char → Bool) (get : List Char → Reply) (saveAs : Option (List Char)) (saveDir : List Char)
    (all : Bool) : Done :=
  if isdir saveDir = false then ⟨1, none⟩
  else
    let remote := remoteCsv all
    let localFn := match saveAs with
      | none => basename remote
      | some [] => basename remote
      | some n => n
    ⟨0, some (join saveDir localFn, (get remote).content)⟩

/-! ### Attitude -/

/-- `cddis_url` (script/pydoris/fetch_quaternions.py:58). -/
def cddisUrl : List Char := "https://cddis.nasa.gov/archive/doris/ancillary/quaternions/ja3/2021/".toList

/-- `md5sums` (script/pydoris/fetch_quaternions.py:75-79). -/
def md5sums (satellite : List Char) (year : Nat) : List Char :=
  join (join cddisUrl (satellite ++ '/' :: dec year)) "MD5SUMS".toList

/-- `iter_content(chunk_size)`: pieces of at most so many characters; `n` bounds their number. -/
def chunks (size : Nat) : Nat → List Char → List (List Char)
  | 0, _ => []
  | _, [] => []
  | n + 1, s => s.take size :: chunks size n (s.drop size)

/-- The script (script/pydoris/fetch_quaternions.py:60-91). -/
def quaternions (isdir : List Char → Bool) (year : List Char → Option Nat) (get : List Char → Reply) (satellite date saveDir : List Char) :
    Done :=
  if isdir saveDir = false then ⟨1, none⟩
  else
    match year date with
    | none => ⟨1, none⟩
    | some y =>
      let r := get (md5sums satellite y)
      if 400 ≤ r.status then ⟨1, none⟩
      else ⟨0, some ("foo".toList, (chunks 1000 (r.content.length + 1) r.content).flatten)⟩

/-! ### List of antennas -/

/-- The test for a site log (script/ids_logs2station_info.py:60). -/
def isLog (fn : List Char) : Bool := [".log".toList, ".LOG".toList].contains (extension fn)

/-- `{:4s} {:19s} {:19s} {:9s}` (script/ids_logs2station_info.py:57). -/
def heading : List Char :=
  let pad (n : Nat) (s : List Char) : List Char := s ++ List.replicate (n - s.length) ' '
  pad 4 "Site".toList ++ ' ' :: (pad 19 "From".toList ++ ' ' :: (pad 19 "To".toList ++ ' ' :: pad 9 "Height".toList))

/-- The loop over the files (script/ids_logs2station_info.py:59-61): the antennas written, and whether it reached the end.
`part` are the antennas that a log writes before it raises an exception. -/
def stations {V D : Type} (py : Py V D) (read : List Char → List (List Char)) (part : List Char → List (Antenna V D)) (dir : List Char) :
    List (List Char) → List (Antenna V D) × Bool
  | [] => ([], true)
  | fn :: rest =>
    if isLog fn then
      match antennas py (read (join dir fn)) with
      | none => (part fn, false)
      | some xs => let r := stations py read part dir rest; (xs ++ r.1, r.2)
    else stations py read part dir rest

/-! ### C headers -/

/-- The lines printed for the header (script/jpl/c2cpp_header.py:14-17, 24). -/
def headLines : List (List Char) := ["#ifdef __cplusplus".toList, "extern \"C\" {".toList, "#endif".toList, []]

/-- The lines printed at the end (script/jpl/c2cpp_header.py:19-22, 28). -/
def tailLines : List (List Char) := ["    #ifdef __cplusplus".toList, "}".toList, "#endif".toList, []]

/-- The script (script/jpl/c2cpp_header.py:11-28): lines printed, and whether it reached the end.  A missing file raises an
exception only after the first lines. -/
def c2cpp (name : List Char) : Option (List (List Char)) → List (List Char) × Bool
  | none => (("ERROR. Failed to locate file ".toList ++ name) :: headLines, false)
  | some ls => (headLines ++ (ls.map strip ++ tailLines), true)

end Verif.Script.Tools
