import Verif.Script.ToolsModel
import Verif.Rinex.WriteSpec

/-!
Model of the file of antenna heights that the library reads (src/beacon_tbl.hpp) as its script writes it:
script/ids_logs2station_info.py and script/pydoris/pydoris/log/ids_log_parser.py, `dump_log_antenna_info`.

`strftime` and the format `9.6f` are written out: four digits for the year (years from 1000; the C library writes fewer for earlier
ones), heights as whole numbers of micrometres.  How a date is one of the calendar and which number of micrometres a height
is rounded to are parameters.
-/
namespace Verif.Script.Table
open Verif.Rinex Verif.Rinex.Write Verif.Script.Log Verif.Script.Tools

/-- A date and time of day. -/
structure Stamp where
  year : Nat
  month : Nat
  day : Nat
  hour : Nat
  minute : Nat
  second : Nat
deriving DecidableEq, Repr

/-- `%Y-%m-%d %H:%M:%S` (script/pydoris/pydoris/log/ids_log_parser.py:144-145). -/
def Stamp.text (s : Stamp) : List Char :=
  fracText 4 s.year ++ '-' :: (fracText 2 s.month ++ '-' :: (fracText 2 s.day ++ ' ' ::
    (fracText 2 s.hour ++ ':' :: (fracText 2 s.minute ++ ':' :: fracText 2 s.second))))

/-- What the script's values look like in print. -/
structure Print (V D : Type) where
  stamp : D → Stamp
  /-- the height in micrometres, rounded -/
  micro : V → Int

/-- `{:4s} {:} {:} {:9.6f}` (script/pydoris/pydoris/log/ids_log_parser.py:144-145). -/
def antennaLine {V D : Type} (pr : Print V D) (x : Antenna V D) : List Char :=
  padR 4 x.name ++ ' ' :: ((pr.stamp x.installed).text ++ ' ' :: ((pr.stamp x.removed).text ++ ' ' ::
    padL 9 (fixText 6 (pr.micro x.height))))

/-- The file (script/ids_logs2station_info.py:52-61). -/
def table {V D : Type} (py : Py V D) (pr : Print V D) (read : List Char → List (List Char))
    (part : List Char → List (Antenna V D)) (dir : List Char) (fns : List (List Char)) : List Line :=
  ⟨heading, true⟩ :: (stations py read part dir fns).1.map fun x => ⟨antennaLine pr x, true⟩

end Verif.Script.Table
