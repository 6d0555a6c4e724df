import Verif.SpaceWeather.Model
import Verif.Rinex.WriteSpec

/-
A writer of space weather files in the CSV format of CelesTrak, as the header line describes it (C148).
-/
namespace Verif.SpaceWeather.Write

open Verif.Rinex Verif.Rinex.Write Verif.SpaceWeather

/-- A number in a column: its characters and its value. -/
structure Num where
  text : List Char
  value : ℚ
deriving DecidableEq, Repr

/-- One day. -/
structure Day where
  year : Nat
  month : Nat
  day : Nat
  /-- columns BSRN to KP_SUM -/
  early : List (List Char)
  /-- AP1 to AP8 -/
  ap : List Int
  apAvg : Num
  cp : List Char
  c9 : List Char
  isn : List Char
  obs : Num
  adj : Num
  type : List Char
  obsC81 : Num
  obsL81 : Num
  adjC81 : Num
  adjL81 : List Char
deriving DecidableEq, Repr

/-- The date, for instance 2017-01-10. -/
def Day.date (d : Day) : List Char := fracText 4 d.year ++ '-' :: (fracText 2 d.month ++ '-' :: fracText 2 d.day)

/-- Names of the columns. -/
def names : List String :=
  ["DATE", "BSRN", "ND", "KP1", "KP2", "KP3", "KP4", "KP5", "KP6", "KP7", "KP8", "KP_SUM", "AP1", "AP2", "AP3", "AP4",
   "AP5", "AP6", "AP7", "AP8", "AP_AVG", "CP", "C9", "ISN", "F10.7_OBS", "F10.7_ADJ", "F10.7_DATA_TYPE",
   "F10.7_OBS_CENTER81", "F10.7_OBS_LAST81", "F10.7_ADJ_CENTER81", "F10.7_ADJ_LAST81"]

/-- The columns of a day, in the order of the names. -/
def Day.columns (d : Day) : List (List Char) :=
  d.date :: (d.early ++ (d.ap.map intText ++
    [d.apAvg.text, d.cp, d.c9, d.isn, d.obs.text, d.adj.text, d.type, d.obsC81.text, d.obsL81.text, d.adjC81.text,
     d.adjL81]))

/-- Columns separated by commas. -/
def csv : List (List Char) → List Char
  | [] => []
  | [c] => c
  | c :: cs => c ++ ',' :: csv cs

/-- The line of a day. -/
def Day.line (d : Day) : Line := ⟨csv d.columns, true⟩

/-- What the line of a day says. -/
def Day.flux (e : Ext) (d : Day) : Flux :=
  { mjd := e.ymd2mjd d.year d.month d.day
    f107Obs := d.obs.value
    f107Adj := d.adj.value
    f107ObsC81 := d.obsC81.value
    f107ObsL81 := d.obsL81.value
    f107AdjC81 := d.adjC81.value
    apDaily := d.apAvg.value
    ap := d.ap
    flag := d.type }

/-- The number conversion reads the number, up to a comma or the end. -/
structure Num.Ok (e : Ext) (x : Num) : Prop where
  nul : '\x00' ∉ x.text
  reads : ∀ r : List Char, r = [] ∨ r.head? = some ',' → e.fromCharsD (x.text ++ r) = some (x.value, r)

/-- Characters of a column that is not read. -/
def Free (t : List Char) : Prop := ',' ∉ t ∧ '\x00' ∉ t

/-- A day that can be written. -/
structure Day.Ok (e : Ext) (d : Day) : Prop where
  year : d.year < 10000
  month : d.month < 100
  day : d.day < 100
  early : d.early.length = 11 ∧ ∀ t ∈ d.early, Free t
  ap : d.ap.length = 8 ∧ ∀ a ∈ d.ap, -2147483648 ≤ a ∧ a ≤ 2147483647
  apAvg : d.apAvg.Ok e
  cp : Free d.cp ∧ d.cp ≠ []
  c9 : Free d.c9
  isn : Free d.isn
  obs : d.obs.Ok e
  adj : d.adj.Ok e
  type : '\x00' ∉ d.type ∧ d.type.length = 3
  obsC81 : d.obsC81.Ok e
  obsL81 : d.obsL81.Ok e
  adjC81 : d.adjC81.Ok e
  adjL81 : '\x00' ∉ d.adjL81
  fits : d.line.text.length ≤ 511

/-- The day a line is for. -/
def Day.mjd (e : Ext) (d : Day) : Int := e.ymd2mjd d.year d.month d.day

/-- The lines of a file: names of the columns (and what may follow, such as a carriage return), then the days. -/
def fileOf (tail : List Char) (ds : List Day) : List Line :=
  ⟨csv (names.map String.toList) ++ tail, true⟩ :: ds.map Day.line

/-- Every day follows the one before. -/
def Daily (e : Ext) (first : Int) (ds : List Day) : Prop := ∀ i (h : i < ds.length), ds[i].mjd e = first + i

end Verif.SpaceWeather.Write
