import Verif.Pod.SetupModel

/-
Model of the two objects of the library that keep the name of their file in an array of 256 characters: the table of
beacons (src/beacon_tbl.hpp) and the feed of space weather (src/atmosphere/nrlmsise00.hpp).  Arrays are lists of
characters; what they hold before the constructor is arbitrary.
-/
namespace Verif.Pod.Name

open Verif.Yaml Verif.Pod.Setup

/-- Length of the arrays `fn_` (src/beacon_tbl.hpp:29) and `fncsv_` (src/atmosphere/nrlmsise00.hpp:259). -/
def cap : Nat := 256

/-- Length of the buffer of the program (test/rinex_pod.cpp:329). -/
def bufsz : Nat := 256

/-- The constructor copies the name (src/beacon_tbl.hpp:32; src/atmosphere/nrlmsise00_get_flux_data.cpp:12) to the
array `mem`; `none`: written past its end. -/
def construct (mem : List Char) (arg : List Char) : Option (List Char) := strcpy mem arg

/-- The file opened later (src/beacon_tbl/beacon_tbl.cpp:7; src/atmosphere/nrlmsise00_get_flux_data.cpp:189, 194). -/
def opened (mem : List Char) : List Char := cstr mem

end Verif.Pod.Name
