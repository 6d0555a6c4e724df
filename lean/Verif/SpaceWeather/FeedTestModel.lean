import Verif.SpaceWeather.Model

/-
The program unit_test/test_msise00_csv_feed.cpp, which compares the values that the feed of a space weather file serves with
reference values.

Simplifications: rational numbers for doubles (the values of the file and of the program are read by the same rule); whole seconds;
the calendar of the datetime library is a parameter, and a `datetime` made of a day and more seconds than a day has is normalised, as
that library does; printing is left out.
-/
namespace Verif.SpaceWeather

open Verif.Rinex

/-- Calendar: year and day of year of a Modified Julian Day, and back. -/
structure Calendar where
  ydoy : Int → Int × Int
  mjd : Int → Int → Int

/-- The members of `InParamsCore` that the program compares (src/atmosphere/nrlmsise00.hpp:184-194). -/
structure Core where
  year : Int
  doy : Int
  sec : ℚ
  params : Params

/-- `differ` (unit_test/test_msise00_csv_feed.cpp:8-43). -/
def differ (a b : Core) : Nat :=
  let far (x y : ℚ) : Nat := if 1 / 1000000 < |x - y| then 1 else 0
  far a.year b.year + far a.doy b.doy + far a.sec b.sec + far a.params.f107A b.params.f107A + far a.params.f107 b.params.f107 +
    far a.params.ap b.params.ap +
    ((List.range 7).map fun i => far (a.params.arr.getD i 0) (b.params.arr.getD i 0)).sum

/-- The reference values of the first three requests (unit_test/test_msise00_csv_feed.cpp:99-107). -/
def refFirst : Params :=
  ⟨116.4, 107.1, 5, [5, 12, 6, 9, 9, (3 + 5 + 12 + 12 + 9 + 7 + 5 + 5) / 8, (9 + 6 + 12 + 32 + 67 + 22 + 7 + 7) / 8]⟩

/-- Of the next two (unit_test/test_msise00_csv_feed.cpp:109-117). -/
def refSecond : Params :=
  ⟨116.4, 107.1, 5, [5, 6, 12, 6, 9, (5 + 12 + 12 + 9 + 7 + 5 + 5 + 9) / 8, (6 + 12 + 32 + 67 + 22 + 7 + 7 + 3) / 8]⟩

/-- Of the day after (unit_test/test_msise00_csv_feed.cpp:153-158). -/
def refNext : Params :=
  ⟨116.0, 102.3, 6, [6, 7, 18, 7, 3, (9 + 6 + 12 + 6 + 2 + 3 + 4 + 4) / 8, (5 + 12 + 12 + 9 + 7 + 5 + 5 + 9) / 8]⟩

/-- Of the end of the day (unit_test/test_msise00_csv_feed.cpp:197-202). -/
def refEnd : Params :=
  ⟨116.4, 107.1, 5, [5, 7, 3, 4, 4, (5 + 9 + 9 + 6 + 12 + 6 + 2 + 3) / 8, (7 + 3 + 5 + 12 + 12 + 9 + 7 + 5) / 8]⟩

/-- The requests, in seconds after the beginning of 25 July 2022, and their references
(unit_test/test_msise00_csv_feed.cpp:92-117, 132-148, 150-158, 174-182, 194-204). -/
def feedCases : List (Nat × Core) :=
  [(0, ⟨2022, 206, 0, refFirst⟩), (3600, ⟨2022, 206, 3600, refFirst⟩), (7200, ⟨2022, 206, 7200, refFirst⟩),
   (10800, ⟨2022, 206, 10800, refSecond⟩), (14400, ⟨2022, 206, 14400, refSecond⟩),
   (97200, ⟨2022, 207, 10800, refNext⟩), (1, ⟨2022, 206, 1, refFirst⟩), (86395, ⟨2022, 206, 86395, refEnd⟩)]

/-- `update_params` (src/atmosphere/nrlmsise00.hpp:322-331); the status that it returns is ignored by the program.  `none`:
undefined. -/
def updateParams (e : Ext) (cal : Calendar) (file : Option (List Line)) (j : Junk) (f : Feed) (mjd : Int) (secday : Nat) :
    Option (Core × Feed) :=
  let day := mjd + ((secday / 86400 : Nat) : Int)
  let sec := secday % 86400
  let yd := cal.ydoy day
  match update e file j f (cal.mjd yd.1 yd.2) sec with
  | .ok f' => some (⟨yd.1, yd.2, sec, f'.params⟩, f')
  | .fail f' => some (⟨yd.1, yd.2, sec, f'.params⟩, f')
  | .ub => none

/-- The requests one after the other (unit_test/test_msise00_csv_feed.cpp:134-213): the number of cases that differ. -/
def feedRun (e : Ext) (cal : Calendar) (file : Option (List Line)) (j : Junk) (mjd : Int) :
    List (Nat × Core) → Feed → Nat → Option Nat
  | [], _, error => some error
  | (s, r) :: rest, f, error =>
    match updateParams e cal file j f mjd s with
    | none => none
    | some (c, f') => feedRun e cal file j mjd rest f' (if differ c r ≠ 0 then error + 1 else error)

/-- How the program ends. -/
inductive FeedEnd where
  | exit (status : Nat)
  | thrown
  | undefined
deriving DecidableEq

/-- `main` (unit_test/test_msise00_csv_feed.cpp:83-216) on the file given as argument. -/
def feedMain (e : Ext) (cal : Calendar) (argc : Nat) (file : Option (List Line)) (j : Junk) : FeedEnd :=
  if argc ≠ 2 then .exit 1
  else
    let t := e.ymd2mjd 2022 7 25
    match construct e file j (cal.mjd (cal.ydoy t).1 (cal.ydoy t).2) 0 with
    | none => .thrown
    | some (.ok f) =>
      match feedRun e cal file j t feedCases f 0 with
      | none => .undefined
      | some error => .exit error
    | some _ => .undefined

end Verif.SpaceWeather
