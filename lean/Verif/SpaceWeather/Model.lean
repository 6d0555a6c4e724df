import Verif.Rinex.Stream
import Mathlib.Data.Rat.Defs
import Mathlib.Algebra.Order.Ring.Rat

/-
Model of the space-weather CSV reader (src/var/celestrak.hpp, src/var/celestrak_swdata.cpp) and of
the data feed of the atmosphere model (src/atmosphere/nrlmsise00_get_flux_data.cpp).

`double` values are rationals.  `std::from_chars` for doubles, the calendar conversion and the
partly overwritten record left behind by a failing conversion are parameters.
-/
namespace Verif.SpaceWeather

open Verif.Rinex Verif.Text

/-- `CelestTrakSWFlux` (src/var/celestrak.hpp:14-25). -/
structure Flux where
  mjd : Int
  f107Obs : ℚ
  f107Adj : ℚ
  f107ObsC81 : ℚ
  f107ObsL81 : ℚ
  f107AdjC81 : ℚ
  apDaily : ℚ
  ap : List Int
  flag : List Char
deriving DecidableEq, Repr

/-- External functions. -/
structure Ext where
  /-- `std::from_chars` for `double`: value and remaining characters -/
  fromCharsD : List Char → Option (ℚ × List Char)
  /-- calendar date to Modified Julian Day -/
  ymd2mjd : Int → Int → Int → Int
  /-- what a failing record conversion leaves in the record -/
  clobber : Buf → Flux → Flux

/-- `std::from_chars` for `int` on the given characters: optional minus sign, digits, 32-bit range
check; value and number of characters used. -/
def fromCharsI (s : List Char) : Option (Int × Nat) :=
  let (neg, s1) := match s with
    | '-' :: t => (true, t)
    | _ => (false, s)
  let (v, n, _) := scanDigits s1 0 0
  if n = 0 then none
  else
    let x : Int := if neg then -(v : Int) else v
    if x > 2147483647 ∨ x < -2147483648 then none
    else some (x, if neg then n + 1 else n)

/-- `resolve_csv_line_date` (src/var/celestrak_swdata.cpp:132-156): bytes 0-3, 5-6 and 8-9. -/
def dateOf (e : Ext) (b : Buf) : Option Int :=
  match fromCharsI (field b 0 4), fromCharsI (field b 5 2), fromCharsI (field b 8 2) with
  | some (y, _), some (m, _), some (d, _) => some (e.ymd2mjd y m d)
  | _, _, _ => none

/-- The loop `while (*c++ && commas < n) if (*c == ',') ++commas;` (lines 40-45, 75-80) from the
character list at `c`; the first character is never counted.  `none`: the pointer has run past
the terminator. -/
def skipCommas : Nat → List Char → Option (List Char)
  | _, [] => none
  | 0, _ :: s => some s
  | n + 1, _ :: s =>
    match s with
    | [] => none
    | ',' :: _ => skipCommas n s
    | _ :: _ => skipCommas (n + 1) s

/-- `from_chars(c, last, int)` where `last` is the last character of the line, then a comma
(lines 56-60). -/
def intComma (s : List Char) : Option (Int × List Char) :=
  match fromCharsI s.dropLast with
  | none => none
  | some (x, k) =>
    match s.drop k with
    | ',' :: rest => some (x, rest)
    | _ => none

/-- `from_chars(c, last, double)` then a comma (lines 66-70, 86-97, 106-121). -/
def dblComma (e : Ext) (s : List Char) : Option (ℚ × List Char) :=
  match e.fromCharsD s.dropLast with
  | none => none
  | some (x, r) =>
    match s.drop (s.dropLast.length - r.length) with
    | ',' :: rest => some (x, rest)
    | _ => none

/-- The eight 3-hour values (lines 54-62). -/
def aps : Nat → List Char → Option (List Int × List Char)
  | 0, s => some ([], s)
  | n + 1, s =>
    match intComma s with
    | none => none
    | some (x, rest) =>
      match aps n rest with
      | none => none
      | some (xs, rest') => some (x :: xs, rest')

/-- Result of a record conversion. -/
inductive Conv where
  | ok (f : Flux)
  | fail
  /-- bytes after the end of the line were used -/
  | stale
deriving DecidableEq, Repr

/-- `resolve_csv_line_records` (lines 26-130). -/
def resolve (e : Ext) (b : Buf) : Conv :=
  match dateOf e b with
  | none => .fail
  | some mjd =>
    match skipCommas 12 (cstr b 0) with
    | none => .stale
    | some [] => .fail
    | some s1 =>
      match aps 8 s1 with
      | none => .fail
      | some (ap, s2) =>
        match dblComma e s2 with
        | none => .fail
        | some (avg, s3) =>
          match skipCommas 3 s3 with
          | none => .stale
          | some [] => .fail
          | some s4 =>
            match dblComma e s4 with
            | none => .fail
            | some (obs, s5) =>
              match dblComma e s5 with
              | none => .fail
              | some (adj, s6) =>
                if s6.length < 3 then .stale
                else
                  match s6.drop 3 with
                  | ',' :: s7 =>
                    match dblComma e s7 with
                    | none => .fail
                    | some (c81, s8) =>
                      match dblComma e s8 with
                      | none => .fail
                      | some (l81, s9) =>
                        match dblComma e s9 with
                        | none => .fail
                        | some (ac81, _) => .ok ⟨mjd, obs, adj, c81, l81, ac81, avg, ap, s6.take 3⟩
                  | _ => .fail

/-- `fpos`: offset 0, the start of line `k` (counted from 0), or -1. -/
inductive Pos where
  | top
  | line (k : Nat)
  | bad
deriving DecidableEq, Repr

/-- `fin.seekg(fpos)` on a freshly opened file. -/
def seek (file : List Line) : Pos → Stream
  | .top => Stream.open file
  | .line k => Stream.open (file.drop k)
  | .bad => { Stream.open file with fail := true }

/-- `fin.tellg()`. -/
def tell (file : List Line) (s : Stream) : Pos :=
  if s.good then .line (file.length - s.lines.length) else .bad

/-- The header line (lines 15-18). -/
def header : List Char :=
  ("DATE,BSRN,ND,KP1,KP2,KP3,KP4,KP5,KP6,KP7,KP8,KP_SUM,AP1,AP2,AP3,AP4,AP5," ++
   "AP6,AP7,AP8,AP_AVG,CP,C9,ISN,F10.7_OBS,F10.7_ADJ,F10.7_DATA_TYPE,F10.7_" ++
   "OBS_CENTER81,F10.7_OBS_LAST81,F10.7_ADJ_CENTER81,F10.7_ADJ_LAST81").toList

/-- Outcome of a call: return value, records, `fpos`. -/
inductive Out where
  | ret (status : Int) (flux : List Flux) (fpos : Pos)
  | stale
deriving DecidableEq, Repr

/-- The search for the first record (lines 252-266).  The first argument bounds the number of
lines that are left. -/
def search (e : Ext) (start : Int) : Nat → Stream → Buf → Int → Except Int (Stream × Buf)
  | n, s, b, cmjd =>
    if cmjd = start then .ok (s, b)
    else
      match n with
      | 0 => .error 9
      | n + 1 =>
        let (s', b') := getline 512 s b
        if s'.fail then .error (if s'.eof then 9 else 999)
        else
          match dateOf e b' with
          | none => .error (if s'.eof then 9 else 1)
          | some d => search e start n s' b' d

/-- The record loop (lines 268-290) with `n` records to go, `cdi` stored. -/
def store (e : Ext) (file : List Line) (start : Int) : Nat → Nat → Stream → Buf → List Flux → Out
  | 0, _, s, _, flux => .ret 0 flux (tell file s)
  | n + 1, cdi, s, b, flux =>
    match resolve e b with
    | .stale => .stale
    | .fail => .ret (-2) (flux.modify cdi (e.clobber b)) .top
    | .ok f =>
      let flux := flux.set cdi f
      let (s', b') := getline 512 s b
      if s'.fail then .ret 0 flux .top
      else if dateOf e b' = some (start + cdi + 1) then store e file start n (cdi + 1) s' b' flux
      else .ret (-2) flux .top

/-- The part of `parse_csv_for_date` after the position has been set and the header passed (lines
232-295); `none`: the first record is after the requested interval (lines 242-250). -/
def body (e : Ext) (file : List Line) (start : Int) (n : Nat) (s : Stream) (b : Buf)
    (flux : List Flux) : Option Out :=
  let (s1, b1) := getline 512 s b
  match dateOf e b1 with
  | none => some (.ret (-2) flux .top)
  | some d =>
    if d > start then none
    else
      match search e start (s1.lines.length + 1) s1 b1 d with
      | .error st => some (.ret st flux .top)
      | .ok (s2, b2) => some (store e file start n 0 s2 b2 flux)

/-- `parse_csv_for_date` (lines 191-296); `b` are the bytes of the uninitialised line buffer. -/
def parse (e : Ext) (file : Option (List Line)) (b : Buf) (mjd : Int) (flux : List Flux) (fpos : Pos)
    (before after : Nat) : Out :=
  match file with
  | none => .ret (-1) flux .top
  | some file =>
    let start := mjd - before
    let n := before + 1 + after
    let fromTop : Out :=
      let (s, b1) := getline 512 (seek file .top) b
      if s.fail then .ret (-1) flux .top
      else if strncmpEq header.length (cstr b1 0) header = false then .ret (-1) flux .top
      else (body e file start n s b1 flux).getD (.ret 1 flux .top)
    match fpos with
    | .top => fromTop
    | p => (body e file start n (seek file p) b flux).getD fromTop

/-- The record used for `new_flux` in `get_next` (its fields' defaults; the 3-hour values have
none). -/
def newFlux (missing : ℚ) (junk : List Int) : Flux :=
  ⟨0, missing, missing, missing, missing, missing, missing, junk, []⟩

/-- `get_next` (lines 158-189) for the whole array. -/
def getNext (e : Ext) (file : Option (List Line)) (b : Buf) (mjd : Int) (nf : Flux)
    (flux : List Flux) (fpos : Pos) : Out :=
  match parse e file b mjd [nf] fpos 0 0 with
  | .stale => .stale
  | .ret st got fpos' =>
    if st ≠ 0 then .ret 1 flux fpos'
    else .ret 0 (flux.drop 1 ++ got.take 1) fpos'

/-! ### The feed -/

/-- The members of `InParamsCore` set by the feed (src/atmosphere/nrlmsise00.hpp:191-194). -/
structure Params where
  f107A : ℚ
  f107 : ℚ
  ap : ℚ
  arr : List ℚ
deriving DecidableEq, Repr

/-- The 3-hour value `i` of the record `d` places after the start of the four-day array; `none`:
outside the array. -/
def apAt (flux : List Flux) (d i : Int) : Option Int :=
  if 0 ≤ d ∧ 0 ≤ i then
    match flux[d.toNat]? with
    | none => none
    | some f => f.ap[i.toNat]?
  else none

/-- `--index; if (index < 0) { --cur; index = 7; }`
(src/atmosphere/nrlmsise00_get_flux_data.cpp:70-74, 78-82, 86-90). -/
def back (p : Int × Int) : Int × Int := if p.2 - 1 < 0 then (p.1 - 1, 7) else (p.1, p.2 - 1)

/-- `++index`, wrapping to the next day (lines 117-121, 149-153). -/
def fwd (p : Int × Int) : Int × Int := if p.2 + 1 > 7 then (p.1 + 1, 0) else (p.1, p.2 + 1)

/-- The averaging loops (lines 110-124, 143-156): sum and number of values from `p` up to, not
including, `stop`. -/
def avgLoop (flux : List Flux) (stop : Int × Int) : Nat → Int × Int → Int → Nat → Option ℚ
  | fuel, p, sum, num =>
    if p = stop then some ((sum : ℚ) / (num : ℚ))
    else
      match fuel with
      | 0 => none
      | fuel + 1 =>
        match apAt flux p.1 p.2 with
        | none => none
        | some a => avgLoop flux stop fuel (fwd p) (sum + a) (num + 1)

/-- `init` (lines 32-164); `isec` are the whole seconds of the day.  `none`: a value outside the
array is read. -/
def init (flux : List Flux) (isec : Nat) : Option Params := do
  let today ← flux[3]?
  let yesterday ← flux[2]?
  let p1 : Int × Int := (3, ((isec / 3600 / 3 : Nat) : Int))
  let a1 ← apAt flux p1.1 p1.2
  let p2 := back p1
  let a2 ← apAt flux p2.1 p2.2
  let p3 := back p2
  let a3 ← apAt flux p3.1 p3.2
  let p4 := back p3
  let a4 ← apAt flux p4.1 p4.2
  let s1 : Int × Int := (p4.1 - 1, p4.2)
  let a5 ← avgLoop flux p4 64 s1 0 0
  let s2 : Int × Int := (s1.1 - 1, s1.2)
  let a6 ← avgLoop flux s1 64 s2 0 0
  some ⟨today.f107ObsC81, yesterday.f107Obs, today.apDaily,
    [today.apDaily, (a1 : ℚ), (a2 : ℚ), (a3 : ℚ), (a4 : ℚ), a5, a6]⟩

/-- `Nrlmsise00DataFeed` (src/atmosphere/nrlmsise00.hpp:257-268) together with the parameters it
serves. -/
structure Feed where
  chi : Nat
  mjd : Int
  flux : List Flux
  fpos : Pos
  params : Params
deriving DecidableEq, Repr

/-- What a call of the feed may end in. -/
inductive FeedOut where
  | ok (f : Feed)
  /-- nonzero status; the feed afterwards -/
  | fail (f : Feed)
  /-- a location outside the arrays or after the end of a line was used -/
  | ub
deriving DecidableEq, Repr

/-- Things that are not determined by the arguments: bytes of the line buffer, records before
initialisation, parameters before initialisation. -/
structure Junk where
  buf : Buf
  flux : Flux
  params : Params

/-- Constructor (src/atmosphere/nrlmsise00_get_flux_data.cpp:9-25) for day `day` and whole seconds
`isec`; `none`: an exception is thrown. -/
def construct (e : Ext) (file : Option (List Line)) (j : Junk) (day : Int) (isec : Nat) :
    Option FeedOut :=
  match parse e file j.buf day [j.flux, j.flux, j.flux, j.flux] .top 3 0 with
  | .stale => some .ub
  | .ret st flux fpos =>
    if st ≠ 0 then none
    else
      match init flux isec with
      | none => some .ub
      | some p => some (.ok ⟨isec / 3600 / 3, day, flux, fpos, p⟩)

/-- `update` (lines 166-203). -/
def update (e : Ext) (file : Option (List Line)) (j : Junk) (f : Feed) (day : Int) (isec : Nat) :
    FeedOut :=
  let newMjd := day + ((isec / 86400 : Nat) : Int)
  let finish (f : Feed) : FeedOut :=
    match init f.flux isec with
    | none => .ub
    | some p => .ok { f with params := p, chi := isec / 3600 / 3 }
  if newMjd = f.mjd then
    if isec / 3600 / 3 = f.chi then .ok f else finish f
  else
    let out := if f.mjd + 1 = newMjd then getNext e file j.buf newMjd j.flux f.flux f.fpos
      else parse e file j.buf newMjd f.flux f.fpos 3 0
    match out with
    | .stale => .ub
    | .ret st flux fpos =>
      if st ≠ 0 then .fail { f with flux := flux, fpos := fpos }
      else finish { f with flux := flux, fpos := fpos, mjd := newMjd }

end Verif.SpaceWeather
