import Mathlib.Data.Int.Order.Basic

/-!
Model of the download loop of script/fetch_iers_c04.py: which bulletins are fetched, which of them are
kept, and in which order they are merged.

Simplifications: dates are day numbers (the script parses them with `%Y-%m-%d`, so they have no time of
day).  The server is a function from the number of a bulletin to the first and last date of its final
data; `none` stands for a bulletin that cannot be fetched or parsed, for which the script raises an
exception.  The names of the downloaded files are the numbers of the bulletins.
-/
namespace Verif.Script.Fetch

/-- What the server has: first and last date of the final data of a bulletin
(`c04_date_span`, script/fetch_iers_c04.py:218-224). -/
abbrev Server := Int → Option (Int × Int)

/-- An entry of `files_to_merge` (script/fetch_iers_c04.py:327). -/
structure File where
  nr : Int
  t0 : Int
  tn : Int
deriving DecidableEq, Repr

/-- The variables of the loop (script/fetch_iers_c04.py:291-299). -/
structure St where
  guess : Int
  prior : Bool
  post : Bool
  files : List File
  it : Nat
deriving DecidableEq, Repr

/-- `files_to_merge[local] = …` (script/fetch_iers_c04.py:327): the entry of that name is replaced, a new
name goes to the end. -/
def put (fs : List File) (f : File) : List File :=
  if fs.any (·.nr == f.nr) then fs.map (fun g => if g.nr == f.nr then f else g) else fs ++ [f]

/-- The condition of the loop (script/fetch_iers_c04.py:300): `and` binds stronger than `or`. -/
def goesOn (s : St) : Bool := !s.prior || (!s.post && decide (s.it < 1000))

/-- The body of the loop (script/fetch_iers_c04.py:302-339); `none`: an exception is raised. -/
def body (srv : Server) (ts te : Int) (s : St) : Option St :=
  match srv s.guess with
  | none => none
  | some (d0, dn) =>
    let useA := !s.prior && (decide (d0 < ts) && decide (ts < dn))
    let useB := !s.post && (decide (d0 < te) && decide (te < dn))
    let prior := s.prior || useA
    let post := s.post || useB
    let files := if useA || useB then put s.files ⟨s.guess, d0, dn⟩ else s.files
    if d0 > ts then some ⟨s.guess - 1, prior, post, files, s.it + 1⟩
    else if dn < te then some ⟨s.guess + 1, prior, post, files, s.it + 1⟩
    else if prior && post then some ⟨s.guess, prior, post, files, s.it + 1⟩
    else none

/-- Where the loop is after some passes. -/
inductive Run where
  | running (s : St)
  | done (s : St)
  | raised
deriving DecidableEq, Repr

/-- At most `n` passes of the loop (script/fetch_iers_c04.py:300-339). -/
def run (srv : Server) (ts te : Int) : Nat → St → Run
  | 0, s => .running s
  | n + 1, s =>
    if goesOn s then
      match body srv ts te s with
      | none => .raised
      | some s' => run srv ts te n s'
    else .done s

/-- Day number of `bc04_first_date`, 2008-12-12, as modified Julian day (script/fetch_iers_c04.py:71). -/
def firstDate : Int := 54812

/-- The first guess (script/fetch_iers_c04.py:70 and 299). -/
def firstGuess (ts : Int) : Int := 252 + Int.fdiv (ts - firstDate) 31

/-- The variables before the loop (script/fetch_iers_c04.py:291-299). -/
def start (g : Int) : St := ⟨g, false, false, [], 0⟩

/-- `vals['t0'] < ct` (script/fetch_iers_c04.py:235); `none` stands for `datetime.datetime.max`. -/
def before (t : Int) : Option Int → Bool
  | none => true
  | some c => decide (t < c)

/-- The loop of `c04_dict_to_sorted_list` (script/fetch_iers_c04.py:232-240). -/
def sortLoop : List File → List File → Option Int → List File
  | [], lst, _ => lst
  | f :: fs, lst, ct =>
    if before f.t0 ct then sortLoop fs (f :: lst) (some f.t0)
    else
      let lst' := lst ++ [f]
      sortLoop fs lst' (if lst'.length = 1 then some f.t0 else ct)

/-- `c04_dict_to_sorted_list` (script/fetch_iers_c04.py:231-241). -/
def sorted (fs : List File) : List File := sortLoop fs [] none

/-- The whole program (script/fetch_iers_c04.py:286-345): the bulletins that are merged, in the order in
which `c04_cat` writes them; `none` while the loop has not ended after `n` passes, or after an exception. -/
def fetch (srv : Server) (t : Int) (limit : Int) (n : Nat) : Option (List File) :=
  match run srv (t - limit) (t + limit) n (start (firstGuess (t - limit))) with
  | .done s => some (sorted s.files)
  | _ => none

end Verif.Script.Fetch
