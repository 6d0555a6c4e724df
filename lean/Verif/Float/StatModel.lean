import Verif.Float.Format

/-
Model of the running statistics of the orbit determination program in double arithmetic: every
operation is followed by a rounding `rnd`.  A compiler may fuse the product and the sum of the
update of `_var` into one operation with one rounding (the release build has `-march=native`);
`fused` says whether it does.  The counter is unbounded and its conversion to double rounded.
-/
namespace Verif.Float

variable {K : Type} [Field K]

/-- `RunningStatistics` (test/rinex_pod.cpp:48-50). -/
structure Stat (K : Type) where
  mean : K
  var : K
  k : Nat

/-- The initial values (test/rinex_pod.cpp:49-50). -/
def Stat.new : Stat K := ⟨0, 0, 1⟩

/-- `update` (test/rinex_pod.cpp:52-57), with the rounding of each operation. -/
def Stat.update (rnd : K → K) (fused : Bool) (s : Stat K) (x : K) : Stat K :=
  let new_mean := rnd (s.mean + rnd (rnd (x - s.mean) / rnd (s.k : K)))
  let a := rnd (x - s.mean)
  let b := rnd (x - new_mean)
  let var := if fused then rnd (s.var + a * b) else rnd (s.var + rnd (a * b))
  ⟨new_mean, var, s.k + 1⟩

/-- `variance` (test/rinex_pod.cpp:61); without values the code gives NaN, the model 0. -/
def Stat.variance (rnd : K → K) (s : Stat K) : K := rnd (s.var / rnd ((s.k - 1 : Nat) : K))

/-- The statistics after a list of values (test/rinex_pod.cpp:599, 943). -/
def Stat.after (rnd : K → K) (fused : Bool) (xs : List K) : Stat K :=
  xs.foldl (Stat.update rnd fused) Stat.new

end Verif.Float
