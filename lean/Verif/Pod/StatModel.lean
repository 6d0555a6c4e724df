import Mathlib.Analysis.Real.Sqrt

/-
Model of the running statistics and of the outlier test of the orbit determination program
(test/rinex_pod.cpp).  Doubles are real numbers; the counter is unbounded (in the code an
`unsigned long`).
-/
namespace Verif.Pod

/-- `RunningStatistics` (test/rinex_pod.cpp:48-50). -/
structure Running where
  mean : ℝ
  var : ℝ
  k : Nat

/-- The initial values (test/rinex_pod.cpp:49-50). -/
def Running.new : Running := ⟨0, 0, 1⟩

/-- `update` (test/rinex_pod.cpp:52-57). -/
noncomputable def Running.update (s : Running) (x : ℝ) : Running :=
  let new_mean := s.mean + (x - s.mean) / (s.k : ℝ)
  let var := s.var + (x - s.mean) * (x - new_mean)
  ⟨new_mean, var, s.k + 1⟩

/-- `count` (test/rinex_pod.cpp:59). -/
def Running.count (s : Running) : Nat := s.k - 1

/-- `variance` (test/rinex_pod.cpp:61); with a count of 0 the code gives NaN, the model 0. -/
noncomputable def Running.variance (s : Running) : ℝ := s.var / ((s.k - 1 : Nat) : ℝ)

/-- `stddev` (test/rinex_pod.cpp:62). -/
noncomputable def Running.stddev (s : Running) : ℝ := √s.variance

/-- The statistics after a list of values. -/
noncomputable def Running.after (xs : List ℝ) : Running := xs.foldl Running.update Running.new

/-- The threshold of a residual seen at an elevation with sine `sinEl`
(test/rinex_pod.cpp:937-940). -/
noncomputable def threshold (s : Running) (sinEl : ℝ) : ℝ :=
  if s.count > 5 then 30 * s.stddev / sinEl else 1000

open Classical in
/-- The outlier test with its effect on the statistics (test/rinex_pod.cpp:941-943, 1004-1013): the
result says whether the residual is used. -/
noncomputable def screen (s : Running) (oc sinEl : ℝ) : Running × Bool :=
  if |oc| < threshold s sinEl then (s.update oc, true) else (s, false)

/-- Screening a sequence of residuals with the sines of their elevations. -/
noncomputable def screenAll : Running → List (ℝ × ℝ) → Running × List Bool
  | s, [] => (s, [])
  | s, (oc, se) :: l =>
    let r := screen s oc se
    let q := screenAll r.1 l
    (q.1, r.2 :: q.2)

end Verif.Pod
