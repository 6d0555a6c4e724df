import Verif.Float.ResidualModel

/-
Model of the arithmetic of `extrapolate_coordinates` (src/ids/get_pdop_crd.cpp:47-53) in doubles.  `as_mjd()` belongs to
the date library: the number of the day plus the quotient of the microseconds of the day by those of a day.
-/
namespace Verif.Float.Station

/-- `as_mjd()` of day `d` and microsecond `us` of the day (src/ids/get_pdop_crd.cpp:48-49). -/
noncomputable def mjdD (rnd : ℝ → ℝ) (d us : ℤ) : ℝ := rnd (d + rnd (us / 86400000000))

/-- Years between two dates (src/ids/get_pdop_crd.cpp:50). -/
noncomputable def yearsD (rnd : ℝ → ℝ) (at_ ref : ℝ) : ℝ := rnd (rnd (at_ - ref) / (36525 / 100))

/-- One coordinate (src/ids/get_pdop_crd.cpp:53); `fused`: product and sum are one operation. -/
noncomputable def coordD (rnd : ℝ → ℝ) (fused : Bool) (est vel dt : ℝ) : ℝ :=
  if fused then rnd (est + vel * dt) else rnd (est + rnd (vel * dt))

/-- The coordinate at a date, from the estimate at another (src/ids/get_pdop_crd.cpp:47-53). -/
noncomputable def extrapD (rnd : ℝ → ℝ) (fused : Bool) (est vel : ℝ) (d us d0 us0 : ℤ) : ℝ :=
  coordD rnd fused est vel (yearsD rnd (mjdD rnd d us) (mjdD rnd d0 us0))

end Verif.Float.Station
