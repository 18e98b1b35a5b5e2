import Verif.Model.System
import Verif.Proofs.Float

/-!
# C42: the comparison of hours
-/

namespace Fasttld.Props
open Fasttld Spec

/-- C42: the comparison of hours as `float64` numbers, for all times and for every way of rounding, is the comparison of
nanoseconds in the model. -/
theorem C42_hours {round : Rat → Rat} (hr : IsRounding round) (now modTime : Int) :
    72 < hours round (saturate (now - modTime)) ↔ pslMaxAge < now - modTime := hours_iff hr _

/-- Such a way of rounding exists. -/
example : ∃ round, IsRounding round := rounding_exists

/-- A nanosecond more than 72 hours counts, exactly 72 hours do not. -/
example {round : Rat → Rat} (hr : IsRounding round) :
    72 < hours round 259200000000001 ∧ ¬ 72 < hours round 259200000000000 :=
  ⟨(hours_iff hr 259200000000001).2 (by decide), fun h => absurd ((hours_iff hr 259200000000000).1 h) (by decide)⟩

end Fasttld.Props
