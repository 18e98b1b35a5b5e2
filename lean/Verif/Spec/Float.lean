/-!
# Specification: comparing hours as floating-point numbers

psl.go:138-140 and fasttld.go:418 compare `time.Now().Sub(modTime).Hours()` with `float64(72)`.
-/

namespace Fasttld.Spec

/-- The value of a `float64` that is neither infinite nor a NaN (IEEE 754, binary64). -/
def IsFloat64 (x : Rat) : Prop := ∃ (m : Int) (e : Nat), m.natAbs < 2 ^ 53 ∧ ((e ≤ 971 ∧ x = m * 2 ^ e) ∨ (e ≤ 1074 ∧ x = m / 2 ^ e))

/-- A way of rounding: `round x` is a `float64`, and none lies between `x` and it.  Rounding to nearest, as in Go, is
one. -/
structure IsRounding (round : Rat → Rat) : Prop where
  float : ∀ x, IsFloat64 (round x)
  nearest : ∀ x y, IsFloat64 y → (x ≤ y → round x ≤ y) ∧ (y ≤ x → y ≤ round x)

/-- `Time.Sub`: the difference in nanoseconds, if it is an `int64`, or the nearest `int64`. -/
def saturate (d : Int) : Int := if d < -2 ^ 63 then -2 ^ 63 else if 2 ^ 63 ≤ d then 2 ^ 63 - 1 else d

/-- `Duration.Hours`: `float64(d/Hour) + float64(d%Hour)/(60*60*1e9)`, with the division of Go, which rounds towards zero. -/
def hours (round : Rat → Rat) (d : Int) : Rat :=
  round (round ((d.tdiv 3600000000000 : Int) : Rat) + round (round ((d.tmod 3600000000000 : Int) : Rat) / 3600000000000))

end Fasttld.Spec
