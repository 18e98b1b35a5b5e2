import Verif.Spec.Host
import Verif.Spec.Rules

/-!
# Specification: a longer list that only divides suffixes further
-/

namespace Fasttld.Spec
open Fasttld

/-- `more` has all rules of `rules`, and those that it adds are in harmony with them. -/
structure Refines (rules more : List Bytes) : Prop where
  rule : ∀ p, RuleAt rules p → RuleAt more p
  /-- there is no new wildcard beside older rules -/
  star : ∀ q, PrefixAt more (q ++ [star]) → PrefixAt rules (q ++ [star]) ∨ ∀ x, ¬ PrefixAt rules (q ++ [x])
  /-- there is no new exception from an older wildcard -/
  exception : ∀ q l, PrefixAt rules (q ++ [Spec.star]) → PrefixAt more (q ++ [33 :: l]) → PrefixAt rules (q ++ [33 :: l])
  /-- every top-level label is already a rule, or the parent of a wildcard, unless nothing is added below it -/
  top : ∀ t, PrefixAt more [t] → (RuleAt rules [t] ∨ PrefixAt rules [t, Spec.star]) ∨ SameBelow rules more t
  /-- no wildcard at the top -/
  noTop : ¬ PrefixAt more [Spec.star]

/-- `s` is `t`, or `t` with more labels in front. -/
def EndsInLabels (s t : Bytes) : Prop := s = t ∨ ∃ x, ∃ c ∈ separators, s = x ++ encode c ++ t

end Fasttld.Spec
