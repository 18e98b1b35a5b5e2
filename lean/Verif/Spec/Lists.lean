import Verif.Spec.Exact

/-!
# Specification: conditions on the list under which other claims hold for all URLs
-/

namespace Fasttld.Spec
open Fasttld

/-- The top-level label of every rule is itself a rule, or the parent of a wildcard - if that rule can be reached: no
wildcard stands for one of its labels. -/
def Anchored (rules : List Bytes) : Prop :=
  ∀ t p, RuleAt rules (t :: p) → Reached rules (t :: p) → RuleAt rules [t] ∨ PrefixAt rules [t, star]

/-- No rule of two or more labels has an octet as top-level label - or there are rules with a wildcard at the top. -/
def NoOctetTop (rules : List Bytes) : Prop :=
  PrefixAt rules [star] ∨ ∀ o x, IsOctet o → ¬ PrefixAt rules [o, x]

end Fasttld.Spec
