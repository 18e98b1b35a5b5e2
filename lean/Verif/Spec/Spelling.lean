import Verif.Spec.Extract
import Verif.Spec.Exact
import Verif.Spec.Punycode

/-!
# Specification: the same host in Unicode and in Punycode
-/

namespace Fasttld.Spec
open Fasttld

/-- A text in UTF-8 that is not in Punycode already. -/
def InUnicode (l : Bytes) : Prop := Punycode.IsText l ∧ ¬ b! "xn--" <+: l

/-- The labels of the rules are in Unicode, and those of exceptions in ASCII. -/
structure UnicodeRules (rules : List Bytes) : Prop where
  label : ∀ r ∈ rules, ∀ ls, IsLabels r ls → ∀ l ∈ ls, InUnicode l
  exception : ∀ r ∈ rules, ∀ ls, IsLabels r ls → ∀ l, 33 :: l ∈ ls → (∀ b ∈ l, b < 128) ∧ ¬ b! "xn--" <+: l

/-- The rules are converted label by label, to Punycode. -/
def ToPunycode (toASCII : Bytes → Option Bytes) (rules : List Bytes) : Prop :=
  ∀ r ∈ rules, ∀ ls, IsLabels r ls → toASCII r = some (List.intercalate [46] (ls.map Punycode.label))

/-- Labels with the separators before them, in Punycode. -/
def punyRest (rest : List (Nat × Bytes)) : List (Nat × Bytes) := rest.map fun p => (p.1, Punycode.label p.2)

/-- `y` is `x` with its labels in Punycode. -/
def Converted (x y : Bytes) : Prop :=
  ∃ first rest, FreeOf separators first ∧ (∀ p ∈ rest, p.1 ∈ separators ∧ FreeOf separators p.2) ∧
    x = joinLabels first rest ∧ y = joinLabels (Punycode.label first) (punyRest rest)

/-- The host `n`, of labels in Unicode as they can occur in host names, and the same host in Punycode. -/
def SameHost (n n' : Bytes) : Prop :=
  ∃ first rest tail, HostShape n first rest tail ∧ (∀ l ∈ fromRight first rest, GoodLabel l ∧ InUnicode l) ∧
    n' = joinLabels (Punycode.label first) (punyRest rest) ++ tail

/-- A host name was found in both, divided in the same way. -/
structure SameParts (r r' : ExtractResult) : Prop where
  hostType : r.hostType = .hostName ∧ r'.hostType = .hostName
  subDomain : Converted r.subDomain r'.subDomain
  domain : Converted r.domain r'.domain
  suffix : Converted r.suffix r'.suffix
  registered : Converted r.registeredDomain r'.registeredDomain

end Fasttld.Spec
