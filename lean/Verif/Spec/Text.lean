import Verif.Spec.Utf8
import Verif.Model.Extract

/-!
# Specification: text
-/

namespace Fasttld.Spec
open Fasttld

/-- `s` is the UTF-8 encoding of a sequence of characters. -/
def ValidUtf8 (s : Bytes) : Prop := ∃ cs : List Nat, (∀ c ∈ cs, IsScalar c) ∧ s = cs.flatMap encode

/-- All texts of a result are. -/
structure TextResult (r : ExtractResult) : Prop where
  scheme : ValidUtf8 r.scheme
  userInfo : ValidUtf8 r.userInfo
  subDomain : ValidUtf8 r.subDomain
  domain : ValidUtf8 r.domain
  suffix : ValidUtf8 r.suffix
  registeredDomain : ValidUtf8 r.registeredDomain
  port : ValidUtf8 r.port
  path : ValidUtf8 r.path

end Fasttld.Spec
