import Verif.Model.Print

/-!
# Specification: output
-/

namespace Fasttld.Spec
open Fasttld

/-- The components with their names, in the order they are shown. -/
def components (url : Bytes) (r : ExtractResult) : List (Bytes × Bytes) :=
  [(b! "url", url), (b! "scheme", r.scheme), (b! "userinfo", r.userInfo), (b! "subdomain", r.subDomain),
   (b! "domain", r.domain), (b! "suffix", r.suffix), (b! "registered domain", r.registeredDomain),
   (b! "port", r.port), (b! "path", r.path)]

/-- The name of the host type. -/
def hostTypeName : HostType → Bytes
  | .none => []
  | .hostName => b! "hostname"
  | .iPv4 => b! "ipv4 address"
  | .iPv6 => b! "ipv6 address"

/-- Names are set flush right in a column of 17, with a colon. -/
def column (name : Bytes) : Bytes := List.replicate (17 - name.length) 32 ++ name ++ b! ": "

/-- The text of the output. -/
def textOf (out : List Chunk) : Bytes := out.flatMap Chunk.text

/-- All lines: one for each component, one for the host type, and an empty one. -/
def resultLines (url : Bytes) (r : ExtractResult) : List Bytes :=
  (components url r ++ [(b! "host type", hostTypeName r.hostType)]).map (fun c => column c.1 ++ c.2) ++ [[]]

/-- No line breaks in the URL and the result. -/
def OneLiners (url : Bytes) (r : ExtractResult) : Prop := ∀ c ∈ components url r, (10 : UInt8) ∉ c.2

/-- Go's raw string literals (language specification, "String literals"): between back quotes, any characters
except back quote; carriage returns are discarded.  `rest` is what follows the literal. -/
inductive RawString (src value rest : Bytes) : Prop
  | mk (inner : Bytes) (h : src = [96] ++ inner ++ [96] ++ rest) (hq : (96 : UInt8) ∉ inner)
      (hv : value = inner.filter (· ≠ 13))

end Fasttld.Spec
