import Verif.Spec.Url
import Verif.Spec.Rfc

/-!
# Specification: URIs with an authority, as in RFC 3986

The grammar of RFC 3986, appendix A, as far as it concerns `scheme "://" authority path-abempty [ "?" query ]
[ "#" fragment ]`.  Nothing here refers to the library.
-/

namespace Fasttld.Spec
open Fasttld

/-- unreserved = ALPHA / DIGIT / "-" / "." / "_" / "~" -/
def isUnreserved (c : UInt8) : Bool := isLetter c || isDigit c || c == 45 || c == 46 || c == 95 || c == 126

/-- sub-delims = "!" / "$" / "&" / "'" / "(" / ")" / "*" / "+" / "," / ";" / "=" -/
def isSubDelim (c : UInt8) : Bool :=
  c == 33 || c == 36 || c == 38 || c == 39 || c == 40 || c == 41 || c == 42 || c == 43 || c == 44 || c == 59 || c == 61

/-- `*( ok / pct-encoded )`, where pct-encoded = "%" HEXDIG HEXDIG. -/
inductive UriText (ok : UInt8 → Bool) : Bytes → Prop
  | nil : UriText ok []
  | char {c : UInt8} {t : Bytes} : ok c = true → UriText ok t → UriText ok (c :: t)
  | escape {h l : UInt8} {t : Bytes} : (hexDigit h).isSome = true → (hexDigit l).isSome = true → UriText ok t →
      UriText ok (37 :: h :: l :: t)

/-- reg-name = *( unreserved / pct-encoded / sub-delims ); IPv4address is a special case. -/
def IsRegName (h : Bytes) : Prop := UriText (fun c => isUnreserved c || isSubDelim c) h

/-- userinfo = *( unreserved / pct-encoded / sub-delims / ":" ) -/
def IsUserInfo (u : Bytes) : Prop := UriText (fun c => isUnreserved c || isSubDelim c || c == 58) u

/-- segment = *pchar, pchar = unreserved / pct-encoded / sub-delims / ":" / "@"; path-abempty = *( "/" segment ) -/
def IsUriPath (p : Bytes) : Prop :=
  UriText (fun c => isUnreserved c || isSubDelim c || c == 58 || c == 64 || c == 47) p ∧
    (p = [] ∨ ∃ t, p = 47 :: t)

/-- query = *( pchar / "/" / "?" ), and fragment likewise -/
def IsUriQuery (q : Bytes) : Prop :=
  UriText (fun c => isUnreserved c || isSubDelim c || c == 58 || c == 64 || c == 47 || c == 63) q

/-- IPvFuture = "v" 1*HEXDIG "." 1*( unreserved / sub-delims / ":" ) -/
def IsIPvFuture (s : Bytes) : Prop :=
  ∃ v x y, s = v :: x ++ 46 :: y ∧ (v = 118 ∨ v = 86) ∧ x ≠ [] ∧ (∀ c ∈ x, (hexDigit c).isSome = true) ∧ y ≠ [] ∧
    ∀ c ∈ y, (isUnreserved c || isSubDelim c || c == 58) = true

/-- scheme = ALPHA *( ALPHA / DIGIT / "+" / "-" / "." ) -/
def IsSchemeName (s : Bytes) : Prop := ∃ c r, s = c :: r ∧ isLetter c = true ∧ ∀ x ∈ r, isSchemeChar x = true

/-- host = IP-literal / IPv4address / reg-name, without the brackets of an IP-literal. -/
inductive UriHost
  | regName (h : Bytes)
  | ipv6 (s : Bytes)
  | ipvFuture (s : Bytes)

/-- The host as written. -/
def UriHost.text : UriHost → Bytes
  | .regName h => h
  | .ipv6 s => 91 :: s ++ [93]
  | .ipvFuture s => 91 :: s ++ [93]

/-- A host that RFC 3986 allows. -/
def UriHost.Valid : UriHost → Prop
  | .regName h => IsRegName h
  | .ipv6 s => Rfc4291 s
  | .ipvFuture s => IsIPvFuture s

/-- The components of a URI with an authority.  An absent component is different from an empty one. -/
structure Uri where
  scheme : Bytes
  userinfo : Option Bytes := none
  host : UriHost
  port : Option Bytes := none
  path : Bytes := []
  query : Option Bytes := none
  fragment : Option Bytes := none

/-- A component with its delimiter before it, if it is there. -/
def led (c : UInt8) : Option Bytes → Bytes
  | none => []
  | some s => c :: s

/-- `[ userinfo "@" ] host [ ":" port ]` -/
def Uri.authority (u : Uri) : Bytes :=
  (match u.userinfo with
   | none => []
   | some x => x ++ [64]) ++ u.host.text ++ led 58 u.port

/-- Path, query and fragment as written. -/
def Uri.tail (u : Uri) : Bytes := u.path ++ led 63 u.query ++ led 35 u.fragment

/-- RFC 3986, section 5.3: the text of a URI. -/
def Uri.text (u : Uri) : Bytes := u.scheme ++ [58, 47, 47] ++ u.authority ++ u.tail

/-- All components are as the grammar demands; port = *DIGIT. -/
structure Uri.Valid (u : Uri) : Prop where
  scheme : IsSchemeName u.scheme
  userinfo : ∀ x, u.userinfo = some x → IsUserInfo x
  host : u.host.Valid
  port : ∀ p, u.port = some p → ∀ c ∈ p, isDigit c = true
  path : IsUriPath u.path
  query : ∀ q, u.query = some q → IsUriQuery q
  fragment : ∀ f, u.fragment = some f → IsUriQuery f

/-- There is no port, or one that exists: a decimal number up to 65535. -/
def Uri.PortExists (u : Uri) : Prop := ∀ p, u.port = some p → p ≠ [] ∧ decValue p ≤ 65535

end Fasttld.Spec
