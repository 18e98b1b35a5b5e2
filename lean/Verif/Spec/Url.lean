import Verif.Spec.Utf8
import Verif.Spec.Chars
import Verif.Spec.Net

/-!
# Specification: the parts of a URL

Relations between a URL and its parts, by concatenation; nothing here computes with indices.
-/

namespace Fasttld.Spec
open Fasttld

/-- A scheme as the library understands it: an optional name (letter, then letters, digits, `+`, `-`,
`.`) with an optional colon, followed by two or more slashes or backslashes. -/
def IsScheme (p : Bytes) : Prop :=
  ∃ name colon sl, p = name ++ colon ++ sl ∧
    ((name = [] ∧ colon = []) ∨
      ((∃ c r, name = c :: r ∧ isLetter c = true ∧ ∀ x ∈ r, isSchemeChar x = true) ∧
        (colon = [] ∨ colon = [58]))) ∧
    2 ≤ sl.length ∧ ∀ x ∈ sl, isSlash x = true

/-- `p` is the longest prefix of `t` that is a scheme, or empty if there is none. -/
def SchemeOf (t p : Bytes) : Prop :=
  (p = [] ∧ ∀ q, IsScheme q → ¬ q <+: t) ∨
  (IsScheme p ∧ p <+: t ∧ ∀ q, IsScheme q → q <+: t → q.length ≤ p.length)

/-- `l` is the longest prefix of `s` without a byte in `stop`, `r` the rest. -/
def CutAt (stop : UInt8 → Bool) (s l r : Bytes) : Prop :=
  s = l ++ r ∧ (∀ c ∈ l, stop c = false) ∧ (r = [] ∨ ∃ c t, r = c :: t ∧ stop c = true)

/-- Userinfo: everything before the last `@` that precedes the first of `/ \ ? # [ ]`; `rest` is what
follows that `@`.  If there is no such `@`, nothing is removed. -/
def UserInfoOf (s ui rest : Bytes) : Prop :=
  ∃ zone more, CutAt isUserInfoStop s zone more ∧
    ((64 ∉ zone ∧ ui = [] ∧ rest = s) ∨
     ∃ y, zone = ui ++ 64 :: y ∧ 64 ∉ y ∧ rest = y ++ more)

/-- The URL without surrounding white space is `scheme`, then `ui` and `@` if there is userinfo, then
`a`, which begins with the host. -/
def Authority (url scheme ui a : Bytes) : Prop :=
  ∃ t rest, IsTrim true true whiteSpace url t ∧ SchemeOf t scheme ∧ t = scheme ++ rest ∧
    UserInfoOf rest ui a

/-- Value of a string of decimal digits. -/
def decValue (s : Bytes) : Nat := s.foldl (fun n c => n * 10 + (c.toNat - 48)) 0

/-- A decimal numeral with value 0..65535. -/
def IsPortNumber (p : Bytes) : Prop := p ≠ [] ∧ (∀ c ∈ p, isDigit c = true) ∧ decValue p ≤ 65535

/-- What the library accepts as a port: a port number, which may have a `+` sign, or a `-` sign if its
value is zero. -/
def IsPort (p : Bytes) : Prop :=
  IsPortNumber p ∨ (∃ q, p = 43 :: q ∧ IsPortNumber q) ∨
    (∃ q, p = 45 :: q ∧ IsPortNumber q ∧ decValue q = 0)

/-- What may follow a host: nothing, a path, or `:`, a port and perhaps a path. -/
def AfterHost (after port path : Bytes) : Prop :=
  (path = [] ∨ ∃ c t, path = c :: t ∧ isPathStart c = true) ∧
  ((port = [] ∧ after = path) ∨ (IsPort port ∧ after = 58 :: port ++ path))

/-- Unbracketed host text: none of `/ \ ? # : [ ]`. -/
def IsPlainHost (h : Bytes) : Prop := ∀ c ∈ h, isHostEnd c = false ∧ c ≠ 91 ∧ c ≠ 93

/-- Percent-decoding of a host: `%` and two hexadecimal digits stand for a byte, `+` for a space, any other byte
but `%` for itself. -/
inductive Decodes : Bytes → Bytes → Prop
  | nil : Decodes [] []
  | escape {h l : UInt8} {n m : Nat} {t r : Bytes} : hexDigit h = some n → hexDigit l = some m → Decodes t r →
      Decodes (37 :: h :: l :: t) (UInt8.ofNat (16 * n + m) :: r)
  | plus {t r : Bytes} : Decodes t r → Decodes (43 :: t) (32 :: r)
  | byte {c : UInt8} {t r : Bytes} : c ≠ 37 → c ≠ 43 → Decodes t r → Decodes (c :: t) (c :: r)

/-- Some `%` is not followed by two hexadecimal digits. -/
def BadEscape (s : Bytes) : Prop :=
  ∃ a b, s = a ++ 37 :: b ∧ ∀ h l t n m, b = h :: l :: t → hexDigit h = some n → hexDigit l ≠ some m

end Fasttld.Spec
