import Verif.Spec.Net
import Verif.Spec.Utf8

/-!
# Interpreted string literals of Go

The Go Programming Language Specification, "String literals" and "Rune literals".
-/

namespace Fasttld.Spec
open Fasttld

/-- Escapes with one letter, and the bytes they stand for: `\a \b \f \n \r \t \v \\ \"`. -/
def simpleEscapes : List (UInt8 × UInt8) :=
  [(97, 7), (98, 8), (102, 12), (110, 10), (114, 13), (116, 9), (118, 11), (92, 92), (34, 34)]

/-- Octal digits. -/
def IsOctal (c : UInt8) : Prop := 48 ≤ c.toNat ∧ c.toNat ≤ 55

/-- Only hexadecimal digits. -/
def AllHex (s : Bytes) : Prop := ∀ c ∈ s, (hexDigit c).isSome

/-- The text between the quotes of an interpreted string literal, and its value. -/
inductive Interpreted : (body value : Bytes) → Prop
  | nil : Interpreted [] []
  | char {r t v} : IsScalar r → r ≠ 10 → r ≠ 34 → r ≠ 92 → Interpreted t v → Interpreted (encode r ++ t) (encode r ++ v)
  | simple {c x t v} : (c, x) ∈ simpleEscapes → Interpreted t v → Interpreted (92 :: c :: t) (x :: v)
  | octal {a b c t v} : IsOctal a → IsOctal b → IsOctal c →
      (a.toNat - 48) * 64 + (b.toNat - 48) * 8 + (c.toNat - 48) < 256 → Interpreted t v →
      Interpreted (92 :: a :: b :: c :: t) (UInt8.ofNat ((a.toNat - 48) * 64 + (b.toNat - 48) * 8 + (c.toNat - 48)) :: v)
  | byte {ds t v} : ds.length = 2 → AllHex ds → Interpreted t v →
      Interpreted (92 :: 120 :: ds ++ t) (UInt8.ofNat (hexValue ds) :: v)
  | short {ds t v} : ds.length = 4 → AllHex ds → IsScalar (hexValue ds) → Interpreted t v →
      Interpreted (92 :: 117 :: ds ++ t) (encode (hexValue ds) ++ v)
  | long {ds t v} : ds.length = 8 → AllHex ds → IsScalar (hexValue ds) → Interpreted t v →
      Interpreted (92 :: 85 :: ds ++ t) (encode (hexValue ds) ++ v)

/-- An interpreted string literal and its value. -/
def IsLiteral (src value : Bytes) : Prop := ∃ body, src = [34] ++ body ++ [34] ∧ Interpreted body value

end Fasttld.Spec
