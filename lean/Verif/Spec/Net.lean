import Verif.Spec.Utf8
import Verif.Spec.Chars

/-!
# Specification: textual IP addresses
-/

namespace Fasttld.Spec
open Fasttld

/-- Decimal notation of a number. -/
def decimal (n : Nat) : Bytes :=
  if n < 10 then [UInt8.ofNat (48 + n)] else decimal (n / 10) ++ [UInt8.ofNat (48 + n % 10)]

/-- A decimal octet: the notation of a number up to 255 (so no leading zeros). -/
def IsOctet (d : Bytes) : Prop := ∃ n, n ≤ 255 ∧ d = decimal n

/-- Four octets with a label separator between them. -/
def IsQuad (q : Bytes) : Prop :=
  ∃ a b c d r1 r2 r3, IsOctet a ∧ IsOctet b ∧ IsOctet c ∧ IsOctet d ∧
    r1 ∈ separators ∧ r2 ∈ separators ∧ r3 ∈ separators ∧
    q = a ++ encode r1 ++ b ++ encode r2 ++ c ++ encode r3 ++ d

/-- A dotted quad followed by any number of label separators. -/
def IsIPv4 (s : Bytes) : Prop := ∃ q t, IsQuad q ∧ MadeOf separators t ∧ s = q ++ t

/-- Value of a hexadecimal digit. -/
def hexDigit (c : UInt8) : Option Nat :=
  if isDigit c then some (c.toNat - 48)
  else if 97 ≤ c.toNat ∧ c.toNat ≤ 102 then some (c.toNat - 87)
  else if 65 ≤ c.toNat ∧ c.toNat ≤ 70 then some (c.toNat - 55)
  else none

/-- Value of a string of hexadecimal digits. -/
def hexValue (s : Bytes) : Nat := s.foldl (fun n c => n * 16 + (hexDigit c).getD 0) 0

/-- A 16-bit group: at least one hexadecimal digit, value at most 0xFFFF. -/
def IsGroup (g : Bytes) : Prop := g ≠ [] ∧ (∀ c ∈ g, (hexDigit c).isSome) ∧ hexValue g ≤ 0xFFFF

/-- `Groups quad n s`: `s` is `:`-separated 16-bit groups; they are `n` groups, where a last piece in
dotted notation (`quad`) counts as two. -/
inductive Groups (quad : Bytes → Prop) : Nat → Bytes → Prop
  | one {g} : IsGroup g → Groups quad 1 g
  | dotted {q} : quad q → Groups quad 2 q
  | cons {g s n} : IsGroup g → Groups quad n s → Groups quad (n + 1) (g ++ 58 :: s)

/-- Groups, possibly none at all. -/
def OptGroups (quad : Bytes → Prop) (n : Nat) (s : Bytes) : Prop := (n = 0 ∧ s = []) ∨ Groups quad n s

/-- Textual IPv6 address (RFC 4291, section 2.2): eight groups, or `::` standing for at least one
missing group.  `quad` is the notation allowed for the last two groups. -/
def IsIPv6 (quad : Bytes → Prop) (s : Bytes) : Prop :=
  Groups quad 8 s ∨
  ∃ l r n m, OptGroups (fun _ => False) n l ∧ OptGroups quad m r ∧ n + m ≤ 7 ∧
    s = l ++ 58 :: 58 :: r

end Fasttld.Spec
