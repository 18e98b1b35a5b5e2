import Verif.Spec.Net

/-!
# Specification: IPv6 addresses as in RFC 4291, section 2.2
-/

namespace Fasttld.Spec
open Fasttld

/-- A group: one to four hexadecimal digits. -/
def IsGroup4 (g : Bytes) : Prop := g ≠ [] ∧ g.length ≤ 4 ∧ ∀ c ∈ g, (hexDigit c).isSome

/-- Four decimal octets with dots between them. -/
def IsDotted (q : Bytes) : Prop :=
  ∃ a b c d, IsOctet a ∧ IsOctet b ∧ IsOctet c ∧ IsOctet d ∧ q = a ++ 46 :: (b ++ 46 :: (c ++ 46 :: d))

/-- `n` groups with `:` between them, where a dotted address at the end (if `dotted`) counts as two. -/
inductive Groups4 (dotted : Bool) : Nat → Bytes → Prop
  | one {g} : IsGroup4 g → Groups4 dotted 1 g
  | quad {q} : dotted = true → IsDotted q → Groups4 dotted 2 q
  | cons {g s n} : IsGroup4 g → Groups4 dotted n s → Groups4 dotted (n + 1) (g ++ 58 :: s)

/-- An IPv6 address: eight groups, or fewer with one `::`. -/
def Rfc4291 (s : Bytes) : Prop :=
  Groups4 true 8 s ∨
  ∃ l r n m, ((n = 0 ∧ l = []) ∨ Groups4 false n l) ∧ ((m = 0 ∧ r = []) ∨ Groups4 true m r) ∧ n + m ≤ 7 ∧ s = l ++ 58 :: 58 :: r

/-- What the library allows in an address and RFC 4291 does not: more than four hexadecimal digits in a row, a label
separator other than a dot, a dot at the end. -/
def Beyond4291 (s : Bytes) : Prop :=
  (∃ g, g <:+: s ∧ (∀ c ∈ g, (hexDigit c).isSome) ∧ 4 < g.length) ∨
  (∃ r ∈ separators, r ≠ 46 ∧ encode r <:+: s) ∨ [46] <:+ s

end Fasttld.Spec
