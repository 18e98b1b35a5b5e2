import Verif.Model.Go

/-!
# Specification: UTF-8

Independent of the decoder of the model: Unicode scalar values, their UTF-8 encoding, and what it
means that a character occurs in a byte string.
-/

namespace Fasttld.Spec
open Fasttld

/-- Unicode scalar values: code points without the surrogates. -/
def IsScalar (r : Nat) : Prop := r < 0xD800 ∨ (0xE000 ≤ r ∧ r ≤ 0x10FFFF)

instance (r : Nat) : Decidable (IsScalar r) := by unfold IsScalar; infer_instance

/-- UTF-8 encoding (RFC 3629, section 3). -/
def encode (r : Nat) : Bytes :=
  if r < 0x80 then [UInt8.ofNat r]
  else if r < 0x800 then [UInt8.ofNat (0xC0 + r / 64), UInt8.ofNat (0x80 + r % 64)]
  else if r < 0x10000 then
    [UInt8.ofNat (0xE0 + r / 4096), UInt8.ofNat (0x80 + r / 64 % 64), UInt8.ofNat (0x80 + r % 64)]
  else
    [UInt8.ofNat (0xF0 + r / 262144), UInt8.ofNat (0x80 + r / 4096 % 64),
     UInt8.ofNat (0x80 + r / 64 % 64), UInt8.ofNat (0x80 + r % 64)]

/-- The character `r` occurs in `s` at byte offset `i`. -/
def OccursAt (s : Bytes) (r : Nat) (i : Nat) : Prop :=
  ∃ p q, s = p ++ encode r ++ q ∧ p.length = i

/-- No character of `set` occurs anywhere in `s`. -/
def FreeOf (set : List Nat) (s : Bytes) : Prop := ∀ r ∈ set, ¬ encode r <:+: s

/-- `s` is a sequence of characters of `set`. -/
def MadeOf (set : List Nat) (s : Bytes) : Prop :=
  ∃ cs : List Nat, (∀ c ∈ cs, c ∈ set) ∧ s = cs.flatMap encode

/-- `t` is `s` with the characters of `set` removed from the left end (if `left`) and from the right
end (if `right`), as many as there are, and nothing else. -/
def IsTrim (left right : Bool) (set : List Nat) (s t : Bytes) : Prop :=
  ∃ a b, s = a ++ t ++ b ∧ MadeOf set a ∧ MadeOf set b ∧
    (left = false → a = []) ∧ (right = false → b = []) ∧
    (left = true → ∀ r ∈ set, ¬ encode r <+: t) ∧ (right = true → ∀ r ∈ set, ¬ encode r <:+ t)

end Fasttld.Spec
