import Verif.Model.Go

/-!
# Standard library pieces used by Extract: url.QueryUnescape, strconv.Atoi
-/

namespace Fasttld

/-- `ishex` of net/url. -/
def isHexDigit (c : UInt8) : Bool :=
  (48 ≤ c.toNat && c.toNat ≤ 57) || (97 ≤ c.toNat && c.toNat ≤ 102) || (65 ≤ c.toNat && c.toNat ≤ 70)

/-- `unhex` of net/url. -/
def unhexDigit (c : UInt8) : Nat :=
  if 48 ≤ c.toNat ∧ c.toNat ≤ 57 then c.toNat - 48
  else if 97 ≤ c.toNat ∧ c.toNat ≤ 102 then c.toNat - 97 + 10
  else if 65 ≤ c.toNat ∧ c.toNat ≤ 70 then c.toNat - 65 + 10
  else 0

/-- `url.QueryUnescape` (net/url, mode encodeQueryComponent): `%XX` is decoded, `+` becomes a space,
a malformed escape is an error carrying at most three bytes.  Called at fasttld.go:262, 319. -/
def queryUnescape : Bytes → Except Bytes Bytes
  | [] => .ok []
  | 37 :: h :: l :: t =>
    if isHexDigit h && isHexDigit l then
      match queryUnescape t with
      | .ok r => .ok (UInt8.ofNat (unhexDigit h * 16 + unhexDigit l) :: r)
      | .error e => .error e
    else .error [37, h, l]
  | [37, h] => .error [37, h]
  | [37] => .error [37]
  | c :: t =>
    match queryUnescape t with
    | .ok r => .ok ((if c = 43 then 32 else c) :: r)
    | .error e => .error e

/-- Decimal digits to number, `none` if some byte is not a digit. -/
def digitsVal : Bytes → Nat → Option Nat
  | [], n => some n
  | c :: rest, n => if 48 ≤ c.toNat ∧ c.toNat ≤ 57 then digitsVal rest (n * 10 + (c.toNat - 48)) else none

/-- Unsigned part of `strconv.Atoi`: at least one digit. -/
def atoiDigits (s : Bytes) : Option Nat := if s = [] then none else digitsVal s 0

/-- `strconv.Atoi` (strconv): optional sign, then at least one decimal digit; `none` on a syntax or
range error for a 64-bit `int`.  Called at fasttld.go:243. -/
def atoi (s : Bytes) : Option Int :=
  match s with
  | 45 :: t =>
    match atoiDigits t with
    | some n => if n ≤ 9223372036854775808 then some (-(n : Int)) else none
    | none => none
  | 43 :: t =>
    match atoiDigits t with
    | some n => if n ≤ 9223372036854775807 then some (n : Int) else none
    | none => none
  | t =>
    match atoiDigits t with
    | some n => if n ≤ 9223372036854775807 then some (n : Int) else none
    | none => none

end Fasttld
