import Verif.Model.Go

/-!
# Specification: ASCII character classes
-/

namespace Fasttld.Spec
open Fasttld

/-- `A`-`Z`, `a`-`z`. -/
def isLetter (c : UInt8) : Bool :=
  (65 ≤ c.toNat && c.toNat ≤ 90) || (97 ≤ c.toNat && c.toNat ≤ 122)
/-- The lower case of an ASCII letter; other bytes are unchanged. -/
def lowerByte (c : UInt8) : UInt8 := if 65 ≤ c.toNat && c.toNat ≤ 90 then c + 32 else c
/-- `0`-`9`. -/
def isDigit (c : UInt8) : Bool := 48 ≤ c.toNat && c.toNat ≤ 57
/-- `/` or `\`. -/
def isSlash (c : UInt8) : Bool := c == 47 || c == 92
/-- Letter, digit, `+`, `-` or `.`. -/
def isSchemeChar (c : UInt8) : Bool := isLetter c || isDigit c || c == 43 || c == 45 || c == 46
/-- One of `/ \ ? #`: ends the authority. -/
def isPathStart (c : UInt8) : Bool := c == 47 || c == 92 || c == 63 || c == 35
/-- One of `/ \ ? # :`: ends a host name. -/
def isHostEnd (c : UInt8) : Bool := isPathStart c || c == 58
/-- One of `/ \ ? # [ ]`: ends the part of the URL where userinfo is looked for. -/
def isUserInfoStop (c : UInt8) : Bool := isPathStart c || c == 91 || c == 93

/-- `.` (U+002E), ideographic full stop (U+3002), fullwidth full stop (U+FF0E), halfwidth ideographic
full stop (U+FF61): the label separators of RFC 3490, section 3.1. -/
def separators : List Nat := [0x2E, 0x3002, 0xFF0E, 0xFF61]

/-- The white space of strings.go:20-22: C0 control characters, space, U+0085, U+0086, U+00A0, U+1680,
U+200B..U+200D, U+FEFF. -/
def whiteSpace : List Nat :=
  List.range 0x21 ++ [0x85, 0x86, 0xA0, 0x1680, 0x200B, 0x200C, 0x200D, 0xFEFF]

end Fasttld.Spec
