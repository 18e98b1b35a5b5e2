import Verif.Model.Extract

/-!
# The texts of the errors of Extract

The texts in fasttld.go, and two parts of the standard library that are reached when an error is printed:
`url.EscapeError.Error` and `strconv.Quote`.  Which characters are printable (`strconv.IsPrint`, a table of Unicode) is
a parameter.
-/

namespace Fasttld

/-- `lowerhex[n]` of strconv/quote.go. -/
def hexChar (n : Nat) : UInt8 := if n < 10 then UInt8.ofNat (48 + n) else UInt8.ofNat (87 + n)

/-- `w` hexadecimal digits of `n`, the last ones. -/
def hexText : (w n : Nat) → Bytes
  | 0, _ => []
  | w + 1, n => hexText w (n / 16) ++ [hexChar (n % 16)]

/-- `utf8.AppendRune` for a valid code point. -/
def appendRune (r : Nat) : Bytes :=
  if r < 0x80 then [UInt8.ofNat r]
  else if r < 0x800 then [UInt8.ofNat (0xC0 + r / 64), UInt8.ofNat (0x80 + r % 64)]
  else if r < 0x10000 then [UInt8.ofNat (0xE0 + r / 4096), UInt8.ofNat (0x80 + r / 64 % 64), UInt8.ofNat (0x80 + r % 64)]
  else [UInt8.ofNat (0xF0 + r / 262144), UInt8.ofNat (0x80 + r / 4096 % 64), UInt8.ofNat (0x80 + r / 64 % 64),
    UInt8.ofNat (0x80 + r % 64)]

/-- `appendEscapedRune` of strconv/quote.go, for the quote `"` and without the flags ASCIIonly and graphicOnly.  The code
point comes from `utf8.DecodeRuneInString`, so it is valid. -/
def escapedRune (isPrint : Nat → Bool) (r : Nat) : Bytes :=
  if r = 34 ∨ r = 92 then [92, UInt8.ofNat r]
  else if isPrint r then appendRune r
  else if r = 7 then b! "\\a"
  else if r = 8 then b! "\\b"
  else if r = 12 then b! "\\f"
  else if r = 10 then b! "\\n"
  else if r = 13 then b! "\\r"
  else if r = 9 then b! "\\t"
  else if r = 11 then b! "\\v"
  else if r < 32 ∨ r = 127 then b! "\\x" ++ hexText 2 r
  else if r < 0x10000 then b! "\\u" ++ hexText 4 r
  else b! "\\U" ++ hexText 8 r

/-- The loop of `appendQuotedWith` in strconv/quote.go. -/
def quoteBody (isPrint : Nat → Bool) (s : Bytes) : Bytes :=
  match s with
  | [] => []
  | b :: t =>
    let d := decodeRune (b :: t)
    (if d.2 = 1 ∧ d.1 = runeError then b! "\\x" ++ hexText 2 b.toNat else escapedRune isPrint d.1) ++
      quoteBody isPrint (t.drop (d.2 - 1))
termination_by s.length
decreasing_by simp; omega

/-- `strconv.Quote`. -/
def quote (isPrint : Nat → Bool) (s : Bytes) : Bytes := [34] ++ quoteBody isPrint s ++ [34]

/-- The method `Error` of the errors that Extract returns.  An error of the IDNA library has its own text. -/
def Err.text (isPrint : Nat → Bool) : Err → Bytes
  | .openingBracketNotFirst => b! "opening square bracket is not first character of hostname"      -- fasttld.go:168
  | .closingWithoutOpening => b! "closing square bracket present but no opening square bracket"   -- :180
  | .incompleteBrackets => b! "incomplete square bracket pair"                                    -- :197
  | .invalidIPv6 => b! "invalid IPv6 address"                                                     -- :211
  | .trailingAfterIPv6 => b! "invalid trailing characters after IPv6 address"                     -- :217
  | .invalidPort => b! "invalid port"                                                             -- :246
  | .badEscape esc => b! "invalid URL escape " ++ quote isPrint esc                               -- :262-264, net/url
  | .idna msg => msg                                                                              -- :269-274
  | .consecutiveSeparators => b! "invalid consecutive label separators on left-hand side of a label"   -- :301
  | .invalidCharacters => b! "invalid characters in hostname"                                     -- :358, 362
  | .emptyDomain => b! "empty domain"                                                             -- :396

end Fasttld
