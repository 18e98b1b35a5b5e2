import Verif.Model.Go

/-!
# strings.go:12-89: character constants, asciiSet and rune sets
-/

namespace Fasttld

/-- strings.go:49: `type asciiSet [8]uint32`. -/
abbrev AsciiSet := Vector (BitVec 32) 8

/-- One iteration of strings.go:54-58: `if c < utf8.RuneSelf { as[c/32] |= 1 << (c % 32) }`. -/
def addASCII (as : AsciiSet) (c : Nat) : AsciiSet :=
  if h : c < 128 then
    as.set (c / 32) (as[c / 32]'(by omega) ||| (1#32 <<< (c % 32))) (by omega)
  else as

/-- strings.go:53-60 `makeASCIISet`; the argument is the sequence of code points of `chars`. -/
def makeASCIISet (chars : List Nat) : AsciiSet :=
  chars.foldl addASCII (Vector.replicate 8 0#32)

/-- strings.go:65-67 `contains`: `(as[c/32] & (1 << (c % 32))) != 0`. -/
def AsciiSet.contains (as : AsciiSet) (c : UInt8) : Bool :=
  (as[c.toNat / 32]'(by have := c.toNat_lt; omega) &&& (1#32 <<< (c.toNat % 32))) != 0#32

/-- strings.go:71-89: `*intset.Rune` built by `makeRuneSet`.  The third-party bucket structure is
abstracted to the finite set it represents; `Exists` is membership. -/
abbrev RuneSet := List Nat

/-- `iset.Exists(r)`. -/
def RuneSet.exists (s : RuneSet) (r : Nat) : Bool := s.contains r

/-- strings.go:76-89 `makeRuneSet`: the set of the code points of `s`. -/
def makeRuneSet (s : List Nat) : RuneSet := s

/-- Code points of an ASCII-only Go constant. -/
def codes (s : Bytes) : List Nat := s.map UInt8.toNat

/-- strings.go:14 -/
def alphabets : List Nat := codes (b! "ABCDEFGHIJKLMNOPQRSTUVWXYZabcdefghijklmnopqrstuvwxyz")
/-- strings.go:15 -/
def numbers : List Nat := codes (b! "0123456789")
/-- strings.go:18 -/
def labelSeparators : List Nat := [0x002e, 0x3002, 0xff0e, 0xff61]
/-- strings.go:20-21 -/
def controlChars : List Nat :=
  [0x00, 0x01, 0x02, 0x03, 0x04, 0x05, 0x06, 0x07, 0x08, 0x09, 0x0a, 0x0b, 0x0c, 0x0d, 0x0e, 0x0f,
   0x10, 0x11, 0x12, 0x13, 0x14, 0x15, 0x16, 0x17, 0x18, 0x19, 0x1a, 0x1b, 0x1c, 0x1d, 0x1e, 0x1f]
/-- strings.go:22 -/
def whitespace : List Nat :=
  controlChars ++ [0x20, 0x0085, 0x0086, 0x00a0, 0x1680, 0x200b, 0x200c, 0x200d, 0xFEFF]
/-- strings.go:23 -/
def invalidHostNameChars : List Nat :=
  whitespace ++ codes (b! "!\"#$&'()*+,/:;<=>?@[\\]^_`{|}~")
  ++ [0x0378, 0x04c0, 0x06dd, 0x180e, 0x2025, 0x202e, 0x206b, 0x2183, 0x2a74, 0x2ff0, 0xfdd0,
      0xff05, 0xff0f, 0xff1a, 0xfffa]
/-- strings.go:25 -/
def endOfHostWithPortDelimiters : List Nat := codes (b! "/\\?#")
/-- strings.go:26 -/
def endOfHostDelimiters : List Nat := endOfHostWithPortDelimiters ++ codes (b! ":")
/-- strings.go:27 -/
def invalidUserInfoChars : List Nat := endOfHostWithPortDelimiters ++ codes (b! "[]")

/-- strings.go:31 -/
def numericSet : AsciiSet := makeASCIISet numbers
/-- strings.go:32 -/
def alphaNumericSet : AsciiSet := makeASCIISet (alphabets ++ numbers)
/-- strings.go:33 -/
def endOfHostWithPortDelimitersSet : AsciiSet := makeASCIISet endOfHostWithPortDelimiters
/-- strings.go:34 -/
def endOfHostDelimitersSet : AsciiSet := makeASCIISet endOfHostDelimiters
/-- strings.go:35 -/
def invalidUserInfoCharsSet : AsciiSet := makeASCIISet invalidUserInfoChars
/-- strings.go:37 -/
def schemeFirstCharSet : AsciiSet := makeASCIISet alphabets
/-- strings.go:38 -/
def schemeRemainingCharSet : AsciiSet := makeASCIISet (alphabets ++ numbers ++ codes (b! "+-."))
/-- strings.go:39 -/
def slashes : AsciiSet := makeASCIISet (codes (b! "/\\"))

/-- strings.go:71 -/
def labelSeparatorsRuneSet : RuneSet := makeRuneSet labelSeparators
/-- strings.go:72 -/
def whitespaceRuneSet : RuneSet := makeRuneSet whitespace
/-- strings.go:73 -/
def invalidHostNameCharsRuneSet : RuneSet := makeRuneSet invalidHostNameChars

end Fasttld
