import Verif.Model.Go

/-!
# Package unicode/utf8 and `for … range string`

Models the parts of the Go standard library that strings.go and net.go call:
`utf8.DecodeRuneInString`, `utf8.DecodeLastRuneInString`, `for idx, c := range s`.
Code points are `Nat`; bit operations of the library are written as arithmetic.
-/

namespace Fasttld

/-- `utf8.RuneError`. -/
def runeError : Nat := 0xFFFD

/-- Continuation byte 0x80..0xBF. -/
def isCont (b : UInt8) : Bool := 0x80 ≤ b.toNat && b.toNat ≤ 0xBF

/-- `utf8.RuneStart`: not a continuation byte. -/
def runeStart (b : UInt8) : Bool := !isCont b

/-- `utf8.DecodeRuneInString`: first code point of `s` and its width; `(RuneError, 1)` on an invalid
encoding, `(RuneError, 0)` on the empty string.  The accept ranges are those of the library
(shortest form only, no surrogates, at most U+10FFFF).  Called at net.go:69 and by `range`. -/
def decodeRune : Bytes → Nat × Nat
  | [] => (runeError, 0)
  | b0 :: t =>
    if b0.toNat < 0x80 then (b0.toNat, 1)
    else if b0.toNat < 0xC2 then (runeError, 1)
    else if b0.toNat < 0xE0 then
      match t with
      | b1 :: _ =>
        if isCont b1 then ((b0.toNat - 0xC0) * 64 + (b1.toNat - 0x80), 2) else (runeError, 1)
      | [] => (runeError, 1)
    else if b0.toNat < 0xF0 then
      match t with
      | b1 :: b2 :: _ =>
        if (if b0.toNat = 0xE0 then 0xA0 else 0x80) ≤ b1.toNat
            ∧ b1.toNat ≤ (if b0.toNat = 0xED then 0x9F else 0xBF) ∧ isCont b2 then
          ((b0.toNat - 0xE0) * 4096 + (b1.toNat - 0x80) * 64 + (b2.toNat - 0x80), 3)
        else (runeError, 1)
      | _ => (runeError, 1)
    else if b0.toNat < 0xF5 then
      match t with
      | b1 :: b2 :: b3 :: _ =>
        if (if b0.toNat = 0xF0 then 0x90 else 0x80) ≤ b1.toNat
            ∧ b1.toNat ≤ (if b0.toNat = 0xF4 then 0x8F else 0xBF) ∧ isCont b2 ∧ isCont b3 then
          ((b0.toNat - 0xF0) * 262144 + (b1.toNat - 0x80) * 4096 + (b2.toNat - 0x80) * 64
            + (b3.toNat - 0x80), 4)
        else (runeError, 1)
      | _ => (runeError, 1)
    else (runeError, 1)

/-- The loop `for start--; start >= lim; start-- { if RuneStart(s[start]) { break } }` of
`utf8.DecodeLastRuneInString`, followed by `if start < 0 { start = 0 }`. The argument is `start`
before the decrement. -/
def findStart (s : Bytes) (lim : Nat) : Nat → Nat
  | 0 => 0
  | n + 1 =>
    if n < lim then n
    else if runeStart (s.getD n 0) then n
    else findStart s lim n

/-- `utf8.DecodeLastRuneInString`: last code point of `s` and its width.
Called at strings.go:206 and strings.go:291. -/
def decodeLastRune (s : Bytes) : Nat × Nat :=
  match s.getLast? with
  | none => (runeError, 0)
  | some b =>
    if b.toNat < 0x80 then (b.toNat, 1)
    else
      let start := findStart s (s.length - 4) (s.length - 1)
      let d := decodeRune (s.drop start)
      if start + d.2 ≠ s.length then (runeError, 1) else d

/-- `for idx, c := range s`: the pairs (byte offset, code point) that the loop visits, when the
remaining text is `s` and starts at offset `idx`.  (Used at strings.go:169 and strings.go:272.) -/
def rangeFrom (s : Bytes) (idx : Nat) : List (Nat × Nat) :=
  match s with
  | [] => []
  | b :: t =>
    let d := decodeRune (b :: t)
    (idx, d.1) :: rangeFrom (t.drop (d.2 - 1)) (idx + d.2)
termination_by s.length
decreasing_by simp; omega

/-- The iterations of `for idx, c := range s`. -/
def rangeString (s : Bytes) : List (Nat × Nat) := rangeFrom s 0

end Fasttld
