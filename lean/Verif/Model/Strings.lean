import Verif.Model.Utf8
import Verif.Model.Sets

/-!
# strings.go:91-307: string helpers
-/

namespace Fasttld

/-- Loop of strings.go:99-140.  Arguments: rest of the string from index `i`, `i`, `colon`,
`slashCount`, `len(s)` (for line 142).  `s[i]` is bounded by the loop header `i < len(s)`. -/
def schemeLoop (n : Nat) : Bytes → Nat → Bool → Nat → Int
  | [], _, _, slashCount => if slashCount ≥ 2 then (n : Int) else -1      -- :141-144
  | c :: rest, i, colon, slashCount =>
    if i = 0 then                                                          -- :101
      if schemeFirstCharSet.contains c then schemeLoop n rest (i + 1) colon slashCount
      else if slashes.contains c then schemeLoop n rest (i + 1) colon (slashCount + 1)
      else -1
    else if slashCount = 0 then                                            -- :115
      if !colon && schemeRemainingCharSet.contains c then schemeLoop n rest (i + 1) colon slashCount
      else if !colon && c == 58 then schemeLoop n rest (i + 1) true slashCount
      else if slashes.contains c then schemeLoop n rest (i + 1) colon (slashCount + 1)
      else -1
    else if slashes.contains c then schemeLoop n rest (i + 1) colon (slashCount + 1)  -- :132
    else if slashCount < 2 then -1
    else (i : Int)

/-- strings.go:95-145 `getSchemeEndIndex`. -/
def getSchemeEndIndex (s : Bytes) : Int := schemeLoop s.length s 0 false 0

/-- Loop of strings.go:153-158 from index `i`. -/
def indexAnyLoop (as : AsciiSet) : Bytes → Nat → Int
  | [], _ => -1
  | b :: rest, i => if as.contains b then (i : Int) else indexAnyLoop as rest (i + 1)

/-- strings.go:152-159 `indexAnyASCII`. -/
def indexAnyASCII (s : Bytes) (as : AsciiSet) : Int := indexAnyLoop as s 0

/-- Go's conversion `byte(c)` of a rune: truncation to the low 8 bits (strings.go:170). -/
def byteOf (c : Nat) : UInt8 := UInt8.ofNat c

/-- Loop of strings.go:169-195 over the remaining iterations. -/
def hasInvalidCharsLoop (lastByteIdx : Int) : List (Nat × Nat) → Bool → Bool
  | [], _ => false
  | (idx, c) :: rest, isLabelSeparator =>
    if alphaNumericSet.contains (byteOf c) then                              -- :170
      hasInvalidCharsLoop lastByteIdx rest false
    else if idx = 0 && (c == 45 || labelSeparatorsRuneSet.exists c) then true -- :175
    else if (idx : Int) = lastByteIdx && c == 45 then true                   -- :179
    else if labelSeparatorsRuneSet.exists c && isLabelSeparator then true    -- :183-187
    else if invalidHostNameCharsRuneSet.exists c then true                   -- :192
    else hasInvalidCharsLoop lastByteIdx rest (labelSeparatorsRuneSet.exists c) -- :188, :190

/-- strings.go:166-197 `hasInvalidChars`. -/
def hasInvalidChars (s : Bytes) : Bool :=
  hasInvalidCharsLoop ((s.length : Int) - 1) (rangeString s) false

/-- Loop of strings.go:205-211; `fuel` bounds the iterations. -/
def lastIndexAnyLoop (s : Bytes) (chars : RuneSet) : (fuel : Nat) → (i : Int) → Go Int
  | 0, _ => .error .outOfFuel
  | fuel + 1, i =>
    if i > 0 then
      (slice s 0 i) >>= fun t =>                                             -- :206
      let d := decodeLastRune t
      let i' := i - d.2                                                      -- :207
      if chars.exists d.1 then .ok i' else lastIndexAnyLoop s chars fuel i'
    else .ok (-1)

/-- strings.go:204-213 `lastIndexAny`. -/
def lastIndexAny (s : Bytes) (chars : RuneSet) : Go Int :=
  lastIndexAnyLoop s chars (s.length + 1) s.length

/-- Loop of strings.go:217-219: `for i, j := 0, len-1; i < j; i, j = i+1, j-1 { swap }`.
The indices are in range because `0 ≤ i < j < len`; `set` and `getD` are total. -/
def reverseLoop {α : Type} (d : α) : (fuel : Nat) → List α → Nat → Nat → List α
  | 0, input, _, _ => input
  | fuel + 1, input, i, j =>
    if i < j then
      reverseLoop d fuel ((input.set i (input.getD j d)).set j (input.getD i d)) (i + 1) (j - 1)
    else input

/-- strings.go:216-220 `reverse` (returns the new contents of the slice).  The loop runs at most
`len` times since `i` grows and stays below `len`. -/
def reverse (input : List Bytes) : List Bytes :=
  reverseLoop [] input.length input 0 (input.length - 1)

/-- strings.go:223-233 `sepSize`. -/
def sepSize (r : UInt8) : Int := if r = 46 then 1 else 3

/-- `strings.LastIndexByte`: index of the last `b` in `s`, scanning from offset `i` with the best
index so far. -/
def lastIndexByteLoop (b : UInt8) : Bytes → Nat → Int → Int
  | [], _, best => best
  | c :: rest, i, best => lastIndexByteLoop b rest (i + 1) (if c = b then (i : Int) else best)

/-- `strings.LastIndexByte` (standard library). -/
def lastIndexByte (s : Bytes) (b : UInt8) : Int := lastIndexByteLoop b s 0 (-1)

/-- strings.go:249-254 `indexLastByteBefore`. -/
def indexLastByteBefore (s : Bytes) (b : UInt8) (notAfterCharsSet : AsciiSet) : Go Int :=
  let first := indexAnyASCII s notAfterCharsSet
  if first ≠ -1 then
    (slice s 0 first) >>= fun t => .ok (lastIndexByte t b)                   -- :251
  else .ok (lastIndexByte s b)

/-- strings.go:257-263 `trimMode`. -/
inductive TrimMode
  | trimBoth
  | trimLeft
  | trimRight
  deriving DecidableEq, Repr

/-- Loop of strings.go:272-279: returns `(startIdx, trimCharsExist, broken)`. -/
def trimLeftLoop (charsToTrim : RuneSet) : List (Nat × Nat) → Int → Bool → Int × Bool × Bool
  | [], startIdx, trimCharsExist => (startIdx, trimCharsExist, false)
  | (idx, c) :: rest, _, trimCharsExist =>
    if !charsToTrim.exists c then ((idx : Int), trimCharsExist, true)
    else trimLeftLoop charsToTrim rest idx true

/-- Loop of strings.go:289-298: returns `(endIdx, trimCharsExist, broken)`. -/
def trimRightLoop (s : Bytes) (charsToTrim : RuneSet) :
    (fuel : Nat) → (i : Int) → (endIdx : Int) → (trimCharsExist : Bool) → Go (Int × Bool × Bool)
  | 0, _, _, _ => .error .outOfFuel
  | fuel + 1, i, endIdx, trimCharsExist =>
    if i > 0 then
      (slice s 0 i) >>= fun t =>                                             -- :291
      let d := decodeLastRune t
      if !charsToTrim.exists d.1 then .ok (i, trimCharsExist, true)
      else trimRightLoop s charsToTrim fuel (i - d.2) i true
    else .ok (endIdx, trimCharsExist, false)

/-- strings.go:285-306: the right-hand half of `fastTrim`, given `startIdx`. -/
def fastTrimRight (s : Bytes) (charsToTrim : RuneSet) (mode : TrimMode) (startIdx : Int) :
    Go Bytes :=
  if mode ≠ .trimLeft then
    (trimRightLoop s charsToTrim (s.length + 1) s.length 0 false) >>= fun r =>
    if r.2.1 && !r.2.2 then .ok []                                           -- :299-302
    else slice s startIdx r.1                                                -- :306
  else slice s startIdx s.length                                             -- :304, :306

/-- strings.go:266-307 `fastTrim`. -/
def fastTrim (s : Bytes) (charsToTrim : RuneSet) (mode : TrimMode) : Go Bytes :=
  if mode ≠ .trimRight then
    let r := trimLeftLoop charsToTrim (rangeString s) 0 false
    if r.2.1 && !r.2.2 then .ok []                                           -- :280-283
    else fastTrimRight s charsToTrim mode r.1
  else fastTrimRight s charsToTrim mode 0

end Fasttld
