import Verif.Model.Trie

/-!
# psl.go:24-100: parsing the Public Suffix List
-/

namespace Fasttld

/-- golang.org/x/net/idna as used by this project: arbitrary functions. `none` is a nil error.
* `toASCII`      – `idna.ToASCII`, psl.go:38 (`none`: conversion error)
* `lookupASCII`  – `idnaToPuny.ToASCII`, strings.go:239 (`none`: conversion error)
* `toUnicodeErr` – error of `idna.ToUnicode`, fasttld.go:269 -/
structure Idna where
  toASCII : Bytes → Option Bytes
  lookupASCII : Bytes → Option Bytes
  toUnicodeErr : Bytes → Option Bytes

/-- psl.go:24-28 `type suffixes`. -/
structure Suffixes where
  publicSuffixes : List Bytes
  privateSuffixes : List Bytes
  allSuffixes : List Bytes
  deriving DecidableEq, Repr

/-- `unicode.IsSpace`, the class `strings.TrimSpace` trims (standard library). -/
def unicodeSpaces : RuneSet :=
  [0x09, 0x0a, 0x0b, 0x0c, 0x0d, 0x20, 0x85, 0xa0, 0x1680, 0x2000, 0x2001, 0x2002, 0x2003, 0x2004,
   0x2005, 0x2006, 0x2007, 0x2008, 0x2009, 0x200a, 0x2028, 0x2029, 0x202f, 0x205f, 0x3000]

/-- Left half of `strings.TrimSpace`: drop leading white space code points; `fuel ≥ len s`. -/
def dropSpaces : (fuel : Nat) → Bytes → Bytes
  | 0, s => s
  | fuel + 1, s =>
    let d := decodeRune s
    if s ≠ [] ∧ unicodeSpaces.exists d.1 then dropSpaces fuel (s.drop d.2) else s

/-- Right half of `strings.TrimSpace`: drop trailing white space code points; `fuel ≥ len s`. -/
def dropSpacesEnd : (fuel : Nat) → Bytes → Bytes
  | 0, s => s
  | fuel + 1, s =>
    let d := decodeLastRune s
    if s ≠ [] ∧ unicodeSpaces.exists d.1 then dropSpacesEnd fuel (s.take (s.length - d.2)) else s

/-- `strings.TrimSpace` (standard library; its ASCII fast path has the same result). -/
def trimSpace (s : Bytes) : Bytes :=
  let l := dropSpaces s.length s
  dropSpacesEnd l.length l

/-- psl.go:32 -/
def beginPrivate : Bytes := b! "// ===BEGIN PRIVATE DOMAINS==="

/-- psl.go:30-63 `processLine`. -/
def processLine (idna : Idna) (rawLine : Bytes) (psl : Suffixes) (isPrivateSuffix : Bool) :
    Suffixes × Bool :=
  let line := trimSpace rawLine
  let isPrivateSuffix := if beginPrivate = line then true else isPrivateSuffix    -- :32-34
  if line.length = 0 ∨ (b! "//").isPrefixOf line then (psl, isPrivateSuffix)      -- :35-37
  else match idna.toASCII line with
    | none => (psl, isPrivateSuffix)                                              -- :39-43
    | some suffix =>
      let entries := if suffix ≠ line then [suffix, line] else [suffix]
      let psl :=
        if isPrivateSuffix then
          { psl with privateSuffixes := psl.privateSuffixes ++ entries }          -- :45-49
        else
          { psl with publicSuffixes := psl.publicSuffixes ++ entries }            -- :51-55
      ({ psl with allSuffixes := psl.allSuffixes ++ entries }, isPrivateSuffix)   -- :57-62

/-- The loop of psl.go:80-82 and psl.go:96-98 over the remaining lines. -/
def processLines (idna : Idna) : List Bytes → Suffixes → Bool → Suffixes
  | [], psl, _ => psl
  | line :: rest, psl, isPrivateSuffix =>
    let r := processLine idna line psl isPrivateSuffix
    processLines idna rest r.1 r.2

/-- psl.go:72-84 `getPublicSuffixList` on the file's contents, and psl.go:93-100
`getHardcodedPublicSuffixList` on the built-in text: both run this on `strings.Split(text, "\n")`. -/
def parsePSL (idna : Idna) (text : Bytes) : Suffixes :=
  processLines idna (splitByte 10 text) ⟨[], [], []⟩ false

/-- fasttld.go:101-139 `trieConstruct` once the list text is available. -/
def trieOfText (idna : Idna) (includePrivateSuffix : Bool) (text : Bytes) : Trie :=
  let lists := parsePSL idna text
  buildTrie (if includePrivateSuffix then lists.allSuffixes else lists.publicSuffixes)  -- :118-123

/-- `bytes.Contains(s, sub)` (standard library). -/
def bytesContains (sub : Bytes) : Bytes → Bool
  | [] => sub.isPrefixOf []
  | c :: rest => sub.isPrefixOf (c :: rest) || bytesContains sub rest

/-- psl.go:168-173 `validPSLDelimiters`. -/
def validPSLDelimiters (contents : Bytes) : Bool :=
  bytesContains (b! "// ===BEGIN ICANN DOMAINS===") contents &&
  bytesContains (b! "// ===END ICANN DOMAINS===") contents &&
  bytesContains (b! "// ===BEGIN PRIVATE DOMAINS===") contents &&
  bytesContains (b! "// ===END PRIVATE DOMAINS===") contents

end Fasttld
