import Verif.Props.SourceShared

/-!
# Concrete cases of C78 to C82: one function of the text at a time

The text of each function, run; the values are those that a reader of the Go code expects.  These cases were added after running
wrong Go programs (seeded/gotext.json): an edit of the text changed a proof but no case was false.
-/

namespace Fasttld.Props
open Fasttld Fasttld.GoLang

/-- A run of a function of the text. -/
def runFn (fn : Fn) (args : List Val) : Comp Val := call (exCtx 64) Source.program 60 fn args

def strOf : Comp Val → Option Bytes
  | .ok (.str s) => some s
  | _ => none

def parseOf : Comp Val → Option (Int × Int × Bool)
  | .ok (.tuple [.num .int n, .num .int i, .bool ok]) => some (n, i, ok)
  | _ => none

/-! ## strings.go -/

-- getSchemeEndIndex: one slash or two colons are not enough; slashes alone are; nothing but slashes may follow the first slash
example : ([b! "https://x", b! "a:/b", b! "a:://b", b! "//", b! "/", b! "\\/x", b! "1://x", b! "a+-.1:\\/\\/y", b! "a", b! "a//b", b! "", b! "a:/", b! "a:///"].map
    fun s => numOf (runFn .getSchemeEndIndex [.str s])) =
    [some 8, some (-1), some (-1), some 2, some (-1), some 2, some (-1), some 10, some (-1), some 3, some (-1), some (-1), some 5] := by decide +kernel
-- indexAnyASCII
example : ([b! "a/b:c", b! ":", b! "abc", b! ""].map fun s => numOf (runFn .indexAnyASCII [.str s, .ascii endOfHostDelimitersSet])) =
    [some 1, some 0, some (-1), some (-1)] := by decide +kernel
-- hasInvalidChars: dashes and separators at the ends, two separators, characters of the set; `\u012d` has the low byte of a dash
example : ([b! "a-b.c", b! "a-", b! "-a", b! "a.", b! ".a", b! "a..b", b! "a.。b", b! "a_b", b! "a b", b! "ü.c", b! "", b! "-", b! "a.-b", b! "\u012d"].map
    fun s => boolOf (runFn .hasInvalidChars [.str s])) =
    [some false, some true, some true, some false, some true, some true, some true, some true, some true, some false, some false, some true, some false, some false] := by
  decide +kernel
-- lastIndexAny: the place of the first byte of the separator
example : ([b! "a。b", b! "a.b.c", b! "a", b! ".", b! "", b! "ü｡"].map fun s => numOf (runFn .lastIndexAny [.str s, .runeSet labelSeparatorsRuneSet])) =
    [some 1, some 3, some (-1), some 0, some (-1), some 2] := by decide +kernel
-- sepSize
example : ([46, 227, 239].map fun r => numOf (runFn .sepSize [.num .byte r])) = [some 1, some 3, some 3] := by decide +kernel
-- indexLastByteBefore
example : ([b! "a@b@c/d@e", b! "@", b! "a@b", b! "/@", b! "ab"].map fun s => numOf (runFn .indexLastByteBefore [.str s, .num .byte 64, .ascii invalidUserInfoCharsSet])) =
    [some 3, some 0, some 1, some (-1), some (-1)] := by decide +kernel
-- fastTrim: both ends, the left one, the right one
example : ([0, 1, 2].map fun mode => [b! ".。a.b.。", b! "a", b! "...", b! ""].map fun s => strOf (runFn .fastTrim [.str s, .runeSet labelSeparatorsRuneSet, .num .int mode])) =
    [[some (b! "a.b"), some (b! "a"), some [], some []], [some (b! "a.b.。"), some (b! "a"), some [], some []],
      [some (b! ".。a.b"), some (b! "a"), some [], some []]] := by decide +kernel
-- formatAsPunycode: what the library makes of the name, or nothing
example : strOf (call (sourceCtx 64 { idId with lookupASCII := fun s => if s = b! "a" then some (b! "x") else none }
      ⟨⟨fun _ => [], fun _ => []⟩, [], fun _ => .error []⟩ fun _ => true) Source.program 60 .formatAsPunycode [.str (b! "a")]) = some (b! "x") ∧
    strOf (call (sourceCtx 64 { idId with lookupASCII := fun s => if s = b! "a" then some (b! "x") else none }
      ⟨⟨fun _ => [], fun _ => []⟩, [], fun _ => .error []⟩ fun _ => true) Source.program 60 .formatAsPunycode [.str (b! "b")]) = some [] := by
  decide +kernel
-- makeASCIISet skips characters above 127; contains
example : (match runFn .makeASCIISet [.str (b! "aü b")] with
    | .ok (.ascii as) => [97, 98, 32, 99, 195, 188, 252, 60].map fun c => boolOf (runFn .contains [.ascii as, .num .byte c])
    | _ => []) = [some true, some true, some true, some false, some false, some false, some false, some false] := by decide +kernel

/-! ## net.go -/

-- dtoi and xtoi: the value, the number of digits, and whether it is below the limit
example : ([b! "16777214", b! "16777215", b! "0", b! "", b! "x", b! "12a", b! "007"].map fun s => parseOf (runFn .dtoi [.str s])) =
    [some (16777214, 8, true), some (16777215, 7, false), some (0, 1, true), some (0, 0, false), some (0, 0, false), some (12, 2, true), some (7, 3, true)] := by
  decide +kernel
example : ([b! "a", b! "fF", b! "10", b! "fffffe", b! "ffffff", b! "g", b! "", b! "1g", b! "A9"].map fun s => parseOf (runFn .xtoi [.str s])) =
    [some (10, 1, true), some (255, 2, true), some (16, 2, true), some (16777214, 6, true), some (0, 5, false), some (0, 0, false), some (0, 0, false), some (1, 1, true), some (169, 2, true)] := by
  decide +kernel
-- isIPv4
example : ([b! "1.2.3.4", b! "01.2.3.4", b! "0.0.0.0", b! "1.2.3", b! "1.2.3.4.5", b! "1。2．3｡4..", b! ".1.2.3.4", b! "1.2.3.256", b! "1.2.3.00", b! "1.2.3.4x", b! "", b! "1-2.3.4"].map
    fun s => boolOf (runFn .isIPv4 [.str s])) =
    [some true, some false, some true, some false, some false, some true, some false, some false, some false, some false, some false, some false] := by decide +kernel
-- isIPv6
example : ([b! "::", b! "1::", b! "::1", b! "1::2::3", b! "1:2:3:4:5:6:7:8", b! "1:2:3:4:5:6:7", b! "1:2:3:4:5:6:1.2.3.4", b! "1:2:3:4:5:6:7:1.2.3.4", b! "1:2:3:4:5:1.2.3.4",
      b! "::1.2.3.4", b! "::1:2:3:4:5:6:7:8", b! "1:2:3:4:5:6:7::", b! "12345::", b! "1:", b! ":", b! "", b! "1::1.2.3", b! "::g"].map fun s => boolOf (runFn .isIPv6 [.str s])) =
    [some true, some true, some true, some false, some true, some false, some true, some false, some false, some true, some false, some true, some false, some false, some false, some false,
      some false, some false] := by decide +kernel

/-! ## fasttld.go -/

set_option synthInstance.maxSize 1000

/-- A run of Extract with a list. -/
def extractWith (rules : List Bytes) (e : URLParams) : Option (List Bytes × HostType × Option Bytes) :=
  partsOf (runFn .Extract [.fastTLD (buildTrie rules), .params e])

-- the option to leave out subdomains
example : extractWith [b! "com"] { url := b! "x.y.a.com", ignoreSubDomains := true } =
    some ([[], [], [], b! "a", b! "com", b! "a.com", [], []], .hostName, none) := by decide +kernel
-- nothing but a suffix; a trailing separator; nothing at all
example : extractWith [b! "com"] { url := b! "com" } = some ([[], [], [], [], b! "com", [], [], []], .none, some (b! "empty domain")) ∧
    extractWith [b! "com", b! "co.com"] { url := b! "co.com./p" } = some ([[], [], [], [], b! "co.com", [], [], b! "/p"], .none, some (b! "empty domain")) ∧
    extractWith [b! "com"] { url := b! " " } = some ([[], [], [], [], [], [], [], []], .none, some (b! "empty domain")) := by decide +kernel
-- wildcard and exception rules
example : extractWith [b! "*.ck", b! "!www.ck"] { url := b! "a.b.c.ck" } =
      some ([[], [], b! "a", b! "b", b! "c.ck", b! "b.c.ck", [], []], .hostName, none) ∧
    extractWith [b! "*.ck", b! "!www.ck"] { url := b! "a.www.ck" } =
      some ([[], [], b! "a", b! "www", b! "ck", b! "www.ck", [], []], .hostName, none) := by decide +kernel
-- the end of the suffix is at the first node that is marked, its start at the last one, marked or not; below a leaf nothing is looked for
example : extractWith [b! "com", b! "b.a.com"] { url := b! "x.y.a.com" } = some ([[], [], b! "x", b! "y", b! "a.com", b! "y.a.com", [], []], .hostName, none) ∧
    extractWith [b! "com", b! "b.a.com"] { url := b! "x.b.a.com" } = some ([[], [], [], b! "x", b! "b.a.com", b! "x.b.a.com", [], []], .hostName, none) ∧
    extractWith [b! "com"] { url := b! "com.com.com" } = some ([[], [], b! "com", b! "com", b! "com", b! "com.com", [], []], .hostName, none) := by decide +kernel
-- square brackets
example : extractWith [b! "com"] { url := b! "a[::1]" } =
      some ([[], [], [], [], [], [], [], []], .none, some (b! "opening square bracket is not first character of hostname")) ∧
    extractWith [b! "com"] { url := b! "::1]" } = some ([[], [], [], [], [], [], [], []], .none, some (b! "invalid port")) ∧
    extractWith [b! "com"] { url := b! "a]" } = some ([[], [], [], [], [], [], [], []], .none, some (b! "closing square bracket present but no opening square bracket")) ∧
    extractWith [b! "com"] { url := b! "[::1" } = some ([[], [], [], [], [], [], [], []], .none, some (b! "incomplete square bracket pair")) ∧
    extractWith [b! "com"] { url := b! "[::g]" } = some ([[], [], [], [], [], [], [], []], .none, some (b! "invalid IPv6 address")) ∧
    extractWith [b! "com"] { url := b! "[::1]x/" } =
      some ([[], [], [], [], [], [], [], []], .none, some (b! "invalid trailing characters after IPv6 address")) ∧
    extractWith [b! "com"] { url := b! "u@[::1]/:x" } = some ([[], b! "u", [], b! "::1", [], b! "::1", [], b! "/:x"], .iPv6, none) := by decide +kernel
-- ports
example : extractWith [b! "com"] { url := b! "a.com:" } = some ([[], [], [], [], [], [], [], []], .none, some (b! "invalid port")) ∧
    extractWith [b! "com"] { url := b! "a.com:65535" } = some ([[], [], [], b! "a", b! "com", b! "a.com", b! "65535", []], .hostName, none) ∧
    extractWith [b! "com"] { url := b! "a.com:-1" } = some ([[], [], [], [], [], [], [], []], .none, some (b! "invalid port")) ∧
    extractWith [b! "com"] { url := b! "a.com?q:80" } = some ([[], [], [], b! "a", b! "com", b! "a.com", [], b! "?q:80"], .hostName, none) := by decide +kernel

/-! ## Memory -/

/-- To run the text with; the file has two rules with wildcards. -/
def wildCtx : Ctx := sourceCtx 64 pslIdna
  ⟨⟨fun _ => [], fun _ => []⟩, [], fun _ => .ok (b! "*.ck\n*.er\na.b.c\n")⟩ fun _ => true

-- trieConstruct: every node at the top with a wildcard below it is marked, and no other
example : (match runAlone (runText wildCtx 30 .trieConstruct [.bool true, .str (b! "f")]) freshMem with
    | some (.ok (.tuple [.ptr r, .err e], _), m) =>
      some (e.isSome, m.next, [[b! "ck", b! "*"], [b! "er", b! "*"], [b! "c", b! "b", b! "a"]].map (pathMarks m r))
    | _ => none) = some (false, 9, [[false, true, true], [false, true, true], [false, false, false, true]]) := by decide +kernel
-- reverse: an even number of elements, one, none
example : ([[b! "a", b! "b", b! "c", b! "d"], [b! "a"], []].map fun l => match runAlone (callMem pslCtx 30 .reverse [.array 0] [l]) freshMem with
    | some (.ok (.tuple [], A), _) => some A
    | _ => none) = [some [[b! "d", b! "c", b! "b", b! "a"]], some [[b! "a"]], some [[]]] := by decide +kernel

end Fasttld.Props
