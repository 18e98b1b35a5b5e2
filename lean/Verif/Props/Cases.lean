import Verif.Props.Complete

/-!
# Concrete cases

Single instances of the claims, by evaluation.  They are not needed for any proof.  They were added to
tell the wrong programs in seeded/LOG.jsonl from the right one; which of them a wrong program fails is recorded there.
-/

namespace Fasttld.Props
open Fasttld Fasttld.Spec

/-- Result and error for a URL, with the rules of `exRules`. -/
def caseOf (url : Bytes) : Option (ExtractResult × Option Err) :=
  (extract idId (buildTrie exRules) { url := url }).toOption

/-- A part of the result, if there is no error. -/
def partOf (f : ExtractResult → Bytes) (url : Bytes) : Option Bytes :=
  (caseOf url).bind fun r => if r.2 = none then some (f r.1) else none

/-- The error, if there is one. -/
def errorOf (url : Bytes) : Option Err := (caseOf url).bind Prod.snd

/-! ## C01 -/
example : (caseOf (b! ".")).isSome = true := by decide +kernel
example : (caseOf (b! "[::1:2:3:4:5:6:7:8:9]")).isSome = true := by decide +kernel

/-! ## C03 -/
example : (caseOf (b! "x.a.com.")).map (fun r => (r.1.subDomain, r.1.domain, r.1.suffix)) =
    some (b! "x", b! "a", b! "com") := by decide +kernel

/-! ## C04 -/
example : partOf (·.registeredDomain) (b! "[::1]") = some (b! "::1") := by decide +kernel
example : partOf (·.registeredDomain) (b! "x.a.co.uk") = some (b! "a.co.uk") := by decide +kernel
example : partOf (·.registeredDomain) (b! "a.b") = some [] := by decide +kernel
example : partOf (·.registeredDomain) (b! "1.2.3.4") = some (b! "1.2.3.4") := by decide +kernel

/-! ## C05 -/
example : (caseOf (b! "a.com")).map (·.1.hostType) = some .hostName := by decide +kernel
example : (caseOf (b! "a.com:x")).map (·.1.hostType) = some .none := by decide +kernel

/-! ## C06 -/
example : (extract idId (buildTrie exRules) { url := b! "x.a.com", ignoreSubDomains := true }).toOption.map (·.1.subDomain) =
    some [] := by decide +kernel

/-! ## C07 -/
example : caseOf ([0xEF, 0xBB, 0xBF] ++ b! "a.com") = caseOf (b! "a.com") := by decide +kernel   -- U+FEFF
example : caseOf (b! "a.com" ++ [0x1F]) = caseOf (b! "a.com") := by decide +kernel
example : caseOf (b! "a.com ") = caseOf (b! "a.com") := by decide +kernel
example : caseOf (b! " a.com") = caseOf (b! "a.com") := by decide +kernel
example : caseOf ([0xE2, 0x80, 0x8B] ++ b! "a.com") = caseOf (b! "a.com") := by decide +kernel   -- U+200B

/-! ## C08 -/
example : (caseOf (b! "zz://a.com")).map (·.1.scheme) = some (b! "zz://") := by decide +kernel
example : (caseOf (b! "http:\\\\a.com")).map (·.1.scheme) = some (b! "http:\\\\") := by decide +kernel
example : (caseOf (b! "a:/")).map (·.1.scheme) = some [] := by decide +kernel
example : (caseOf (b! "a:/b.com")).map (·.1.scheme) = some [] := by decide +kernel
example : (caseOf (b! "a:b//c.com")).map (·.1.scheme) = some [] := by decide +kernel
example : (caseOf (b! "a:://c.com")).map (·.1.scheme) = some [] := by decide +kernel
example : (caseOf (b! "a.b://c.com")).map (·.1.scheme) = some (b! "a.b://") := by decide +kernel
example : (caseOf (b! "///\\a.com")).map (·.1.scheme) = some (b! "///\\") := by decide +kernel

/-! ## C10 -/
example : (caseOf (b! "/@a.com")).map (·.1.userInfo) = some [] := by decide +kernel

/-! ## C11 -/
example : errorOf (b! "a.com:") = some .invalidPort := by decide +kernel
example : errorOf (b! "a.com:1:2") = some .invalidPort := by decide +kernel
example : partOf (·.port) (b! "a.com:+1") = some (b! "+1") := by decide +kernel
example : partOf (·.port) (b! "a.com:80") = some (b! "80") := by decide +kernel
example : errorOf (b! "a.com:-5") = some .invalidPort := by decide +kernel
example : errorOf (b! "a.com:65536") = some .invalidPort := by decide +kernel
example : partOf (·.port) (b! "a.com:65535") = some (b! "65535") := by decide +kernel

/-! ## C12 -/
example : partOf (·.path) (b! "a.com:8/x") = some (b! "/x") := by decide +kernel
example : partOf (·.path) (b! "a.com\\x/y") = some (b! "\\x/y") := by decide +kernel

/-! ## C13 -/
example : isIPv6 (b! "::ffff") = .ok true := by decide +kernel
example : isIPv6 (b! "::1。2。3。4") = .ok true := by decide +kernel
example : isIPv6 (b! ":1:2:3:4:5:6:7") = .ok false := by decide +kernel
example : isIPv6 (b! "::") = .ok true := by decide +kernel
example : isIPv6 (b! "1:2:3:4:5:6:7:8") = .ok true := by decide +kernel
example : isIPv6 (b! "1:2:3:4:5:6:255.0.0.255") = .ok true := by decide +kernel
example : isIPv6 (b! "1::2::3") = .ok false := by decide +kernel
example : isIPv6 (b! "1:2:3:4:5:6:7") = .ok false := by decide +kernel
example : isIPv6 (b! "1:2:3:4:5:6:7:8::") = .ok false := by decide +kernel
example : isIPv6 (b! "1:2:3:4:5:1.2.3.4") = .ok false := by decide +kernel
example : isIPv6 (b! "::1:2:3:4:5:6:7:1.2.3.4") = .ok false := by decide +kernel
example : isIPv6 (b! "1-2:3:4:5:6:7:8") = .ok false := by decide +kernel
example : isIPv6 (b! "::12345") = .ok false := by decide +kernel
example : isIPv6 (b! "::g") = .ok false := by decide +kernel
example : isIPv6 (b! "::G") = .ok false := by decide +kernel

/-! ## C14 -/
example : isIPv4 (b! "1..2.3") = .ok false := by decide +kernel
example : isIPv4 (b! "255.255.255.255") = .ok true := by decide +kernel
example : isIPv4 (b! "1.2.3.4.") = .ok true := by decide +kernel
example : isIPv4 (b! "1.2.3.256") = .ok false := by decide +kernel
example : isIPv4 (b! "1.2.3.04") = .ok false := by decide +kernel
example : isIPv4 (b! "1.2.3") = .ok false := by decide +kernel
example : isIPv4 (b! "1.2.3.4.5") = .ok false := by decide +kernel
example : isIPv4 (b! "1.2.3.4x") = .ok false := by decide +kernel

/-! ## C15 -/
example : (caseOf (b! "0.1.2.3")).map (·.1.hostType) = some .iPv4 := by decide +kernel

/-! ## C16 -/
example : errorOf (b! "a]") = some .closingWithoutOpening := by decide +kernel
example : errorOf (b! "[::1]x/") = some .trailingAfterIPv6 := by decide +kernel
example : errorOf (b! "[zz]") = some .invalidIPv6 := by decide +kernel

/-! ## C17 -/
example : partOf (·.suffix) (b! "www.a.co.uk.") = some (b! "co.uk") := by decide +kernel
example : partOf (·.suffix) (b! "x.a.com.") = some (b! "com") := by decide +kernel
example : partOf (·.suffix) (b! "x.a.co.uk") = some (b! "co.uk") := by decide +kernel
example : partOf (·.suffix) (b! "x.a.ck") = some (b! "a.ck") := by decide +kernel
example : partOf (·.suffix) (b! "x.www.ck") = some (b! "ck") := by decide +kernel
example : partOf (·.suffix) (b! "a.com.") = some (b! "com") := by decide +kernel

/-! ## C20 -/
example : partOf (·.domain) (b! "x｡a.com") = some (b! "a") := by decide +kernel
example : partOf (·.domain) (b! "x.a.com") = some (b! "a") := by decide +kernel
example : partOf (·.domain) (b! "x。a.com") = some (b! "a") := by decide +kernel

/-! ## C21 -/
example : errorOf (b! "a_b.com") = some .invalidCharacters := by decide +kernel
example : errorOf (b! "a!b.com") = some .invalidCharacters := by decide +kernel
example : errorOf (b! "a!b.c") = some .invalidCharacters := by decide +kernel

/-! ## C22 -/
example : errorOf (b! "a..uk") = some .consecutiveSeparators := by decide +kernel
example : errorOf (b! "x..a.com") = some .invalidCharacters := by decide +kernel

/-! ## C24 -/
example : (extract idId (buildTrie [b! "com"]) { url := b! "a.c%6fm" }).toOption.map (·.1.suffix) = some (b! "c%6fm") := by
  decide +kernel
example : (extract idId (buildTrie [b! "x y"]) { url := b! "a.x+y" }).toOption.map (·.1.suffix) = some (b! "x+y") := by
  decide +kernel
example : (extract idId (buildTrie [b! "com"]) { url := b! "a.%63om" }).toOption.map (·.1.suffix) = some (b! "%63om") := by
  decide +kernel

/-! ## C27 -/
example : (caseOf (b! "x.a.com")).map (·.1.registeredDomain) = some (b! "a.com") ∧
    (caseOf (b! "a.com")).map (fun r => (r.1.domain, r.1.suffix, r.1.registeredDomain, r.2)) =
      some (b! "a", b! "com", b! "a.com", none) := by decide +kernel

/-! ## C28 -/
example : (caseOf (b! "1.2.3.4:80")).map (fun r => (r.1.hostType, r.1.domain)) =
    (caseOf (b! "http://u@1.2.3.4/x")).map (fun r => (r.1.hostType, r.1.domain)) := by decide +kernel

/-! ## C32 -/
example : (makeASCIISet (codes (b! "?"))).contains 63 = true := by decide +kernel
example : (makeASCIISet (codes (b! "@"))).contains 64 = true := by decide +kernel
example : (makeASCIISet (codes (b! "@"))).contains 32 = false := by decide +kernel
example : (makeASCIISet [0x3002]).contains 2 = false := by decide +kernel

/-! ## C33 -/
example : fastTrim (b! "　a") [0x3000] .trimLeft = .ok (b! "a") := by decide +kernel
example : fastTrim (b! "a　") [0x3000] .trimRight = .ok (b! "a") := by decide +kernel
example : fastTrim (b! "  a ") [32] .trimLeft = .ok (b! "a ") := by decide +kernel
example : fastTrim (b! "  ") [32] .trimBoth = .ok [] := by decide +kernel

/-! ## C34 -/
-- not in shortest form, a surrogate, above U+10FFFF, a byte too many, a byte that continues nothing
example : lastIndexAny [0xC0, 0xAE] [46] = .ok (-1) := by decide +kernel
example : lastIndexAny [0xE0, 0x80, 0xAE] [46] = .ok (-1) := by decide +kernel
example : lastIndexAny [0xED, 0xA0, 0x80] [0xD800] = .ok (-1) := by decide +kernel
example : lastIndexAny [0xF4, 0x90, 0x80, 0x80] [0x110000] = .ok (-1) := by decide +kernel
example : lastIndexAny [0xE3, 0x80, 0x82, 0x82] [0x3002] = .ok 0 := by decide +kernel
example : lastIndexAny [0xE3, 0x80, 0xC0] [0x3040] = .ok (-1) := by decide +kernel
example : lastIndexAny [0xF0, 0x9F, 0x98, 0x80] [0x1F600] = .ok 0 := by decide +kernel
example : lastIndexAny (b! "a。b.c") [46, 0x3002] = .ok 5 := by decide +kernel
example : lastIndexAny (b! "abc") [46, 0x3002] = .ok (-1) := by decide +kernel

/-! ## C35 -/
example : reverse [[1], [2], [3], [4]] = [[4], [3], [2], [1]] := by decide +kernel

/-! ## C52 -/
example : caseOf (b! "[::1]") =
    some ({ domain := b! "::1", registeredDomain := b! "::1", hostType := .iPv6 }, none) := by decide +kernel
example : caseOf (b! "[::1]:80") =
    some ({ domain := b! "::1", registeredDomain := b! "::1", port := b! "80", hostType := .iPv6 }, none) := by decide +kernel
example : errorOf (b! "a.com%4") = some (.badEscape (b! "%4")) := by decide +kernel
example : errorOf (b! "a.%6gom") = some (.badEscape (b! "%6g")) := by decide +kernel
example : (extract { idId with lookupASCII := fun _ => none } (buildTrie exRules) ⟨b! "a.com", false, true⟩).toOption =
    some ({}, some .emptyDomain) := by decide +kernel
example : (extract { idId with lookupASCII := fun _ => some (b! "a.%zz") } (buildTrie [b! "%zz"]) ⟨b! "a.com", false, true⟩).toOption.map
    (·.1.suffix) = some [] := by decide +kernel
example : caseOf (b! "http://u@a..uk:1/p") =
    some ({ scheme := b! "http://", userInfo := b! "u", port := b! "1", path := b! "/p" }, some .consecutiveSeparators) := by
  decide +kernel
example : (extract { idId with toUnicodeErr := fun _ => some (b! "bad") } (buildTrie exRules) { url := b! "a.com" }).toOption =
    some ({}, some (.idna (b! "bad"))) := by decide +kernel

end Fasttld.Props
