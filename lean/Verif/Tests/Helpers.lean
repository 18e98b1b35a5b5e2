import Verif.Model.Extract

/-!
# Conformance tests for the helpers (tests, not proofs)

Rows of /repo/net_test.go, /repo/strings_test.go, /repo/psl_test.go and /repo/fasttld_test.go:43-186.
-/

namespace Fasttld.Tests
open Fasttld

def isOk (r : Go Bool) (b : Bool) : Bool := match r with | .ok x => x == b | .error _ => false
def okBytes (r : Go Bytes) (b : Bytes) : Bool := match r with | .ok x => x == b | .error _ => false

-- net_test.go:10-53
#guard isOk (isIPv4 (b! "")) false
#guard isOk (isIPv4 (b! " ")) false
#guard isOk (isIPv4 (b! "google.com")) false
#guard isOk (isIPv4 (b! "1google.com")) false
#guard isOk (isIPv4 (b! "127.0.0.1")) true
#guard isOk (isIPv4 (b! "127.0.0.256")) false
#guard isOk (isIPv6 (b! "")) false
#guard isOk (isIPv6 (b! " ")) false
#guard isOk (isIPv6 (b! "google.com")) false
#guard isOk (isIPv6 (b! "1google.com")) false
#guard isOk (isIPv6 (b! "aBcD:ef01:2345:6789:aBcD:ef01:2345:6789")) true
#guard isOk (isIPv6 (b! "gGgG:ef01:2345:6789:aBcD:ef01:2345:6789")) false
#guard isOk (isIPv6 (b! "aBcD:ef01:2345:6789:aBcD:ef01:127.0.0.1")) true
#guard isOk (isIPv6 (b! "aBcD:ef01:2345:6789:aBcD:ef01:127.0.0.256")) false

-- strings_test.go:34-39
#guard reverse [] == []
#guard reverse [b! "ab"] == [b! "ab"]
#guard reverse [b! "ab", b! "cd", b! "gh", b! "ij"] == [b! "ij", b! "gh", b! "cd", b! "ab"]
#guard reverse [b! "ab", b! "cd", b! "ef", b! "gh", b! "ij"]
  == [b! "ij", b! "gh", b! "ef", b! "cd", b! "ab"]

-- strings_test.go:51-80 (the expectations of strings.Trim / TrimLeft / TrimRight written out)
def trimSet : RuneSet := [0x2e, 0x40, 0x65b0]
#guard okBytes (fastTrim (b! ".abc.") trimSet .trimBoth) (b! "abc")
#guard okBytes (fastTrim (b! "新@abc新.") trimSet .trimBoth) (b! "abc")
#guard okBytes (fastTrim (b! "新@abc新.") trimSet .trimLeft) (b! "abc新.")
#guard okBytes (fastTrim (b! "新@abc新.") trimSet .trimRight) (b! "新@abc")
#guard okBytes (fastTrim (b! ".@新") trimSet .trimBoth) []
#guard okBytes (fastTrim (b! ".@新") trimSet .trimLeft) []
#guard okBytes (fastTrim (b! ".@新") trimSet .trimRight) []
#guard okBytes (fastTrim (b! " .@ 新") trimSet .trimBoth) (b! " .@ ")
#guard okBytes (fastTrim (b! ". .@ ") trimSet .trimBoth) (b! " .@ ")
#guard okBytes (fastTrim (b! "abc") trimSet .trimBoth) (b! "abc")
#guard okBytes (fastTrim [] trimSet .trimBoth) []

-- psl_test.go:24-30 on /repo/test/mini_public_suffix_list.dat; `xn--0.com` fails idna.ToASCII
def miniIdna : Idna where
  toASCII := fun x => if x = b! "xn--0.com" then none else some x
  lookupASCII := fun x => some x
  toUnicodeErr := fun _ => none
def miniText : Bytes := b! "// ===BEGIN ICANN DOMAINS===
ac
com.ac
edu.ac
gov.ac
net.ac
mil.ac
org.ac
*.ck
!www.ck
org.sg
// ===END ICANN DOMAINS===
// ===BEGIN PRIVATE DOMAINS===
blogspot.com
// the following line is invalid punycode
xn--0.com
// ===END PRIVATE DOMAINS===
"
def miniPublic : List Bytes := [b! "ac", b! "com.ac", b! "edu.ac", b! "gov.ac", b! "net.ac",
  b! "mil.ac", b! "org.ac", b! "*.ck", b! "!www.ck", b! "org.sg"]
#guard parsePSL miniIdna miniText == ⟨miniPublic, [b! "blogspot.com"], miniPublic ++ [b! "blogspot.com"]⟩

-- fasttld_test.go:137-186 and :194-197 on the same file
def miniTrie : Trie := trieOfText miniIdna false miniText
#guard miniTrie.kids.length == 3
#guard (trieOfText miniIdna true miniText).kids.length == 4
#guard (miniTrie.get (b! "ac")).any (·.isEnd)
#guard (miniTrie.get (b! "ck")).any (fun t => t.isEnd && t.kids.length == 2)
#guard ((miniTrie.get (b! "ck")).bind (·.get (b! "*"))).any (·.kids.length == 0)
#guard ((miniTrie.get (b! "ck")).bind (·.get (b! "!www"))).any (·.kids.length == 0)
#guard ((miniTrie.get (b! "sg"))).any (!·.isEnd)
#guard ["com", "edu", "gov", "net", "mil", "org"].all fun l =>
  ((miniTrie.get (b! "ac")).bind (·.get l.toUTF8.toList)).any (·.kids.length == 0)

-- fasttld_test.go:43-61: two of the key sequences, same resulting structure
def nested (ks : List (List Bytes)) : Trie := ks.foldl nestedDict Trie.empty
#guard [[[b! "a"], [b! "a", b! "d"], [b! "a", b! "b"], [b! "a", b! "b", b! "c"], [b! "c"],
    [b! "c", b! "b"], [b! "d", b! "f"]],
   [[b! "d", b! "f"], [b! "c", b! "b"], [b! "a", b! "d"], [b! "a", b! "b", b! "c"], [b! "a"],
    [b! "c"], [b! "a", b! "b"]]].all fun ks =>
  let t := nested ks
  (t.get (b! "c")).any (fun c => c.isEnd && c.kids.length == 1 && (c.get (b! "b")).isSome) &&
  (t.get (b! "a")).any (fun a => a.isEnd && a.kids.length == 2 &&
    (a.get (b! "d")).any (fun d => d.kids.length == 0) &&
    (a.get (b! "b")).any (fun b => b.isEnd && b.kids.length == 1 &&
      (b.get (b! "c")).any (fun c => c.kids.length == 0))) &&
  (t.get (b! "d")).any (fun d => !d.isEnd && (d.get (b! "f")).any (fun f => f.isEnd && f.kids.length == 0))

end Fasttld.Tests
