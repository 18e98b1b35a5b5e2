import Verif.Props.Memory
import Verif.Props.Print
import Verif.Props.Rules

/-!
# Concrete cases: lists, New and Update, output

As in Props/Cases.lean.
-/

namespace Fasttld.Props
open Fasttld Fasttld.Spec

/-! ## C18 -/
example : (extract idId (buildTrie [b! "com", b! "a.com"]) { url := b! "q.com" }).toOption =
    (extract idId (buildTrie [b! "a.com", b! "com"]) { url := b! "q.com" }).toOption := by decide +kernel
example : (extract idId (buildTrie [b! "com", b! "a.com", b! "com"]) { url := b! "q.a.com" }).toOption =
    (extract idId (buildTrie [b! "com", b! "a.com"]) { url := b! "q.a.com" }).toOption := by decide +kernel

/-! ## C19 -/

/-- Whether a path is marked, if it is in the index. -/
def markAt (rules : List Bytes) (p : List Bytes) : Option Bool := ((buildTrie rules).find p).map (·.isEnd)

example : markAt [b! "co.uk"] [b! "uk", b! "co"] = some true := by decide +kernel
example : markAt [b! "co.uk"] [b! "uk"] = some false := by decide +kernel
example : markAt [b! "co.uk"] [b! "co"] = none := by decide +kernel
example : markAt [b! "a.uk", b! "uk", b! "b.uk"] [b! "uk", b! "a"] = some true := by decide +kernel
example : markAt [b! "*.ck"] [b! "ck"] = some true := by decide +kernel
example : markAt [b! "*.a.ck"] [b! "ck", b! "a"] = some false := by decide +kernel

/-! ## C29 -/

/-- The lists for a text, with an IDNA library that refuses `bad`. -/
def listsOf (text : Bytes) : List Bytes × List Bytes × List Bytes :=
  let p := parsePSL ⟨exampleASCII, fun _ => none, fun _ => none⟩ text
  (p.publicSuffixes, p.privateSuffixes, p.allSuffixes)

example : listsOf (b! "ä\nbad\nb") = ([b! "xn--4ca", b! "ä", b! "b"], [], [b! "xn--4ca", b! "ä", b! "b"]) := by decide +kernel
example : listsOf (b! "/a\n//b") = ([b! "/a"], [], [b! "/a"]) := by decide +kernel
example : listsOf (b! "a\n// ===BEGIN PRIVATE DOMAINS===\nb") = ([b! "a"], [b! "b"], [b! "a", b! "b"]) := by decide +kernel

/-! ## C30 -/
example : listsOf (b! "　a　\nb") = listsOf (b! "a\nb") := by decide +kernel
example : listsOf (b! "\t a \r\n\r\n // c\r\nb") = listsOf (b! "a\nb") := by decide +kernel

/-! ## C31 -/
example : (listsOf (b! "a\n// ===BEGIN PRIVATE DOMAINS===\nbad\nc")).1 = [b! "a"] := by decide +kernel
example : suffixOf ⟨[], trieOfText idId false listA, false⟩ (b! "q.a.com") = some (b! "com", none) := by decide +kernel

/-! ## C36 -/

/-- What New comes back with: path, error, and suffix of a URL. -/
def newOf (hard path : Bytes) (priv : Bool) (w : World) (url : Bytes) :
    Bytes × Option SysErr × Option (Bytes × Option Err) :=
  let r := ((new idId hard ⟨path, priv⟩).exec w).1
  (r.1.cacheFilePath, r.2, suffixOf r.1 url)

-- the list with the markers is at `/x`, the file that is read then is ` /x`
example : newOf builtin (b! " /x") false (exWorld none) (b! "q.com") = ([], none, some (b! "com", none)) := by decide +kernel
-- there is no temporary folder
example : newOf listA (b! "/no") true { exWorld none with canOpenDir := fun _ => false } (b! "q.a.com") =
    ([], none, some (b! "a.com", none)) := by decide +kernel
example : newOf listA (b! "/no") false { exWorld none with canOpenDir := fun _ => false } (b! "q.a.com") =
    ([], none, some (b! "com", none)) := by decide +kernel
-- no source answers
example : newOf builtin [] false { exWorld none with net := fun _ => .failed } (b! "q.com") =
    ([], none, some (b! "com", none)) := by decide +kernel

/-! ## C37 -/
example : newOf builtin (b! "/x") true (exWorld none) (b! "q.b.com") = (b! "/x", none, some (b! "b.com", none)) := by
  decide +kernel

/-! ## C38 -/
example : (((⟨b! "/x", .node true [], true⟩ : FastTLD).update idId builtin).exec (exWorld none)).1.2 = some .noOp := by
  decide +kernel
example : (((⟨[], .node true [], true⟩ : FastTLD).update idId builtin).exec (exWorld none)).2.2 = [.tempDir (b! "/tmp/")] := by
  decide +kernel

/-! ## C39 -/

/-- An extractor with the default cache file and the rules `com` and `net`. -/
def comNet : FastTLD := ⟨b! "/tmp/public_suffix_list.dat", buildTrie [b! "com", b! "net"], false⟩

/-- Error of an Update of it, and suffix of `q.net` afterwards. -/
def updateOf (w : World) : Option SysErr × Option (Bytes × Option Err) :=
  let r := ((comNet.update idId builtin).exec w).1
  (r.2, suffixOf r.1 (b! "q.net"))

example : updateOf { exWorld none with net := fun _ => .failed } = (some .allMirrors, some (b! "net", none)) := by decide +kernel
example : updateOf (exWorld (some (.dir 0))) = (some .openFile, some (b! "net", none)) := by decide +kernel
example : updateOf (exWorld (some (.file ⟨[], 0, false, true⟩))) = (some .readFile, some (b! "net", none)) := by decide +kernel

/-! ## C40 -/
example : updateOf (exWorld none) = (none, some ([], none)) := by decide +kernel

/-! ## C41 -/

/-- Whether the sources of a world lead to a write, and the calls. -/
def attemptsOf (w : World) : Bool × List Event :=
  let r := (update 2 publicSuffixListSources).exec w
  (r.1, r.2.2)

/-- Both sources give the same answer. -/
def answering (r : Response) : World := { exWorld none with net := fun _ => r }

-- no list; no complete list; an error page
example : (attemptsOf (answering (.status 200 (b! "com\n") true))).1 = false := by decide +kernel
example : (attemptsOf (answering (.status 200 listB false))).1 = false := by decide +kernel
example : (attemptsOf (answering (.status 300 listB true))).1 = false := by decide +kernel
-- each of the markers missing
example : ∀ m ∈ [b! "// ===BEGIN ICANN DOMAINS===", b! "// ===END ICANN DOMAINS===", b! "// ===BEGIN PRIVATE DOMAINS===",
    b! "// ===END PRIVATE DOMAINS==="], (attemptsOf (answering (.status 200
      (([b! "// ===BEGIN ICANN DOMAINS===", b! "// ===END ICANN DOMAINS===", b! "// ===BEGIN PRIVATE DOMAINS===",
        b! "// ===END PRIVATE DOMAINS==="].filter (· ≠ m)).flatMap (· ++ [10])) true))).1 = false := by decide +kernel
-- stops at the first
example : (attemptsOf (answering (.status 200 listB true))).2.filterMap urlOf =
    [b! "https://publicsuffix.org/list/public_suffix_list.dat"] := by decide +kernel
-- goes on
example : (attemptsOf { answering (.status 200 listB true) with seekWorks := false }).2.filterMap urlOf =
    publicSuffixListSources := by decide +kernel
example : (attemptsOf { answering (.status 200 listB true) with writeStops := fun _ => some 3 }).2.filterMap urlOf =
    publicSuffixListSources := by decide +kernel
example : attemptsOf { answering (.status 200 listB true) with writeStops := fun _ => some 3 } =
    (false, publicSuffixListSources.flatMap fun u =>
      [.httpGet u (.status 200 listB true), .seek 2 true, .write 2 listB false]) := by decide +kernel

/-! ## C42 -/

/-- The addresses New asks. -/
def askedBy (path : Bytes) (w : World) : List Bytes := ((new idId builtin ⟨path, false⟩).exec w).2.2.filterMap urlOf

-- a custom file without the markers
example : askedBy (b! "/x") { exWorld none with nodes := fun _ => some (.file ⟨b! "com\n", 0, true, true⟩) } ≠ [] := by
  decide +kernel
-- the path without the space leads nowhere
example : askedBy (b! " /y") (exWorld none) = publicSuffixListSources := by decide +kernel
-- new, but without the markers
example : askedBy [] (exWorld (some (.file ⟨b! "com\n", 100 * hour, true, true⟩))) = publicSuffixListSources := by decide +kernel
example : askedBy [] (exWorld (some (.file ⟨listA, 28 * hour, true, true⟩))) = [] := by decide +kernel
example : askedBy [] (exWorld (some (.file ⟨listA, 28 * hour - 1, true, true⟩))) = publicSuffixListSources := by decide +kernel

-- a file that was downloaded is fresh
example : ((comNet.update idId builtin).exec (exWorld (some (.file ⟨listA, 0, true, true⟩)))).2.1.statOf
    (b! "/tmp/public_suffix_list.dat") = some ⟨false, 100 * hour⟩ := by decide +kernel
example : askedBy [] ((comNet.update idId builtin).exec (exWorld (some (.file ⟨b! "", 0, true, true⟩)))).2.1 = [] := by
  decide +kernel

/-! ## C43 -/

/-- What is in the cache file, which had list A, if Update dies after `n` calls and `k` bytes; all sources offer `body`. -/
def crashed (body : Bytes) (n k : Nat) : Option Bytes :=
  match ((comNet.update idId builtin).crashAt n k { exWorld (some (.file ⟨listA, 0, true, true⟩)) with
      net := fun _ => .status 200 body true }).nodes 2 with
  | some (.file g) => some g.content
  | _ => none

-- a list without the last marker is not written, wherever Update dies
example : ∀ n < 12, crashed (listB.take 100) n 10 = some listA := by decide +kernel
example : ∀ n < 12, crashed (b! "com\n") n 10 = some listA := by decide +kernel
-- otherwise a beginning of it is written over the old one
example : ∀ n < 12, crashed listB n 30 ∈ [0, 30, listB.length].map fun k => some (listB.take k ++ listA.drop k) := by
  decide +kernel

/-! ## C44 -/
example : suffixOf ((new idId builtin ⟨b! "/x", true⟩).exec (exWorld none)).1.1 (b! "q.net") =
    suffixOf ⟨[], trieOfText idId true listA, true⟩ (b! "q.net") := by decide +kernel
example : suffixOf ((comNet.update idId builtin).exec (exWorld none)).1.1 (b! "q.b.org") = some (b! "org", none) := by
  decide +kernel
example : ((comNet.update idId builtin).exec (exWorld none)).1.1.includePrivateSuffix = false := by decide +kernel

/-! ## C46 -/
example : (printRes (b! "u") { domain := b! "d" }).map (·.text) =
    [b! "              url: ", b! "u\n", b! "           scheme: ", b! "\n", b! "         userinfo: ", b! "\n",
     b! "        subdomain: ", b! "\n", b! "           domain: ", b! "d\n", b! "           suffix: ", b! "\n",
     b! "registered domain: ", b! "\n", b! "             port: ", b! "\n", b! "             path: ", b! "\n",
     b! "        host type: ", b! "\n", b! "\n"] := by decide +kernel
example : ((printRes (b! "u") { domain := b! "d" }).filter (fun c => c.attrs = [.fgHiYellow, .bold])).map (·.text) =
    [b! "              url: ", b! "           domain: "] := by decide +kernel
example : ([HostType.none, .hostName, .iPv4, .iPv6].map fun t =>
      ((printRes (b! "u") { hostType := t }).getD 19 ⟨[], []⟩).text) =
    [b! "\n", b! "hostname\n", b! "ipv4 address\n", b! "ipv6 address\n"] := by decide +kernel

/-! ## C49 -/
example : outOf ((cliExtract idId builtin (fun _ => b! "bad") false false false (b! "a:x")).exec (exWorld none)).1 =
    b! "Error: bad\n" ++ textOf (printRes (b! "a:x") {}) := by decide +kernel
example : outOf ((cliExtract idId builtin (fun _ => b! "bad") false true false (b! "x.y.com")).exec (exWorld none)).1 =
    textOf (printRes (b! "x.y.com") { domain := b! "y", suffix := b! "com", registeredDomain := b! "y.com", hostType := .hostName }) := by
  decide +kernel

/-! ## C50 -/
example : fallbackFile (b! "now") (b! "here") (b! "x") =
    b! "package fasttld\n\n// Code generated by go generate; DO NOT EDIT.\n// This file was generated by robots at\n// now\n// using data from\n// here\n\nconst hardcodedPSL string = `x`\n" := by
  decide +kernel

/-! ## C51 -/

/-- Goroutine `i` runs alone and sees the latest values. -/
def runsAlone (i : Nat) : (fuel : Nat) → WSys → WSys
  | 0, s => s
  | fuel + 1, s =>
    match s.step i 0 with
    | some s => runsAlone i fuel s
    | none => s

/-- Suffix of a URL after an Update that read these rules; the trie was empty before. -/
def inMemory (rules : List Bytes) (url : Bytes) : Option (Option (Bytes × Option Err)) :=
  let s : WSys := ⟨⟨fun r => if r = 0 then [(⟨false, []⟩, 2)] else [], [(0, 2)], 1⟩,
    [Job.prog idId (.extract { url := url }), Job.prog idId (.update rules)]⟩
  match (runsAlone 0 1000 (runsAlone 1 1000 s)).outcome 0 with
  | some (.extracted r) => some (r.toOption.map fun r => (r.1.suffix, r.2))
  | _ => none

example : inMemory [b! "uk", b! "com", b! "co.uk", b! "a.co.uk"] (b! "q.a.co.uk") = some (some (b! "a.co.uk", none)) := by decide +kernel
example : inMemory [b! "a.co.uk", b! "co.uk", b! "com", b! "uk"] (b! "q.co.uk") = some (some (b! "co.uk", none)) := by decide +kernel
example : inMemory [b! "a.co.uk", b! "co.uk", b! "com", b! "uk"] (b! "q.co.uk.") = some (some (b! "co.uk", none)) := by decide +kernel
example : inMemory [b! "com", b! "uk", b! "co.uk"] (b! "q.com") = some (some (b! "com", none)) := by decide +kernel
example : inMemory [b! "*.ck", b! "*.er", b! "!www.er"] (b! "q.ck") = some (some (b! "q.ck", some .emptyDomain)) := by
  decide +kernel
example : inMemory [b! "*.ck", b! "*.er", b! "!www.er"] (b! "q.www.er") = some (some (b! "er", none)) := by decide +kernel
example : inMemory [b! "*.ck", b! "*.er", b! "!www.er"] (b! "x.y.er") = some (some (b! "y.er", none)) := by decide +kernel

/-! ## C53 -/
example : (extract idId (buildTrie [b! "*.ck", b! "x.uk"]) { url := b! "q.y.uk" }).toOption =
    (extract idId (buildTrie [b! "x.uk"]) { url := b! "q.y.uk" }).toOption := by decide +kernel
example : (extract idId (buildTrie [b! "com", b! "a.b.com", b! "*.com", b! "x.uk", b! "!uk"]) { url := b! "q.x.uk" }).toOption =
    (extract idId (buildTrie [b! "x.uk"]) { url := b! "q.x.uk" }).toOption := by decide +kernel

/-! ## C55 -/

/-- The suffix of a name, with these rules; the suffix is found whether or not there is a domain. -/
def suffixWith (rules : List Bytes) (name : Bytes) : Option Bytes :=
  (extract idId (buildTrie rules) { url := name }).toOption.map (·.1.suffix)

example : [b! "x.a.ck", b! "a.ck", b! "x.www.ck", b! "www.ck", b! "x.y.a.ck"].map (suffixWith [b! "*.ck", b! "!www.ck"]) =
    [b! "a.ck", b! "a.ck", b! "ck", b! "ck", b! "a.ck"].map some := by decide +kernel
example : [b! "x.uk", b! "x.co.uk", b! "x.a.b.uk", b! "b.uk"].map (suffixWith [b! "uk", b! "co.uk", b! "b.uk", b! "*.b.uk"]) =
    [b! "uk", b! "co.uk", b! "a.b.uk", b! "b.uk"].map some := by decide +kernel

/-! ## C56 -/
example : [b! "x.y.a.ck", b! "x.com", b! "x.b.uk", b! "x.a.b.uk", b! "x.c.b.uk"].map
      (suffixWith [b! "*.ck", b! "com", b! "uk", b! "a.b.uk"]) =
    [b! "a.ck", b! "com", b! "b.uk", b! "a.b.uk", b! "b.uk"].map some := by decide +kernel   -- the third and the fifth are mishandled

end Fasttld.Props
