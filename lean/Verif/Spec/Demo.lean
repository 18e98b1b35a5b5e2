import Verif.Spec.Client
import Verif.Spec.Cli

/-!
# Specification: what examples/demo.go shows
-/

namespace Fasttld.Spec
open Fasttld

/-- One of the results that are shown: what is printed before it, which of the four extractors it is from, the arguments, and whether
an error is shown. -/
structure DemoRow where
  heading : List Chunk
  extractor : Nat
  e : URLParams
  showsError : Bool := false

/-- A line in bright and bold letters. -/
def boldLine (t : Bytes) : Chunk := ⟨[.fgHiWhite, .bold], t ++ [10]⟩

/-- The ten results. -/
def demoRows : List DemoRow :=
  [⟨[boldLine (b! "Hostname")], 0, { url := b! "https://user@a.subdomain.example.a%63.uk:5000/a/b?id=42" }, false⟩,
   ⟨[boldLine (b! "IPv4 Address")], 0, { url := b! "https://127.0.0.1:5000" }, false⟩,
   ⟨[boldLine (b! "IPv6 Address")], 0, { url := b! "https://[aBcD:ef01:2345:6789:aBcD:ef01:2345:6789]:5000" }, false⟩,
   ⟨[boldLine (b! "Internationalised label separators")], 0, { url := b! "https://brb.i。am．going｡to．be。a｡fk" }, false⟩,
   ⟨[boldLine (b! "Exclude Private Domains")], 1, { url := b! "https://google.blogspot.com" }, false⟩,
   ⟨[boldLine (b! "Include Private Domains")], 2, { url := b! "https://google.blogspot.com" }, false⟩,
   ⟨[boldLine (b! "Ignore Subdomains")], 3, { url := b! "https://maps.google.com", ignoreSubDomains := true }, false⟩,
   ⟨[boldLine (b! "No Punycode")], 3, { url := b! "https://hello.世界.com" }, false⟩,
   ⟨[boldLine (b! "Punycode")], 3, { url := b! "https://hello.世界.com", convertURLToPunyCode := true }, false⟩,
   ⟨[boldLine (b! "Parsing errors"), ⟨[], b! "The following line should be an error message\n"⟩], 3, { url := b! "https://example!.com" }, true⟩]

/-- Which of the extractors use the private section. -/
def demoPrivate : List Bool := [false, false, true, false]

/-- What is printed for a result. -/
def DemoRow.shows (text : Err → Bytes) (row : DemoRow) (r : ExtractResult × Option Err) : List Chunk :=
  row.heading ++ (if row.showsError then shownError (r.2.map text) else []) ++ shown row.e.url r.1

/-- A list that was read, or the built-in one. -/
def ReadOrBuiltIn (hard : Bytes) (evs : List LEvent) (list : Bytes) : Prop :=
  list = hard ∨ ∃ path t, LEvent.sys (.readFile path (some list)) t ∈ evs

/-- `out` is what is to be printed: the ten results, each with the list of its extractor. -/
def DemoShows (idna : Idna) (hard : Bytes) (text : Err → Bytes) (evs : List LEvent) (out : List Chunk) : Prop :=
  ∃ (lists : List Bytes) (rs : List (ExtractResult × Option Err)), lists.length = 4 ∧ rs.length = 10 ∧
    (∀ list ∈ lists, ReadOrBuiltIn hard evs list) ∧
    (∀ s ∈ demoRows.zip rs, ∃ list priv, lists[s.1.extractor]? = some list ∧ demoPrivate[s.1.extractor]? = some priv ∧
      ∀ ts before after, StrippedLines list ts → Sections ts before after →
        Extracts idna (rulesOf idna.toASCII (if priv then ts else before)) s.1.e s.2.1 s.2.2) ∧
    out = (List.zipWith (DemoRow.shows text) demoRows rs).flatten

end Fasttld.Spec
