import Verif.Proofs.Judged
import Verif.Props.Url
import Verif.Props.Psl

/-!
# C52: a complete specification of Extract
-/

set_option linter.unusedSimpArgs false

namespace Fasttld.Props
open Spec

/-- C52: the result and the error of Extract are those of the specification, for every URL and every list of rules,
whether Extract succeeds or fails; nothing else is ever returned, and there is no panic. -/
theorem C52_extract (idna : Idna) (rules : List Bytes) (e : URLParams) (r : ExtractResult) (err : Option Err) :
    extract idna (buildTrie rules) e = .ok (r, err) ↔ Extracts idna rules e r err :=
  extracts_iff idna rules e r err

/-- C52: the same from the text of the list on: the rules are those of its lines, or of those before the line that
begins the private section. -/
theorem C52_from_text (idna : Idna) {text : Bytes} {ts before after : List Bytes} (h : StrippedLines text ts)
    (hs : Sections ts before after) (priv : Bool) (e : URLParams) (r : ExtractResult) (err : Option Err) :
    extract idna (trieOfText idna priv text) e = .ok (r, err) ↔
      Extracts idna (rulesOf idna.toASCII (if priv then ts else before)) e r err := by
  rw [← C52_extract, trieOfText, parsePSL_eq idna h hs]
  cases priv with
  | false => simp
  | true => simp only [if_true, hs.1, rulesOf_append]

/-- C52: to every URL and every list belong exactly one result and error. -/
theorem C52_one_result (idna : Idna) (rules : List Bytes) (e : URLParams) :
    ∃ r err, Extracts idna rules e r err ∧ ∀ r' err', Extracts idna rules e r' err' → r' = r ∧ err' = err := by
  obtain ⟨sch, ui, a, hA⟩ := authority_exists e.url
  obtain ⟨r, err, hf⟩ := finished_exists idna rules e sch ui (scan_hostAt a)
  have h := finished_eq hA (scan_hostAt a) hf
  refine ⟨r, err, (extracts_iff ..).1 h, fun r' err' h' => ?_⟩
  rw [← extracts_iff, h] at h'
  simp only [Except.ok.injEq, Prod.mk.injEq] at h'
  exact ⟨h'.1.symm, h'.2.symm⟩

/-- C52: the specification looks at the rules as a set. -/
theorem C52_rules_as_set (idna : Idna) {rules rules' : List Bytes} (h : ∀ x, x ∈ rules ↔ x ∈ rules') (e : URLParams)
    (r : ExtractResult) (err : Option Err) : Extracts idna rules e r err ↔ Extracts idna rules' e r err := by
  have hr : ∀ p, RuleAt rules p ↔ RuleAt rules' p := by
    intro p; unfold RuleAt; simp only [h]
  rw [← C52_extract, ← C52_extract]
  have : (buildTrie rules).Same (buildTrie rules') := by
    intro p
    simp only [buildTrie_has, buildTrie_endAt, PrefixAt, hr, and_self]
  rw [extract_same this]

/-! Examples: one of every kind of result and of every error. -/

-- pieces of the specification, by hand
example : HostAt (b! "[1]2]x/y]") (.literal (b! "1]2") (b! "x/y]")) :=
  .literal (y := b! "1") (z := b! "2]x") (inner := b! "1]2") (rest := b! "x") (path := b! "/y]") (by unfold NoBrackets; decide)
    (by unfold BeforePath; decide) (by decide) (by decide) (by rintro x t h; injection h with h; subst h; decide)
example : Parts (b! "a") [(46, b! "b"), (46, b! "co"), (0x3002, b! "uk")] (some 0) 2 (b! "a") (b! "b")
    (b! "co" ++ encode 0x3002 ++ b! "uk") (b! "b.co" ++ encode 0x3002 ++ b! "uk") :=
  .suffix (front := [(46, b! "b")]) (s := 46) (l := b! "co") (more := [(0x3002, b! "uk")]) (back := []) rfl rfl rfl
    (.inr ⟨[], 46, b! "b", rfl, rfl, rfl⟩)
example : Stops [b! "*.ck", b! "!www.ck"] [b! "ck", b! "www", b! "a"] [b! "ck", b! "www", b! "a"] 1 1 1 :=
  .exception (l := b! "www") rfl (by decide)
    (.inr ⟨[b! "ck", b! "*"], List.prefix_rfl, b! "*.ck", by decide, by decide, by decide, by decide⟩)
    (.inr ⟨[b! "ck", b! "!www"], List.prefix_rfl, b! "!www.ck", by decide, by decide, by decide, by decide⟩)

/-- Rules for examples. -/
def exRules : List Bytes := [b! "com", b! "uk", b! "co.uk", b! "*.ck", b! "!www.ck"]

example : Extracts idId exRules { url := b! "https://u:p@a.b.co.uk.:80/x?y" }
    { scheme := b! "https://", userInfo := b! "u:p", subDomain := b! "a", domain := b! "b", suffix := b! "co.uk",
      registeredDomain := b! "b.co.uk", port := b! "80", path := b! "/x?y", hostType := .hostName } none :=
  (C52_extract ..).1 (by decide +kernel)
example : Extracts idId exRules { url := b! "a.www.ck", ignoreSubDomains := true }
    { domain := b! "www", suffix := b! "ck", registeredDomain := b! "www.ck", hostType := .hostName } none :=
  (C52_extract ..).1 (by decide +kernel)
example : Extracts idId exRules { url := b! "a.b.ck" }
    { domain := b! "a", suffix := b! "b.ck", registeredDomain := b! "a.b.ck", hostType := .hostName } none :=
  (C52_extract ..).1 (by decide +kernel)
example : Extracts idId exRules { url := b! "a.b" }
    { subDomain := b! "a", domain := b! "b", hostType := .hostName } none := (C52_extract ..).1 (by decide +kernel)
example : Extracts idId exRules { url := b! "1.2.3.4" }
    { domain := b! "1.2.3.4", registeredDomain := b! "1.2.3.4", hostType := .iPv4 } none :=
  (C52_extract ..).1 (by decide +kernel)
example : Extracts idId exRules { url := b! "[::1]:7" }
    { domain := b! "::1", registeredDomain := b! "::1", port := b! "7", hostType := .iPv6 } none :=
  (C52_extract ..).1 (by decide +kernel)
example : Extracts idId exRules { url := b! "[::1]:x" }
    { domain := b! "::1", registeredDomain := b! "::1", hostType := .iPv6 } (some .invalidPort) :=
  (C52_extract ..).1 (by decide +kernel)
example : Extracts idId exRules { url := b! "[::1]x" } {} (some .trailingAfterIPv6) :=
  (C52_extract ..).1 (by decide +kernel)
example : Extracts idId exRules { url := b! "[1]2]" } {} (some .invalidIPv6) := (C52_extract ..).1 (by decide +kernel)
example : Extracts idId exRules { url := b! "[1" } {} (some .incompleteBrackets) :=
  (C52_extract ..).1 (by decide +kernel)
example : Extracts idId exRules { url := b! "a[1]" } {} (some .openingBracketNotFirst) :=
  (C52_extract ..).1 (by decide +kernel)
example : Extracts idId exRules { url := b! "[1]a[" } {} (some .openingBracketNotFirst) :=
  (C52_extract ..).1 (by decide +kernel)
example : Extracts idId exRules { url := b! "a]" } {} (some .closingWithoutOpening) :=
  (C52_extract ..).1 (by decide +kernel)
example : Extracts idId exRules { url := b! "//a.com:99999" } { scheme := b! "//" } (some .invalidPort) :=
  (C52_extract ..).1 (by decide +kernel)
example : Extracts idId exRules { url := b! "a%4.com/p" } { path := b! "/p" } (some (.badEscape (b! "%4."))) :=
  (C52_extract ..).1 (by decide +kernel)
example : Extracts { idId with toUnicodeErr := fun _ => some (b! "bad") } exRules { url := b! "a.com" } {}
    (some (.idna (b! "bad"))) := (C52_extract ..).1 (by decide +kernel)
example : Extracts idId exRules { url := b! "a..uk" } {} (some .consecutiveSeparators) :=
  (C52_extract ..).1 (by decide +kernel)
example : Extracts idId exRules { url := b! "a!.com" } {} (some .invalidCharacters) :=
  (C52_extract ..).1 (by decide +kernel)
example : Extracts idId exRules { url := b! "co.uk" } { suffix := b! "co.uk" } (some .emptyDomain) :=
  (C52_extract ..).1 (by decide +kernel)
example : Extracts idId exRules { url := b! "" } {} (some .emptyDomain) := (C52_extract ..).1 (by decide +kernel)
example : ¬ Extracts idId exRules { url := b! "a.b.ck" }
    { subDomain := b! "a", domain := b! "b", suffix := b! "ck", registeredDomain := b! "b.ck", hostType := .hostName }
    none := fun h => absurd ((C52_extract ..).2 h) (by decide +kernel)

end Fasttld.Props
