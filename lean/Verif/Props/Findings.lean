import Verif.Props.Relate
import Verif.Props.Print

/-!
# Further witnesses for the findings in DESIGN.md
-/

namespace Fasttld.Props
open Fasttld Fasttld.Spec

/-- C02 with IgnoreSubDomains: the same, for the SubDomain that is left out. -/
theorem C02_url_reassembly_ignoring (idna : Idna) (trie : Trie) (e : URLParams) {r : ExtractResult}
    (hpu : e.convertURLToPunyCode = false) (hig : e.ignoreSubDomains = true) (h : extract idna trie e = .ok (r, none)) :
    ∃ sub t at_ host colon, IsTrim true true whiteSpace e.url t ∧ r.subDomain = [] ∧
      t = r.scheme ++ r.userInfo ++ at_ ++ host ++ colon ++ r.port ++ r.path ∧
      ((at_ = [] ∧ r.userInfo = []) ∨ at_ = [64]) ∧
      ((colon = [] ∧ r.port = []) ∨ (colon = [58] ∧ r.port ≠ [])) ∧
      match r.hostType with
      | .iPv6 => host = [91] ++ r.domain ++ [93]
      | .iPv4 => ∃ tail, host = r.domain ++ tail ∧ sub = [] ∧ r.suffix = []
      | .hostName => ∃ tail, Assembled host sub r.domain r.suffix tail
      | .none => False := by
  obtain ⟨r0, err, h0⟩ := C01_extract_returns idna trie { e with ignoreSubDomains := false }
  have h1 := C06_ignoreSubDomains idna trie e h0
  have he : { e with ignoreSubDomains := true } = e := by cases e; simp_all
  rw [he, h] at h1
  simp only [Except.ok.injEq, Prod.mk.injEq] at h1
  obtain ⟨rfl, rfl⟩ := h1
  obtain ⟨t, at_, host, colon, g1, g2, g3, g4, g5⟩ :=
    C02_url_reassembly idna trie { e with ignoreSubDomains := false } hpu rfl h0
  exact ⟨r0.subDomain, t, at_, host, colon, g1, rfl, g2, g3, g4, g5⟩

example : extract idId exTrie ⟨b! "http://u@w.a.com:1/p", true, false⟩ =
    .ok ({ scheme := b! "http://", userInfo := b! "u", domain := b! "a", suffix := b! "com", registeredDomain := b! "a.com",
           port := b! "1", path := b! "/p", hostType := .hostName }, none) := by decide +kernel

/-- C17 fails for a wildcard none of whose parents is a rule: there is no Suffix. -/
theorem C17_counterexample_deep :
    PublicSuffix [b! "*.foo.bar"] [b! "bar", b! "foo", b! "x", b! "a"] 3 ∧
    (extract idId (buildTrie [b! "*.foo.bar"]) { url := b! "a.x.foo.bar" }).toOption.map (fun r => (r.1.suffix, r.2)) =
      some ([], none) := by decide +kernel

/-- C17 fails for an exception rule without its wildcard. -/
theorem C17_counterexample_exception :
    PublicSuffix [b! "ck", b! "b.ck", b! "!b.ck"] [b! "ck", b! "b", b! "a"] 1 ∧
    (extract idId (buildTrie [b! "ck", b! "b.ck", b! "!b.ck"]) { url := b! "a.b.ck" }).toOption.map (fun r => (r.1.suffix, r.2)) =
      some (b! "b.ck", none) := by decide +kernel

/-- C21: the other two characters. -/
theorem C21_counterexample_others :
    ∀ c ∈ [0x0378, 0x2A74], c ∈ invalidChars ∧
      (extract idId exTrie { url := b! "a" ++ encode c ++ b! ".com" }).toOption.map (fun r => (r.1.suffix, r.2)) =
        some (b! "com", none) := by decide +kernel

/-- C11: a negative zero is a port. -/
theorem C11_negative_zero_accepted :
    (extract idId exTrie { url := b! "a.com:-0" }).toOption.map (fun r => (r.1.port, r.2)) = some (b! "-0", none) := by
  decide +kernel

/-- A name that is a separator and a suffix. -/
theorem C04_separator_only :
    extract idId exTrie { url := b! ".com" } =
      .ok ({ suffix := b! "com", registeredDomain := b! ".com" }, some .emptyDomain) := by decide +kernel

/-- The markers may stand inside other lines for the check, but not for the parser: `a.com` counts as public. -/
theorem C31_markers_in_line :
    let text := b! "// ===BEGIN ICANN DOMAINS===// ===END ICANN DOMAINS===\ncom\nx // ===BEGIN PRIVATE DOMAINS===\na.com\n// ===END PRIVATE DOMAINS==="
    validPSLDelimiters text = true ∧ b! "a.com" ∈ (parsePSL idId text).publicSuffixes := by decide +kernel

/-- An Update for which every download fails leaves an empty cache file where there was none. -/
theorem C39_empty_file :
    let w := { exWorld none with net := fun _ => .failed }
    let r := (⟨b! "/tmp/public_suffix_list.dat", .node false [], true⟩ : FastTLD).update idId builtin |>.exec w
    w.read (b! "/tmp/public_suffix_list.dat") = none ∧ r.1.2.isSome = true ∧
    r.2.1.read (b! "/tmp/public_suffix_list.dat") = some [] := by decide +kernel

/-- A back quote in the list ends the generated constant. -/
theorem C50_back_quote (rest : Bytes) : ¬ RawString (b! "`a`b`\n") (b! "a`b") rest := by
  rintro ⟨inner, -, hq, hv⟩
  have h : (96 : UInt8) ∈ inner.filter (· ≠ 13) := by rw [← hv]; decide
  exact hq (List.mem_filter.1 h).1

end Fasttld.Props
