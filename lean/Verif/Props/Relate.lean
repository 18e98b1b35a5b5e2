import Verif.Proofs.Relate
import Verif.Proofs.Decide
import Verif.Props.Rules

/-!
# Properties that relate two runs

C23 (separators), C26 (a label more), C27 (the registered domain again), C47 (case).
-/

set_option linter.unusedSimpArgs false

namespace Fasttld.Props
open Spec

/-- Accepted names are accepted wherever they are the host of a URL. -/
theorem extract_name {idna : Idna} {trie : Trie} {e : URLParams} {sch ui host after port path n : Bytes} {o : Out}
    (hA : Authority e.url sch ui (host ++ after)) (hp : IsPlainHost host) (haf : AfterHost after port path)
    (hn : HostTextOf idna e.convertURLToPunyCode host n) (h : NameOK trie n o) :
    ∃ r, extract idna trie e = .ok (r, none) ∧ NameParts e.ignoreSubDomains n o r ∧
      r.scheme = sch ∧ r.userInfo = ui ∧ r.port = port ∧ r.path = path := by
  rw [extract_plain idna trie e hA hp haf, hostText_iff.2 hn]
  obtain ⟨r, h1, h2⟩ := hostF_of_name (ig := e.ignoreSubDomains) h
  simp only [h1]
  refine ⟨_, rfl, ?_, rfl, rfl, rfl, rfl⟩
  exact h2

/-! ## C26: a label more -/

/-- C26, partial: if a host name is accepted, then the name with a label `x` before it is accepted too, with the same
Domain, Suffix and RegisteredDomain, and `x` before the SubDomain.  Conditions: `x` is not empty, has no separators,
no invalid characters and does not begin with `-`; the new name is not an IPv4 address; and either there is a Suffix,
or every top-level label of the list is a rule or the parent of a wildcard.  Missing: names without Suffix for other
lists, for which the claim is false, see `C26_counterexample`. -/
theorem C26_subdomain_partial (idna : Idna) (rules : List Bytes) (e : URLParams) {r : ExtractResult}
    (h : extract idna (buildTrie rules) e = .ok (r, none)) (ht : r.hostType = .hostName)
    (hs : r.suffix ≠ [] ∨ TopRules rules) :
    ∃ host after n, Authority e.url r.scheme r.userInfo (host ++ after) ∧ IsPlainHost host ∧
      AfterHost after r.port r.path ∧ HostTextOf idna e.convertURLToPunyCode host n ∧
      ∀ (e' : URLParams) (sch ui host' after' port path x : Bytes), ∀ s ∈ separators,
        Authority e'.url sch ui (host' ++ after') → IsPlainHost host' → AfterHost after' port path →
        HostTextOf idna e'.convertURLToPunyCode host' (x ++ encode s ++ n) →
        x ≠ [] → FreeOf separators x → HostCharsOK x → ¬ IsIPv4 (x ++ encode s ++ n) →
        ∃ r', extract idna (buildTrie rules) e' = .ok (r', none) ∧ r'.hostType = .hostName ∧
          r'.domain = r.domain ∧ r'.suffix = r.suffix ∧ r'.registeredDomain = r.registeredDomain ∧
          (e.ignoreSubDomains = false → e'.ignoreSubDomains = false → (∀ a ∈ separators, ¬ encode a <+: n) →
            r'.subDomain = if r.subDomain = [] then x else x ++ encode s ++ r.subDomain) := by
  obtain ⟨host, after, n, o, hA, hp, haf, hn, h1, h2⟩ := name_result idna _ e h ht
  refine ⟨host, after, n, hA, hp, haf, hostText_iff.1 hn, ?_⟩
  intro e' sch ui host' after' port path x s hsep hA' hp' haf' hn' hx hf hc h4
  have hend : o.endK ≠ none ∨ TopComplete (buildTrie rules) := by
    rcases hs with hs | hs
    · left
      intro he
      have := h2.2
      rw [he] at this
      exact hs this.1
    · exact .inr ((topComplete_build rules).2 hs)
  have hok := name_prepend h1 hend hsep hx hf hc.1 hc.2.2.2.2 h4
  obtain ⟨r', g1, g2, -⟩ := extract_name hA' hp' haf' hn' hok
  exact ⟨r', g1, g2.1, parts_prepend h1 hsep hf h2 g2⟩

/-- Without Suffix, and with a list in which `a` is not a rule although `c.b.a` is, a label more changes Domain. -/
theorem C26_counterexample :
    extract idId (buildTrie [b! "c.b.a"]) { url := b! "b.a" } =
      .ok ({ subDomain := b! "b", domain := b! "a", hostType := .hostName }, none) ∧
    extract idId (buildTrie [b! "c.b.a"]) { url := b! "x.c.b.a" } =
      .ok ({ domain := b! "x", suffix := b! "c", registeredDomain := b! "x.c", hostType := .hostName }, none) ∧
    extract idId (buildTrie [b! "c.b.a"]) { url := b! "c.b.a" } = .ok ({ suffix := b! "c" }, some .emptyDomain) := by
  exact ⟨by decide +kernel, by decide +kernel, by decide +kernel⟩

example : TopRules pslRules ∧
    extract idId (buildTrie pslRules) { url := b! "b.co.uk" } =
      .ok ({ domain := b! "b", suffix := b! "co.uk", registeredDomain := b! "b.co.uk", hostType := .hostName }, none) ∧
    extract idId (buildTrie pslRules) { url := b! "http://a.b.co.uk/p" } =
      .ok ({ scheme := b! "http://", subDomain := b! "a", domain := b! "b", suffix := b! "co.uk",
             registeredDomain := b! "b.co.uk", path := b! "/p", hostType := .hostName }, none) := by
  exact ⟨by decide +kernel, by decide +kernel, by decide +kernel⟩

/-! ## C27: the registered domain again -/

/-- C27, partial: if Extract succeeds with a Suffix, then it succeeds on every URL whose host is RegisteredDomain, with the
same Domain, Suffix and RegisteredDomain and without SubDomain.  Conditions: every top-level label of the list is a
rule or the parent of a wildcard; Domain does not begin with `-`; RegisteredDomain is not an IPv4 address.  Each of
these is needed, see `C27_counterexample_top`, `C27_counterexample_dash` and `C27_counterexample_ipv4`. -/
theorem C27_registered_partial (idna : Idna) (rules : List Bytes) (e : URLParams) {r : ExtractResult}
    (h : extract idna (buildTrie rules) e = .ok (r, none)) (ht : r.hostType = .hostName) (hs : r.suffix ≠ [])
    (htop : TopRules rules) (hd : ¬ encode 45 <+: r.domain) (h4 : ¬ IsIPv4 r.registeredDomain)
    (e' : URLParams) {sch ui host after port path : Bytes}
    (hA : Authority e'.url sch ui (host ++ after)) (hp : IsPlainHost host) (haf : AfterHost after port path)
    (hn : HostTextOf idna e'.convertURLToPunyCode host r.registeredDomain) :
    ∃ r', extract idna (buildTrie rules) e' = .ok (r', none) ∧ r'.hostType = .hostName ∧
      r'.domain = r.domain ∧ r'.suffix = r.suffix ∧ r'.registeredDomain = r.registeredDomain ∧ r'.subDomain = [] ∧
      r'.scheme = sch ∧ r'.userInfo = ui ∧ r'.port = port ∧ r'.path = path := by
  obtain ⟨-, -, n, o, -, -, -, -, h1, h2⟩ := name_result idna _ e h ht
  have h2' := h2.2
  cases he : o.endK with
  | none => rw [he] at h2'; exact absurd h2'.1 hs
  | some k =>
    rw [he] at h2'
    obtain ⟨q1, q2, q3, q4⟩ := h2'
    rw [q2] at h4 hn
    rw [q3] at hd
    obtain ⟨hok, hsp⟩ := name_registered h1 ((walkL_top ((topComplete_build rules).2 htop) h1.walk (labels_ne_nil _ _ _)).2 k he) he h4 hd
    obtain ⟨r', g1, g2, g3⟩ := extract_name hA hp haf hn hok
    obtain ⟨p1, p2, p3, p4⟩ := parts_registered h1 he hsp h2 g2
    exact ⟨r', g1, g2.1, p1, p2, p3, p4, g3⟩

/-- C27, partial, for RegisteredDomain as a URL of its own. -/
theorem C27_self_partial (idna : Idna) (rules : List Bytes) (e : URLParams) {r : ExtractResult}
    (hpu : e.convertURLToPunyCode = false)
    (h : extract idna (buildTrie rules) e = .ok (r, none)) (ht : r.hostType = .hostName) (hs : r.suffix ≠ [])
    (htop : TopRules rules) (hd : ¬ encode 45 <+: r.domain) (h4 : ¬ IsIPv4 r.registeredDomain)
    (hw : IsTrim true true whiteSpace r.registeredDomain r.registeredDomain)
    (hn : HostTextOf idna false r.registeredDomain r.registeredDomain) :
    extract idna (buildTrie rules) { e with url := r.registeredDomain } =
      .ok ({ r with scheme := [], userInfo := [], port := [], path := [], subDomain := [] }, none) := by
  obtain ⟨host, after, n, o, hA, hp, haf, hn0, h1, h2⟩ := name_result idna _ e h ht
  have hnh : n = host := by
    obtain ⟨un, -, ⟨-, -, h⟩ | ⟨h, -⟩⟩ := hostText_iff.1 hn0
    · exact h
    · rw [hpu] at h; simp at h
  subst hnh
  have hin : r.registeredDomain <:+: n := by
    have h2' := h2.2
    cases he : o.endK with
    | none => rw [he] at h2'; exact absurd h2'.1 hs
    | some k =>
      rw [he] at h2'
      obtain ⟨s1, s2, s3, s4, -⟩ := h1.some_case k he
      have := seg_infix (hostSplit_good n) (e := k) (b := o.sep) (by omega) s4
      rw [hostSplit_join] at this
      rw [h2'.2.1]; exact this
  have hp' : IsPlainHost r.registeredDomain := fun c hc => hp c (hin.subset hc)
  have hA' := authority_self hp' (fun hc => authority_no_at hA hp (hin.subset hc)) hw
  have haf' : AfterHost [] [] [] := ⟨.inl rfl, .inl ⟨rfl, rfl⟩⟩
  obtain ⟨r', g1, g2, g3, g4, g5, g6, f1, f2, f3, f4⟩ := C27_registered_partial idna rules e h ht hs htop hd h4
    { e with url := r.registeredDomain } (sch := []) (ui := []) (host := r.registeredDomain) (after := []) (port := [])
    (path := []) (by simpa using hA') hp' haf' (by simpa [hpu] using hn)
  rw [g1]
  cases r'; cases r
  simp only at f1 f2 f3 f4 g2 g3 g4 g5 g6 ht
  subst f1 f2 f3 f4 g2 g3 g4 g5 g6 ht
  rfl

example : TopRules pslRules ∧
    extract idId (buildTrie pslRules) { url := b! "http://x.a.b.co.uk:80" } =
      .ok ({ scheme := b! "http://", subDomain := b! "x.a", domain := b! "b", suffix := b! "co.uk",
             registeredDomain := b! "b.co.uk", port := b! "80", hostType := .hostName }, none) ∧
    HostTextOf idId false (b! "b.co.uk") (b! "b.co.uk") ∧
    extract idId (buildTrie pslRules) { url := b! "b.co.uk" } =
      .ok ({ domain := b! "b", suffix := b! "co.uk", registeredDomain := b! "b.co.uk", hostType := .hostName }, none) := by
  exact ⟨by decide +kernel, by decide +kernel, hostText_iff.1 (by decide +kernel), by decide +kernel⟩

theorem C27_counterexample_top :
    extract idId (buildTrie [b! "co.za"]) { url := b! "a.co.za" } =
      .ok ({ domain := b! "a", suffix := b! "co", registeredDomain := b! "a.co", hostType := .hostName }, none) ∧
    extract idId (buildTrie [b! "co.za"]) { url := b! "a.co" } =
      .ok ({ subDomain := b! "a", domain := b! "co", hostType := .hostName }, none) := by
  exact ⟨by decide +kernel, by decide +kernel⟩

theorem C27_counterexample_dash :
    extract idId (buildTrie [b! "com"]) { url := b! "a.-b.com" } =
      .ok ({ subDomain := b! "a", domain := b! "-b", suffix := b! "com", registeredDomain := b! "-b.com",
             hostType := .hostName }, none) ∧
    extract idId (buildTrie [b! "com"]) { url := b! "-b.com" } = .ok ({}, some .invalidCharacters) := by
  exact ⟨by decide +kernel, by decide +kernel⟩

theorem C27_counterexample_ipv4 :
    extract idId (buildTrie [b! "4", b! "3.4", b! "2.3.4"]) { url := b! "0.1.2.3.4" } =
      .ok ({ subDomain := b! "0", domain := b! "1", suffix := b! "2.3.4", registeredDomain := b! "1.2.3.4",
             hostType := .hostName }, none) ∧
    extract idId (buildTrie [b! "4", b! "3.4", b! "2.3.4"]) { url := b! "1.2.3.4" } =
      .ok ({ domain := b! "1.2", registeredDomain := b! "1.2", hostType := .iPv4 }, none) := by
  exact ⟨by decide +kernel, by decide +kernel⟩

/-! ## C23: separators -/

/-- C23, partial: if a host name is accepted and has no U+FF61, or no empty labels except at its end, then the name with
other separators between the same labels is accepted too, and the parts have the same labels.  Missing: names with
U+FF61 at the start or next to another separator, for which the claim is false, see `C23_counterexample`. -/
theorem C23_separators_partial (idna : Idna) (trie : Trie) (e : URLParams) {r : ExtractResult}
    (h : extract idna trie e = .ok (r, none)) (ht : r.hostType = .hostName) :
    ∃ host after n, Authority e.url r.scheme r.userInfo (host ++ after) ∧ IsPlainHost host ∧
      AfterHost after r.port r.path ∧ HostTextOf idna e.convertURLToPunyCode host n ∧
      (TidyLabels n → ∀ (e' : URLParams) (sch ui host' after' port path n' : Bytes),
        e'.ignoreSubDomains = e.ignoreSubDomains →
        Authority e'.url sch ui (host' ++ after') → IsPlainHost host' → AfterHost after' port path →
        HostTextOf idna e'.convertURLToPunyCode host' n' → SameLabels n n' →
        ∃ r', extract idna trie e' = .ok (r', none) ∧ r'.hostType = .hostName ∧
          SameLabels r.subDomain r'.subDomain ∧ r'.domain = r.domain ∧ SameLabels r.suffix r'.suffix ∧
          SameLabels r.registeredDomain r'.registeredDomain) := by
  obtain ⟨host, after, n, o, hA, hp, haf, hn, h1, h2⟩ := name_result idna _ e h ht
  refine ⟨host, after, n, hA, hp, haf, hostText_iff.1 hn, ?_⟩
  intro htidy e' sch ui host' after' port path n' hig hA' hp' haf' hn' hsame
  obtain ⟨s1, s2⟩ := sameLabels_split hsame
  have hok := name_resep h1 s1 s2 (tidy_split htidy)
  obtain ⟨r', g1, g2, -⟩ := extract_name hA' hp' haf' hn' hok
  rw [hig] at g2
  exact ⟨r', g1, g2.1, parts_resep s1 s2 h2 g2⟩

/-- U+FF61 at the start of a host is accepted, another separator there is not. -/
theorem C23_counterexample :
    SameLabels (b! "｡a.com") (b! ".a.com") ∧
    extract idId (buildTrie [b! "com"]) { url := b! "｡a.com" } =
      .ok ({ domain := b! "a", suffix := b! "com", registeredDomain := b! "a.com", hostType := .hostName }, none) ∧
    extract idId (buildTrie [b! "com"]) { url := b! ".a.com" } = .ok ({}, some .invalidCharacters) := by
  refine ⟨⟨[], [(0xFF61, b! "a"), (0x2E, b! "com")], [(0x2E, b! "a"), (0x2E, b! "com")], ?_, ?_, rfl⟩,
    by decide +kernel, by decide +kernel⟩
  all_goals
    refine ⟨by decide +kernel, freeOf_nil goodSet_separators, ?_⟩
    simp only [List.mem_cons, List.mem_nil_iff, or_false, forall_eq_or_imp, forall_eq]
    refine ⟨⟨by decide, ?_⟩, by decide, ?_⟩ <;>
      exact (freeOf_iff goodSet_separators).2 (by decide +kernel)

example : TidyLabels (b! "a.b.com") ∧ SameLabels (b! "a.b.com") (b! "a｡b。com") ∧
    extract idId (buildTrie [b! "com"]) { url := b! "a.b.com" } =
      .ok ({ subDomain := b! "a", domain := b! "b", suffix := b! "com", registeredDomain := b! "b.com",
             hostType := .hostName }, none) ∧
    extract idId (buildTrie [b! "com"]) { url := b! "a｡b。com" } =
      .ok ({ subDomain := b! "a", domain := b! "b", suffix := b! "com", registeredDomain := b! "b。com",
             hostType := .hostName }, none) := by
  refine ⟨.inl ?_, ⟨b! "a", [(0x2E, b! "b"), (0x2E, b! "com")], [(0xFF61, b! "b"), (0x3002, b! "com")], ?_, ?_, rfl⟩,
    by decide +kernel, by decide +kernel⟩
  · rw [infix_encode_iff (by decide) (by decide)]
    decide +kernel
  all_goals
    refine ⟨by decide +kernel, (freeOf_iff goodSet_separators).2 (by decide +kernel), ?_⟩
    simp only [List.mem_cons, List.mem_nil_iff, or_false, forall_eq_or_imp, forall_eq]
    refine ⟨⟨by decide, ?_⟩, by decide, ?_⟩ <;>
      exact (freeOf_iff goodSet_separators).2 (by decide +kernel)

/-! ## C47: case -/

/-- C47 is false without punycode conversion: rules are compared byte by byte. -/
theorem C47_counterexample :
    SameUpToCase (b! "example.COM") (b! "example.com") ∧
    extract idId (buildTrie [b! "com"]) { url := b! "example.COM" } =
      .ok ({ subDomain := b! "example", domain := b! "COM", hostType := .hostName }, none) ∧
    extract idId (buildTrie [b! "com"]) { url := b! "example.com" } =
      .ok ({ domain := b! "example", suffix := b! "com", registeredDomain := b! "example.com", hostType := .hostName }, none) := by
  exact ⟨by unfold SameUpToCase; decide +kernel, by decide +kernel, by decide +kernel⟩

/-- C47, partial: with punycode conversion the parts do not depend on the case of the letters of the host, if the ASCII
form that the IDNA library computes does not.  Missing: without punycode conversion, see `C47_counterexample`. -/
theorem C47_case_partial (idna : Idna) (trie : Trie) (e e' : URLParams)
    (hl : ∀ a b, SameUpToCase a b → idna.lookupASCII a = idna.lookupASCII b)
    (hpu : e.convertURLToPunyCode = true) (hpu' : e'.convertURLToPunyCode = true)
    (hig : e'.ignoreSubDomains = e.ignoreSubDomains)
    {sch ui host after port path sch' ui' host' after' port' path' : Bytes}
    (hA : Authority e.url sch ui (host ++ after)) (hp : IsPlainHost host) (haf : AfterHost after port path)
    (hA' : Authority e'.url sch' ui' (host' ++ after')) (hp' : IsPlainHost host') (haf' : AfterHost after' port' path')
    (hc : SameUpToCase host host') (hd : ∃ un, Decodes host un) :
    ∃ r r' er, extract idna trie e = .ok (r, er) ∧ extract idna trie e' = .ok (r', er) ∧
      r'.subDomain = r.subDomain ∧ r'.domain = r.domain ∧ r'.suffix = r.suffix ∧
      r'.registeredDomain = r.registeredDomain ∧ r'.hostType = r.hostType := by
  obtain ⟨un, hun⟩ := hd
  obtain ⟨un', hun', hs⟩ := decodes_case hc hun
  have h1 : HostTextOf idna e.convertURLToPunyCode host ((idna.lookupASCII un).getD []) := ⟨un, hun, .inr ⟨hpu, rfl⟩⟩
  have h2 : HostTextOf idna e'.convertURLToPunyCode host' ((idna.lookupASCII un).getD []) :=
    ⟨un', hun', .inr ⟨hpu', by rw [hl un un' hs]⟩⟩
  rw [extract_plain idna trie e hA hp haf, extract_plain idna trie e' hA' hp' haf', hostText_iff.2 h1, hostText_iff.2 h2, hig]
  exact ⟨_, _, _, rfl, rfl, rfl, rfl, rfl, rfl, rfl⟩

/-- An IDNA library that only changes letters to lower case. -/
def idLower : Idna := ⟨fun s => some s, fun s => some (s.map lowerByte), fun _ => none⟩

example : (∀ a b, SameUpToCase a b → idLower.lookupASCII a = idLower.lookupASCII b) ∧
    extract idLower (buildTrie [b! "com"]) { url := b! "EXAMPLE.Com", convertURLToPunyCode := true } =
      .ok ({ domain := b! "example", suffix := b! "com", registeredDomain := b! "example.com", hostType := .hostName }, none) := by
  refine ⟨fun a b h => ?_, by decide +kernel⟩
  simp only [idLower]
  rw [h]

end Fasttld.Props
