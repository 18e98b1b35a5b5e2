import Verif.Proofs.IPv4Host
import Verif.Proofs.Invalid
import Verif.Props.Url

/-!
# C02-C05, C15, C20-C22: the parts of the host
-/

set_option linter.unusedSimpArgs false

namespace Fasttld.Props
open Fasttld Fasttld.Spec

/-- Without punycode conversion the host text is the text in the URL. -/
theorem hostText_raw {idna : Idna} {host n : Bytes} (h : hostText idna false host = .ok n) : n = host := by
  unfold hostText at h
  split at h
  · simp at h
  · simp only [Bool.false_eq_true, if_false] at h
    split at h
    · simp at h
    · injection h with h; exact h.symm

/-- How a host name is cut, with everything known about it. -/
theorem name_result (idna : Idna) (trie : Trie) (e : URLParams) {r : ExtractResult}
    (h : extract idna trie e = .ok (r, none)) (ht : r.hostType = .hostName) :
    ∃ host after n o, Authority e.url r.scheme r.userInfo (host ++ after) ∧ IsPlainHost host ∧
      AfterHost after r.port r.path ∧ hostText idna e.convertURLToPunyCode host = .ok n ∧
      NameOK trie n o ∧ NameParts e.ignoreSubDomains n o r := by
  obtain ⟨a, hA, ⟨after, -, -, -, ht', -⟩ | ⟨host, after, n, rfl, hp, haf, hn, hF⟩⟩ := extract_ok idna trie e h
  · rw [ht] at ht'; simp at ht'
  · obtain ⟨o, h1, h2⟩ := hostF_name hF ht
    exact ⟨host, after, n, o, hA, hp, haf, hn, h1, h2⟩

/-! ## C03: the host name is put together from its parts -/

/-- C03, for every suffix list: on success with a host name and without punycode conversion, the host is
SubDomain, Domain and Suffix with separators between them, followed by a `tail` that is empty or begins
with a separator.  Missing: that `tail` consists of separators only.  This holds if there is no Suffix, or
if every top-level label of the list is itself a rule (or the parent of a wildcard rule); otherwise it
does not, see `C03_counterexample`. -/
theorem C03_reassembly_partial (idna : Idna) (trie : Trie) (e : URLParams) {r : ExtractResult}
    (hpu : e.convertURLToPunyCode = false) (hig : e.ignoreSubDomains = false)
    (h : extract idna trie e = .ok (r, none)) (ht : r.hostType = .hostName) :
    ∃ host after tail, Authority e.url r.scheme r.userInfo (host ++ after) ∧ IsPlainHost host ∧
      AfterHost after r.port r.path ∧ Assembled host r.subDomain r.domain r.suffix tail ∧
      (tail = [] ∨ ∃ s ∈ separators, encode s <+: tail) ∧
      (r.suffix = [] ∨ TopComplete trie → MadeOf separators tail) := by
  obtain ⟨host, after, n, o, hA, hp, haf, hn, h1, h2⟩ := name_result idna trie e h ht
  rw [hpu] at hn
  have := hostText_raw hn
  subst this
  rw [hig] at h2
  obtain ⟨tail, h3, h4, h5⟩ := name_assembled h1 h2
  exact ⟨n, after, tail, hA, hp, haf, h3, h4, h5⟩

/-- The same with punycode conversion: the host text is the ASCII form given by the IDNA library. -/
theorem C03_reassembly_puny_partial (idna : Idna) (trie : Trie) (e : URLParams) {r : ExtractResult}
    (hpu : e.convertURLToPunyCode = true) (hig : e.ignoreSubDomains = false)
    (h : extract idna trie e = .ok (r, none)) (ht : r.hostType = .hostName) :
    ∃ host after un tail, Authority e.url r.scheme r.userInfo (host ++ after) ∧ IsPlainHost host ∧
      AfterHost after r.port r.path ∧ queryUnescape host = .ok un ∧
      Assembled ((idna.lookupASCII un).getD []) r.subDomain r.domain r.suffix tail ∧
      (r.suffix = [] ∨ TopComplete trie → MadeOf separators tail) := by
  obtain ⟨host, after, n, o, hA, hp, haf, hn, h1, h2⟩ := name_result idna trie e h ht
  rw [hpu] at hn
  unfold hostText at hn
  split at hn
  · simp at hn
  · rename_i un hun
    simp only [if_true] at hn
    injection hn with hn
    rw [hig] at h2
    obtain ⟨tail, h3, h4, h5⟩ := name_assembled h1 h2
    refine ⟨host, after, un, tail, hA, hp, haf, hun, ?_, h5⟩
    have : (idna.lookupASCII un).getD [] = n := by
      rw [← hn, formatAsPunycode]
      cases idna.lookupASCII un <;> rfl
    rw [this]; exact h3

/-- A list with `co.za` but not `za`, like the Public Suffix List. -/
def zaTrie : Trie := buildTrie [b! "co.za", b! "com"]

/-- The full claim fails: with `co.za` but not `za` in the list, the labels after `co` are lost. -/
theorem C03_counterexample :
    extract idId zaTrie { url := b! "www.example.co.za" } =
      .ok ({ subDomain := b! "www", domain := b! "example", suffix := b! "co", registeredDomain := b! "example.co",
             hostType := .hostName }, none) ∧
    ¬ ∃ tail, MadeOf separators tail ∧ Assembled (b! "www.example.co.za") (b! "www") (b! "example") (b! "co") tail := by
  refine ⟨by decide +kernel, ?_⟩
  rintro ⟨tail, ht, front, back, h, hf, hb⟩
  -- the last byte of the host is `a`, which no separator ends with
  have key : ∀ (x : Bytes) (b : UInt8), b! "www.example.co.za" = x ++ [b] → b = 97 := by
    intro x b h
    have := congrArg List.getLast? h
    rw [List.getLast?_concat] at this
    simpa using this.symm
  obtain ⟨cs, hcs, rfl⟩ := ht
  rcases List.eq_nil_or_concat cs with rfl | ⟨ds, d, rfl⟩
  · rcases hb with ⟨-, hb⟩ | ⟨-, s, -, rfl⟩
    · simp at hb
    · exact absurd (key (front ++ b! "example" ++ encode s ++ [99]) 111 (by rw [h]; simp)) (by decide)
  · have hd := hcs d (by simp)
    simp [separators] at hd
    rcases hd with rfl | rfl | rfl | rfl
    · exact absurd (key (front ++ b! "example" ++ back ++ ds.flatMap encode) 46 (by rw [h]; simp [encode])) (by decide)
    · exact absurd (key (front ++ b! "example" ++ back ++ ds.flatMap encode ++ [227, 128]) 130
        (by rw [h]; simp [encode])) (by decide)
    · exact absurd (key (front ++ b! "example" ++ back ++ ds.flatMap encode ++ [239, 188]) 142
        (by rw [h]; simp [encode])) (by decide)
    · exact absurd (key (front ++ b! "example" ++ back ++ ds.flatMap encode ++ [239, 189]) 161
        (by rw [h]; simp [encode])) (by decide)

example : TopComplete exTrie := by
  intro l v h
  have : exTrie.kids.all (fun kv => kv.2.isEnd) = true := by decide +kernel
  unfold Trie.get at h
  generalize exTrie.kids = ks at h this
  induction ks with
  | nil => simp [Trie.lookup] at h
  | cons p ks ih =>
    obtain ⟨k, w⟩ := p
    simp only [List.all_cons, Bool.and_eq_true] at this
    simp only [Trie.lookup] at h
    split at h
    · injection h with h; rw [← h]; exact this.1
    · exact ih h this.2

/-! ## C02: no byte of the URL is lost -/

/-- C02: on success without punycode conversion, the trimmed URL is scheme, userinfo with `@`, host, `:` with
port, and path; the host is the bracketed Domain for IPv6, and otherwise the text from which SubDomain,
Domain and Suffix are cut. -/
theorem C02_url_reassembly (idna : Idna) (trie : Trie) (e : URLParams) {r : ExtractResult}
    (hpu : e.convertURLToPunyCode = false) (hig : e.ignoreSubDomains = false)
    (h : extract idna trie e = .ok (r, none)) :
    ∃ t at_ host colon, IsTrim true true whiteSpace e.url t ∧
      t = r.scheme ++ r.userInfo ++ at_ ++ host ++ colon ++ r.port ++ r.path ∧
      ((at_ = [] ∧ r.userInfo = []) ∨ at_ = [64]) ∧
      ((colon = [] ∧ r.port = []) ∨ (colon = [58] ∧ r.port ≠ [])) ∧
      match r.hostType with
      | .iPv6 => host = [91] ++ r.domain ++ [93]
      | .iPv4 => ∃ tail, host = r.domain ++ tail ∧ r.subDomain = [] ∧ r.suffix = []
      | .hostName => ∃ tail, Assembled host r.subDomain r.domain r.suffix tail
      | .none => False := by
  have flatten : ∀ host after, Authority e.url r.scheme r.userInfo (host ++ after) → AfterHost after r.port r.path →
      ∃ t at_ colon, IsTrim true true whiteSpace e.url t ∧
      t = r.scheme ++ r.userInfo ++ at_ ++ host ++ colon ++ r.port ++ r.path ∧
      ((at_ = [] ∧ r.userInfo = []) ∨ at_ = [64]) ∧
      ((colon = [] ∧ r.port = []) ∨ (colon = [58] ∧ r.port ≠ [])) := by
    rintro host after ⟨t, rest, h1, -, h3, zone, more, hc, hu⟩ ⟨-, haf⟩
    have hport : ∃ colon, after = colon ++ r.port ++ r.path ∧ ((colon = [] ∧ r.port = []) ∨ (colon = [58] ∧ r.port ≠ [])) := by
      rcases haf with ⟨e1, e2⟩ | ⟨e1, e2⟩
      · exact ⟨[], by rw [e1, e2]; simp, .inl ⟨rfl, e1⟩⟩
      · refine ⟨[58], by rw [e2]; simp, .inr ⟨rfl, ?_⟩⟩
        rcases e1 with ⟨e1, -⟩ | ⟨q, e1, -⟩ | ⟨q, e1, -⟩
        · exact e1
        · rw [e1]; simp
        · rw [e1]; simp
    obtain ⟨colon, hco, hco2⟩ := hport
    rcases hu with ⟨-, hui, hrest⟩ | ⟨y, hz, -, hrest⟩
    · refine ⟨t, [], colon, h1, ?_, .inl ⟨rfl, hui⟩, hco2⟩
      rw [h3, hui, ← hrest, hco]; simp
    · refine ⟨t, [64], colon, h1, ?_, .inr rfl, hco2⟩
      have : rest = r.userInfo ++ [64] ++ (host ++ after) := by
        rw [hc.1, hz, hrest]; simp
      rw [h3, this, hco]; simp
  obtain ⟨a, hA, ⟨after, h1, h6, haf, ht, -⟩ | ⟨host, after, n, h1, hp, haf, hn, hF⟩⟩ := extract_ok idna trie e h
  · have h1' : a = ([91] ++ r.domain ++ [93]) ++ after := by rw [h1]; simp
    obtain ⟨t, at_, colon, e1, e2, e3, e4⟩ := flatten _ after (h1' ▸ hA) haf
    exact ⟨t, at_, _, colon, e1, e2, e3, e4, by rw [ht]⟩
  · obtain ⟨t, at_, colon, e1, e2, e3, e4⟩ := flatten host after (h1 ▸ hA) haf
    refine ⟨t, at_, host, colon, e1, e2, e3, e4, ?_⟩
    rw [hpu] at hn
    have := hostText_raw hn
    subst this
    obtain ⟨o, hw, ⟨h4, hr⟩ | ⟨h4, hc, hd, hr⟩⟩ := hostF_ok.1 hF
    · have htyp := congrArg ExtractResult.hostType hr
      simp only at htyp
      have hdom := congrArg ExtractResult.domain hr
      have hsub := congrArg ExtractResult.subDomain hr
      have hsuf := congrArg ExtractResult.suffix hr
      simp only at hdom hsub hsuf
      rw [htyp]
      simp only
      have hb := walkL_bounds hw (labels_ne_nil _ _ _) (by simp)
      have hle := leadEmpty_le (hostSplit n).2
      have := hb.2.1
      rw [labels_length] at this
      obtain ⟨z, hz⟩ := pre_prefix (h := (hostSplit n).1) (rt := (hostSplit n).2) (Nat.zero_le o.prev) (by omega)
      rw [pre_zero, hostSplit_join] at hz
      refine ⟨z, ?_, hsub, hsuf⟩
      rw [hdom]; exact hz
    · have htyp := congrArg ExtractResult.hostType hr
      simp only at htyp
      obtain ⟨o', h1', h2'⟩ := hostF_name hF htyp
      rw [hig] at h2'
      obtain ⟨tail, h3, -⟩ := name_assembled h1' h2'
      rw [htyp]
      exact ⟨tail, h3⟩

example : extract idId exTrie { url := b! " http://u:p@x.a.co.uk.:80/p?q " } =
    .ok ({ scheme := b! "http://", userInfo := b! "u:p", subDomain := b! "x", domain := b! "a", suffix := b! "co.uk",
           registeredDomain := b! "a.co.uk", port := b! "80", path := b! "/p?q", hostType := .hostName }, none) := by
  decide +kernel

/-! ## C04: RegisteredDomain -/

/-- C04: on success, RegisteredDomain of a host name is Domain, a separator and Suffix if there is a Suffix,
else empty; for IP hosts it is Domain. -/
theorem C04_registeredDomain (idna : Idna) (trie : Trie) (e : URLParams) {r : ExtractResult}
    (h : extract idna trie e = .ok (r, none)) :
    match r.hostType with
    | .hostName => (r.suffix = [] ∧ r.registeredDomain = []) ∨
        (r.suffix ≠ [] ∧ ∃ s ∈ separators, r.registeredDomain = r.domain ++ encode s ++ r.suffix)
    | _ => r.registeredDomain = r.domain := by
  cases ht : r.hostType with
  | hostName =>
    simp only
    obtain ⟨host, after, n, o, -, -, -, -, h1, -, h2⟩ := name_result idna trie e h ht
    cases he : o.endK with
    | none => rw [he] at h2; exact .inl ⟨h2.1, h2.2.1⟩
    | some k =>
      rw [he] at h2
      obtain ⟨b1, b2, b3, b4, b5, b6, -⟩ := h1.some_case k he
      right
      obtain ⟨z, hz⟩ := seg_last (h := (hostSplit n).1) (rt := (hostSplit n).2) b3 (by omega)
      obtain ⟨s, hs, hs2⟩ := seg_succ (h := (hostSplit n).1) b3 b4
      refine ⟨by rw [h2.1, hz]; simp [b6], s, mem_seps (hostSplit_good n) hs, ?_⟩
      rw [h2.1, h2.2.1, h2.2.2.1, hs2]
  | iPv6 =>
    simp only
    obtain ⟨a, hA, ⟨after, -, -, -, -, hr, -⟩ | ⟨host, after, n, -, -, -, -, hF⟩⟩ := extract_ok idna trie e h
    · exact hr
    · obtain ⟨o, -, ⟨-, hr⟩ | ⟨-, -, -, hr⟩⟩ := hostF_ok.1 hF <;>
        (have := congrArg ExtractResult.hostType hr; simp [ht] at this)
  | iPv4 =>
    simp only
    obtain ⟨a, hA, ⟨after, -, -, -, -, hr, -⟩ | ⟨host, after, n, -, -, -, -, hF⟩⟩ := extract_ok idna trie e h
    · exact hr
    · obtain ⟨o, -, ⟨-, hr⟩ | ⟨-, -, -, hr⟩⟩ := hostF_ok.1 hF
      · have h1 := congrArg ExtractResult.domain hr
        have h2 := congrArg ExtractResult.registeredDomain hr
        simp only at h1 h2
        rw [h1, h2]
      · have := congrArg ExtractResult.hostType hr; simp [ht] at this
  | none =>
    obtain ⟨a, hA, ⟨after, -, -, -, -, hr, -⟩ | ⟨host, after, n, -, -, -, -, hF⟩⟩ := extract_ok idna trie e h
    · exact hr
    · obtain ⟨o, -, ⟨-, hr⟩ | ⟨-, -, -, hr⟩⟩ := hostF_ok.1 hF <;>
        (have := congrArg ExtractResult.hostType hr; simp [ht] at this)

/-! ## C05: error and host type -/

/-- C05, success: there is a host type and a Domain. -/
theorem C05_success (idna : Idna) (trie : Trie) (e : URLParams) {r : ExtractResult}
    (h : extract idna trie e = .ok (r, none)) : r.hostType ≠ .none ∧ r.domain ≠ [] := by
  obtain ⟨a, hA, ⟨after, -, h6, -, ht, -⟩ | ⟨host, after, n, -, -, -, -, hF⟩⟩ := extract_ok idna trie e h
  · exact ⟨by rw [ht]; simp, h6.ne_nil⟩
  · obtain ⟨o, hw, ⟨h4, hr⟩ | ⟨-, -, hd, hr⟩⟩ := hostF_ok.1 hF
    · have h1 := congrArg ExtractResult.domain hr
      have h2 := congrArg ExtractResult.hostType hr
      simp only at h1 h2
      rw [h1, h2]
      refine ⟨by simp, ?_⟩
      obtain ⟨z, hz, -⟩ := joinR_head (hostSplit n).1 ((hostSplit n).2.drop o.prev)
      rw [pre, hz]
      simp [ipv4_head_ne h4]
    · have h1 := congrArg ExtractResult.domain hr
      have h2 := congrArg ExtractResult.hostType hr
      simp only at h1 h2
      rw [h1, h2]
      exact ⟨by simp, hd⟩

/-- C05, failure: there is no host type, except that an invalid port after a valid bracketed IPv6 address
leaves host type IPv6. -/
theorem C05_failure (idna : Idna) (trie : Trie) (e : URLParams) {r : ExtractResult} {er : Err}
    (h : extract idna trie e = .ok (r, some er)) :
    r.hostType = .none ∨
      (r.hostType = .iPv6 ∧ er = .invalidPort ∧ IsIPv6 IsIPv4 r.domain ∧
        ∃ after, Authority e.url r.scheme r.userInfo (91 :: (r.domain ++ 93 :: after))) := by
  obtain ⟨sch, ui, a, hA⟩ := authority_exists e.url
  rw [extract_authority idna trie e hA] at h
  injection h with h
  split at h
  · simp only [Prod.mk.injEq] at h; rw [← h.1]; exact .inl rfl
  · rename_i inner after hs
    unfold literalF at h
    split at h
    · rename_i h6
      split at h
      · simp only [Prod.mk.injEq] at h; rw [← h.1]; exact .inl rfl
      · simp only at h
        split at h
        · simp only [Prod.mk.injEq, Option.some.injEq] at h
          rw [← h.1, ← h.2]
          have h6' := (isIPv6B_iff inner).1 h6
          have := (scanSplit_literal_iff (isIPv6_no_brackets h6')).1 hs
          exact .inr ⟨rfl, rfl, h6', after, this.1 ▸ hA⟩
        · simp at h
    · simp only [Prod.mk.injEq] at h; rw [← h.1]; exact .inl rfl
  · unfold nameF at h
    split at h
    · simp only [Prod.mk.injEq] at h; rw [← h.1]; exact .inl rfl
    · simp only at h
      split at h
      · simp only [Prod.mk.injEq] at h; rw [← h.1]; exact .inl rfl
      · exact .inl (hostF_err rfl h)

/-- The exception is real. -/
theorem C05_ipv6_port_example :
    extract idId exTrie { url := b! "[::1]:x" } =
      .ok ({ domain := b! "::1", registeredDomain := b! "::1", hostType := .iPv6 }, some .invalidPort) := by
  decide +kernel

/-- An error that comes with Suffix set but host type none. -/
example : extract idId exTrie { url := b! "co.uk" } =
    .ok ({ suffix := b! "co.uk" }, some .emptyDomain) := by decide +kernel

/-! ## C15: IPv4 hosts -/

/-- C15: if the host is a dotted quad (that the IDNA library does not reject), `Extract` succeeds with host
type IPv4, no SubDomain, no Suffix, and Domain and RegisteredDomain the address without trailing
separators - provided no rule ends in the last octet.  Missing: without that condition Domain may be
shorter, see `C15_counterexample`. -/
theorem C15_ipv4_partial (idna : Idna) (trie : Trie) (e : URLParams) {sch ui q t after port path : Bytes}
    (hA : Authority e.url sch ui (q ++ t ++ after)) (haf : AfterHost after port path)
    (hq : IsQuad q) (ht : MadeOf separators t) (hpu : e.convertURLToPunyCode = false)
    (hid : idna.toUnicodeErr (q ++ t) = none) :
    ∃ d, extract idna trie e = .ok ({ scheme := sch, userInfo := ui, domain := d, registeredDomain := d, port := port,
                                      path := path, hostType := .iPv4 }, none) ∧
      d ≠ [] ∧ d <+: q ∧
      ((∀ o z, IsOctet o → q = z ++ o → (∃ s ∈ separators, encode s <:+ z) → trie.get o = none) → d = q) := by
  have h4 : IsIPv4 (q ++ t) := ⟨q, t, hq, ht, rfl⟩
  have hb := ipv4_bytes h4
  have hp : IsPlainHost (q ++ t) := fun c hc => ⟨(hb c hc).1, (hb c hc).2.1, (hb c hc).2.2.1⟩
  have hun : hostText idna e.convertURLToPunyCode (q ++ t) = .ok (q ++ t) := by
    unfold hostText
    rw [queryUnescape_plain (fun c hc => (hb c hc).2.2.2), hpu]
    simp [hid]
  obtain ⟨o, h1, h2, h3⟩ := hostF_of_ipv4 trie e.ignoreSubDomains hq ht rfl
  refine ⟨pre (hostSplit (q ++ t)).1 (hostSplit (q ++ t)).2 o.prev, ?_, ?_, ?_, h3⟩
  · rw [extract_plain idna trie e hA hp haf, hun]
    simp only
    rw [h1]
    rfl
  · obtain ⟨z, hz, -⟩ := joinR_head (hostSplit (q ++ t)).1 ((hostSplit (q ++ t)).2.drop o.prev)
    rw [pre, hz]
    simp [ipv4_head_ne h4]
  · obtain ⟨z, hz⟩ := h2
    exact ⟨z, hz.symm⟩

/-- C15, converse: host type IPv4 is returned for no other host. -/
theorem C15_only_ipv4 (idna : Idna) (trie : Trie) (e : URLParams) {r : ExtractResult}
    (hpu : e.convertURLToPunyCode = false) (h : extract idna trie e = .ok (r, none)) (ht : r.hostType = .iPv4) :
    ∃ host after, Authority e.url r.scheme r.userInfo (host ++ after) ∧ AfterHost after r.port r.path ∧
      IsIPv4 host ∧ r.domain <+: host := by
  obtain ⟨a, hA, ⟨after, -, -, -, ht', -⟩ | ⟨host, after, n, rfl, hp, haf, hn, hF⟩⟩ := extract_ok idna trie e h
  · rw [ht] at ht'; simp at ht'
  · rw [hpu] at hn
    have := hostText_raw hn
    subst this
    obtain ⟨h4, o, hw, hr⟩ := hostF_ipv4 hF ht
    refine ⟨n, after, hA, haf, h4, ?_⟩
    have hdom := congrArg ExtractResult.domain hr
    simp only at hdom
    have hb := walkL_bounds hw (labels_ne_nil _ _ _) (by simp)
    have hle := leadEmpty_le (hostSplit n).2
    have := hb.2.1
    rw [labels_length] at this
    obtain ⟨z, hz⟩ := pre_prefix (h := (hostSplit n).1) (rt := (hostSplit n).2) (Nat.zero_le o.prev) (by omega)
    rw [pre_zero, hostSplit_join] at hz
    exact ⟨z, by rw [hdom]; exact hz.symm⟩

/-- With rules that end in digits, part of the address is lost. -/
theorem C15_counterexample :
    extract idId (buildTrie [b! "3.4"]) { url := b! "1.2.3.4" } =
      .ok ({ domain := b! "1.2.3", registeredDomain := b! "1.2.3", hostType := .iPv4 }, none) := by decide +kernel

example : extract idId exTrie { url := b! "//127.0.0.1..:8" } =
    .ok ({ scheme := b! "//", domain := b! "127.0.0.1", registeredDomain := b! "127.0.0.1", port := b! "8",
           hostType := .iPv4 }, none) := by decide +kernel

/-! ## C20: Domain is one label -/

/-- C20: the Domain of a host name is not empty and has no separator in it. -/
theorem C20_domain_single_label (idna : Idna) (trie : Trie) (e : URLParams) {r : ExtractResult}
    (h : extract idna trie e = .ok (r, none)) (ht : r.hostType = .hostName) :
    r.domain ≠ [] ∧ FreeOf separators r.domain := by
  refine ⟨(C05_success idna trie e h).2, ?_⟩
  obtain ⟨host, after, n, o, -, -, -, -, h1, -, h2⟩ := name_result idna trie e h ht
  have g := hostSplit_good n
  split at h2
  · rw [h2.2.2.1]; exact lab_free g _
  · rw [h2.2.2.1]; exact lab_free g _

/-! ## C21, C22: characters -/

/-- The text before the suffix has been checked. -/
theorem name_checked {trie : Trie} {ig : Bool} {n : Bytes} {o : Out} {r : ExtractResult} (h : NameOK trie n o)
    (hp : NameParts ig n o r) (hs : r.suffix ≠ [] ∨ TopComplete trie) :
    ∃ front z, HostCharsOK (front ++ r.domain ++ z) ∧
      ((front = [] ∧ r.subDomain = []) ∨ (ig = true ∧ r.subDomain = []) ∨
        ∃ s ∈ separators, front = r.subDomain ++ encode s) := by
  have g := hostSplit_good n
  have hc := (hasInvalidChars_false_iff _).1 h.chars
  have hle := leadEmpty_le (hostSplit n).2
  have hsub : ∀ k front, ((front = [] ∧ sub (hostSplit n).1 (hostSplit n).2 false k = []) ∨
      ∃ s ∈ separators, front = sub (hostSplit n).1 (hostSplit n).2 false k ++ encode s) →
      r.subDomain = sub (hostSplit n).1 (hostSplit n).2 ig k →
      ((front = [] ∧ r.subDomain = []) ∨ (ig = true ∧ r.subDomain = []) ∨
        ∃ s ∈ separators, front = r.subDomain ++ encode s) := by
    intro k front hf hr
    cases ig with
    | true => right; left; exact ⟨rfl, by rw [hr]; simp [sub]⟩
    | false =>
      rw [hr]
      rcases hf with hf | hf
      · exact .inl hf
      · exact .inr (.inr hf)
  obtain ⟨-, hp⟩ := hp
  cases he : o.endK with
  | none =>
    rw [he] at hp
    have hprev : o.prev = leadEmpty (hostSplit n).2 := by
      rcases hs with hs | hs
      · exact absurd hp.1 hs
      · exact (walkL_top hs h.walk (labels_ne_nil _ _ _)).1 he
    obtain ⟨front, hf, hf2⟩ := pre_front g hle
    unfold checkedText at hc
    rw [he] at hc
    simp only [hprev, hf] at hc
    refine ⟨front, [], ?_, hsub _ _ hf2 hp.2.2.2⟩
    rw [hp.2.2.1]; simpa using hc
  | some e =>
    rw [he] at hp
    obtain ⟨b1, b2, b3, b4, b5, b6, b7, b8, b9⟩ := h.some_case e he
    obtain ⟨front, hf, hf2⟩ := pre_front g b4
    obtain ⟨z, hz⟩ := pre_prefix (h := (hostSplit n).1) (rt := (hostSplit n).2) b8 b4
    unfold checkedText at hc
    rw [he] at hc
    simp only [b4, if_true] at hc
    rw [hz, hf] at hc
    refine ⟨front, z, ?_, hsub _ _ hf2 hp.2.2.2⟩
    rw [hp.2.2.1]; exact hc

/-- C21: SubDomain and Domain of a host name contain none of the library's invalid characters, except
possibly three: U+0378, U+206B, U+2A74.  Missing: those three (`C21_counterexample`); and without Suffix
it also needs that every top-level label in the list is a rule (`C21_counterexample_unchecked`). -/
theorem C21_no_invalid_chars_partial (idna : Idna) (trie : Trie) (e : URLParams) {r : ExtractResult}
    (h : extract idna trie e = .ok (r, none)) (ht : r.hostType = .hostName)
    (hs : r.suffix ≠ [] ∨ TopComplete trie) :
    ∀ c ∈ invalidChars, c ∉ missedChars → ¬ encode c <:+: r.subDomain ∧ ¬ encode c <:+: r.domain := by
  obtain ⟨host, after, n, o, -, -, -, -, h1, h2⟩ := name_result idna trie e h ht
  obtain ⟨front, z, hc, hf⟩ := name_checked h1 h2 hs
  intro c hcm hcn
  have key := hc.2.2.2.2 c hcm hcn
  refine ⟨fun hi => ?_, fun hi => key ?_⟩
  · rcases hf with ⟨-, hf⟩ | ⟨-, hf⟩ | ⟨s, -, hf⟩
    · rw [hf] at hi
      have := hi.length_le
      simp at this; exact encode_ne_nil c this
    · rw [hf] at hi
      have := hi.length_le
      simp at this; exact encode_ne_nil c this
    · refine key (hi.trans ?_)
      rw [hf]
      exact ⟨[], encode s ++ r.domain ++ z, by simp⟩
  · exact hi.trans ⟨front, z, by simp⟩

/-- U+206B is in the library's list of invalid characters, but a host name with it is accepted. -/
theorem C21_counterexample :
    extract idId exTrie { url := [97, 0xE2, 0x81, 0xAB, 46, 99, 111, 109] } =
      .ok ({ domain := [97, 0xE2, 0x81, 0xAB], suffix := b! "com", registeredDomain := [97, 0xE2, 0x81, 0xAB, 46, 99, 111, 109],
             hostType := .hostName }, none) ∧
    encode 0x206B = [0xE2, 0x81, 0xAB] ∧ 0x206B ∈ invalidChars := by
  decide +kernel

/-- If the top-level label is not a rule, labels matched by the list are never checked. -/
theorem C21_counterexample_unchecked :
    extract idId (buildTrie [b! "x.c_d"]) { url := b! "a.c_d" } =
      .ok ({ subDomain := b! "a", domain := b! "c_d", hostType := .hostName }, none) := by decide +kernel

/-- C22: before the suffix, no separator other than U+FF61 begins the host, and no two of them are next to
each other.  Missing: U+FF61 (`C22_counterexample`); and without Suffix the list must contain every
top-level label as a rule. -/
theorem C22_no_empty_labels_partial (idna : Idna) (trie : Trie) (e : URLParams) {r : ExtractResult}
    (hig : e.ignoreSubDomains = false)
    (h : extract idna trie e = .ok (r, none)) (ht : r.hostType = .hostName)
    (hs : r.suffix ≠ [] ∨ TopComplete trie) :
    ∃ text, ((text = r.domain ∧ r.subDomain = []) ∨
        ∃ s ∈ separators, text = r.subDomain ++ encode s ++ r.domain) ∧
      (∀ a ∈ separators, a ≠ 0xFF61 → ¬ encode a <+: text) ∧
      (∀ a ∈ separators, ∀ b ∈ separators, a ≠ 0xFF61 → b ≠ 0xFF61 → ¬ encode a ++ encode b <:+: text) := by
  obtain ⟨host, after, n, o, -, -, -, -, h1, h2⟩ := name_result idna trie e h ht
  obtain ⟨front, z, hc, hf⟩ := name_checked h1 h2 hs
  have hst : ∀ a ∈ separators, a ≠ 0xFF61 → a ∈ strictSeparators := by decide
  refine ⟨front ++ r.domain, ?_, ?_, ?_⟩
  · rcases hf with ⟨hf, hf2⟩ | ⟨hf, -⟩ | ⟨s, hs, hf⟩
    · exact .inl ⟨by rw [hf]; rfl, hf2⟩
    · rw [hig] at hf; simp at hf
    · exact .inr ⟨s, hs, by rw [hf]⟩
  · intro a ha hn hpre
    exact hc.2.2.1 a (hst a ha hn) (hpre.trans ⟨z, rfl⟩)
  · intro a ha b hb hna hnb hi
    exact hc.2.2.2.1 a (hst a ha hna) b (hst b hb hnb) (hi.trans ⟨[], z, by simp⟩)

/-- With U+FF61 empty labels get through, at the start and inside. -/
theorem C22_counterexample :
    extract idId exTrie { url := [0xEF, 0xBD, 0xA1, 97, 0xEF, 0xBD, 0xA1, 0xEF, 0xBD, 0xA1, 98, 46, 99, 111, 109] } =
      .ok ({ subDomain := [0xEF, 0xBD, 0xA1, 97, 0xEF, 0xBD, 0xA1], domain := b! "b", suffix := b! "com",
             registeredDomain := b! "b.com", hostType := .hostName }, none) ∧
    encode 0xFF61 = [0xEF, 0xBD, 0xA1] := by decide +kernel

example : extract idId exTrie { url := b! ".a.com" } = .ok ({}, some .invalidCharacters) := by decide +kernel
example : extract idId exTrie { url := b! "a..b.com" } = .ok ({}, some .invalidCharacters) := by decide +kernel
example : extract idId exTrie { url := b! "a_.b.com" } = .ok ({}, some .invalidCharacters) := by decide +kernel

end Fasttld.Props
