import Verif.Proofs.Decide
import Verif.Props.Host

/-!
# C17-C19, C25: rules and suffixes
-/

set_option linter.unusedSimpArgs false

namespace Fasttld.Props
open Fasttld Fasttld.Spec

/-! ## C19: the index holds exactly the rules -/

/-- C19: a path of labels from the right is in the index iff it is empty or some rule begins with it, and it
is marked iff it is a rule, or a single label below which there is a wildcard. -/
theorem C19_index (rules : List Bytes) (p : List Bytes) :
    ((buildTrie rules).has p ↔ p = [] ∨ PrefixAt rules p) ∧
    ((buildTrie rules).endAt p ↔ RuleAt rules p ∨ ∃ l, p = [l] ∧ PrefixAt rules [l, star]) :=
  ⟨buildTrie_has rules p, buildTrie_endAt rules p⟩

/-- Every text has exactly one list of labels. -/
theorem C19_labels (r : Bytes) : ∃ ls, IsLabels r ls ∧ ∀ ls', IsLabels r ls' → ls' = ls :=
  ⟨splitByte 46 r, isLabels_iff.2 rfl, fun _ h => isLabels_iff.1 h⟩

example : (buildTrie [b! "co.uk", b! "*.ck"]).has [b! "uk"] ∧ ¬ (buildTrie [b! "co.uk", b! "*.ck"]).endAt [b! "uk"] ∧
    (buildTrie [b! "co.uk", b! "*.ck"]).endAt [b! "ck"] ∧ ¬ (buildTrie [b! "co.uk", b! "*.ck"]).has [b! "co"] := by
  simp only [C19_index]
  refine ⟨.inr (by decide +kernel), ?_, .inr ⟨_, rfl, by decide +kernel⟩, ?_⟩
  · rintro (h | ⟨l, h, h2⟩)
    · exact absurd h (by decide +kernel)
    · simp only [List.cons.injEq, and_true] at h
      subst h; exact absurd h2 (by decide +kernel)
  · rintro (h | h)
    · simp at h
    · exact absurd h (by decide +kernel)

/-! ## C18: order and duplicates -/

/-- C18: lists with the same set of rules give the same results, faults and errors included. -/
theorem C18_same_rules (idna : Idna) (e : URLParams) {rules rules' : List Bytes} (h : ∀ r, r ∈ rules ↔ r ∈ rules') :
    extract idna (buildTrie rules) e = extract idna (buildTrie rules') e := by
  have hr : ∀ p, RuleAt rules p ↔ RuleAt rules' p := by
    intro p
    unfold RuleAt
    constructor <;> rintro ⟨r, h1, h2⟩
    · exact ⟨r, (h r).1 h1, h2⟩
    · exact ⟨r, (h r).2 h1, h2⟩
  have hp : ∀ p, PrefixAt rules p ↔ PrefixAt rules' p := by
    intro p; unfold PrefixAt; simp only [hr]
  apply extract_same
  intro p
  rw [buildTrie_has, buildTrie_has, buildTrie_endAt, buildTrie_endAt]
  simp only [hr, hp, and_self]

example (idna : Idna) (e : URLParams) : extract idna (buildTrie [b! "com", b! "co.uk", b! "uk"]) e =
    extract idna (buildTrie [b! "uk", b! "com", b! "co.uk", b! "com"]) e :=
  C18_same_rules idna e (fun r => by
    simp only [List.mem_cons, List.not_mem_nil, or_false]
    constructor
    · rintro (h | h | h) <;> simp [h]
    · rintro (h | h | h | h) <;> simp [h])

/-! ## C17: the algorithm of the Public Suffix List -/

/-- The algorithm has exactly one outcome. -/
theorem C17_algorithm (rules name : List Bytes) :
    (NoRuleMatches rules name ∧ ∀ n, ¬ PublicSuffix rules name n) ∨
    (¬ NoRuleMatches rules name ∧ ∃ n, PublicSuffix rules name n ∧ ∀ n', PublicSuffix rules name n' → n' = n) := by
  cases h : publicSuffixLen rules name with
  | none =>
    have h := publicSuffixLen_none.1 h
    exact .inl ⟨h, fun n hn => publicSuffix_not_none hn h⟩
  | some n =>
    have h := publicSuffixLen_some.1 h
    exact .inr ⟨publicSuffix_not_none h, n, h, fun n' hn => publicSuffix_unique hn h⟩

/-- Everything about a host name that is accepted, with its labels. -/
theorem name_labels_result (idna : Idna) (trie : Trie) (e : URLParams) {r : ExtractResult}
    (h : extract idna trie e = .ok (r, none)) (ht : r.hostType = .hostName) :
    ∃ host after n first rest tail o, Authority e.url r.scheme r.userInfo (host ++ after) ∧ IsPlainHost host ∧
      AfterHost after r.port r.path ∧ HostTextOf idna e.convertURLToPunyCode host n ∧ HostLabels n first rest tail ∧
      NameOK trie n o ∧ NameParts e.ignoreSubDomains n o r := by
  obtain ⟨host, after, n, o, hA, hp, haf, hn, h1, h2⟩ := name_result idna _ e h ht
  obtain ⟨first, rest, tail, hl⟩ := name_labels h1
  exact ⟨host, after, n, first, rest, tail, o, hA, hp, haf, hostText_iff.1 hn, hl, h1, h2⟩

/-- C17, partial: the same as `C17_public_suffix_partial` with the weaker condition `Tame`. -/
theorem C17_tame_partial (idna : Idna) (rules : List Bytes) (e : URLParams) {r : ExtractResult}
    (hig : e.ignoreSubDomains = false)
    (h : extract idna (buildTrie rules) e = .ok (r, none)) (ht : r.hostType = .hostName) :
    ∃ host after n first rest tail, Authority e.url r.scheme r.userInfo (host ++ after) ∧ IsPlainHost host ∧
      AfterHost after r.port r.path ∧ HostTextOf idna e.convertURLToPunyCode host n ∧ HostLabels n first rest tail ∧
      (e.convertURLToPunyCode = false → ∃ name, DecodesAll (fromRight first rest) name) ∧
      ∀ name, DecodesAll (fromRight first rest) name → Tame rules name →
        (fromRight first rest = name ∨ NoExceptions rules) →
        (∀ n, PublicSuffix rules name n → CutLabels first rest n r.subDomain r.domain r.suffix) ∧
        (NoRuleMatches rules name → CutLabels first rest 0 r.subDomain r.domain r.suffix) := by
  obtain ⟨host, after, n, first, rest, tail, o, hA, hp, haf, hn, hl, h1, h2⟩ := name_labels_result idna _ e h ht
  rw [hig] at h2
  obtain ⟨k, hw, hc1, hc2⟩ := name_cut h1 h2 hl
  refine ⟨host, after, n, first, rest, tail, hA, hp, haf, hn, hl, ?_, ?_⟩
  · intro hpu
    obtain ⟨un, hun, ⟨-, -, rfl⟩ | ⟨hc, -⟩⟩ := hn
    · exact hl.decodes hun
    · rw [hpu] at hc; simp at hc
  intro name hname hr hraw
  rcases walk_publicSuffix hname.eq_map hr hraw (by simp [fromRight]) hw (fun e he => by
      have := hc2 e he
      have e1 : name.length = rest.length + 1 := by rw [hname.eq_map, List.length_map, fromRight_length]
      omega) with ⟨e1, e2⟩ | ⟨e1, e2, e3⟩
  · exact ⟨fun n hn => absurd e2 (publicSuffix_not_none hn), fun _ => hc1 e1⟩
  · refine ⟨fun n hn => ?_, fun hn => absurd hn (publicSuffix_not_none e3)⟩
    rw [publicSuffix_unique hn e3]
    have := (hc2 k e1).2.2.2
    simpa using this

/-- C17, partial: on success with a host name, if the rules are `Regular` for the percent-decoded labels, then Suffix
is the public suffix given by the algorithm of the Public Suffix List, Domain the label before it and SubDomain
the rest; and if no rule matches there is no Suffix.  (`n` is the host, or its ASCII form with punycode conversion.)
Missing: names for which the rules are not `Regular`, where the claim is false, see `C17_counterexample_gap`,
`C17_counterexample_top`, `C17_counterexample_shadow` and `C17_counterexample_bare`; and hosts with escapes if
there are exception rules, see `C24_counterexample`. -/
theorem C17_public_suffix_partial (idna : Idna) (rules : List Bytes) (e : URLParams) {r : ExtractResult}
    (hig : e.ignoreSubDomains = false)
    (h : extract idna (buildTrie rules) e = .ok (r, none)) (ht : r.hostType = .hostName) :
    ∃ host after n first rest tail, Authority e.url r.scheme r.userInfo (host ++ after) ∧ IsPlainHost host ∧
      AfterHost after r.port r.path ∧ HostTextOf idna e.convertURLToPunyCode host n ∧ HostLabels n first rest tail ∧
      (e.convertURLToPunyCode = false → ∃ name, DecodesAll (fromRight first rest) name) ∧
      ∀ name, DecodesAll (fromRight first rest) name → Regular rules name →
        (fromRight first rest = name ∨ NoExceptions rules) →
        (∀ n, PublicSuffix rules name n → CutLabels first rest n r.subDomain r.domain r.suffix) ∧
        (NoRuleMatches rules name → CutLabels first rest 0 r.subDomain r.domain r.suffix) := by
  obtain ⟨host, after, n, first, rest, tail, hA, hp, haf, hn, hl, h1, h2⟩ := C17_tame_partial idna rules e hig h ht
  exact ⟨host, after, n, first, rest, tail, hA, hp, haf, hn, hl, h1, fun name hd hr hraw => h2 name hd hr.tame hraw⟩

/-- Rules like those of the list. -/
def pslRules : List Bytes := [b! "com", b! "ck", b! "*.ck", b! "!www.ck", b! "jp", b! "*.kobe.jp", b! "!city.kobe.jp", b! "uk", b! "co.uk"]

-- the hypotheses of C17 hold and its cases occur
example : Regular pslRules [b! "jp", b! "kobe", b! "x", b! "y"] ∧ PublicSuffix pslRules [b! "jp", b! "kobe", b! "x", b! "y"] 3 ∧
    extract idId (buildTrie pslRules) { url := b! "z.y.x.kobe.jp" } =
      .ok ({ subDomain := b! "z", domain := b! "y", suffix := b! "x.kobe.jp", registeredDomain := b! "y.x.kobe.jp",
             hostType := .hostName }, none) :=
  ⟨regularB_sound (by decide +kernel), by decide +kernel, by decide +kernel⟩
example : Regular pslRules [b! "jp", b! "kobe", b! "city", b! "y"] ∧
    PublicSuffix pslRules [b! "jp", b! "kobe", b! "city", b! "y"] 2 ∧
    extract idId (buildTrie pslRules) { url := b! "y.city.kobe.jp" } =
      .ok ({ subDomain := b! "y", domain := b! "city", suffix := b! "kobe.jp", registeredDomain := b! "city.kobe.jp",
             hostType := .hostName }, none) :=
  ⟨regularB_sound (by decide +kernel), by decide +kernel, by decide +kernel⟩
example : Regular pslRules [b! "uk", b! "co", b! "a"] ∧ PublicSuffix pslRules [b! "uk", b! "co", b! "a"] 2 :=
  ⟨regularB_sound (by decide +kernel), by decide +kernel⟩
example : Regular pslRules [b! "xyz", b! "co"] ∧ NoRuleMatches pslRules [b! "xyz", b! "co"] :=
  ⟨regularB_sound (by decide +kernel), by decide +kernel⟩

/-- A cut of three dotted labels with a one-label suffix has only the last label in it. -/
theorem cut_one {a b c : Bytes} {sb dom suf : Bytes} (h : CutLabels a [(46, b), (46, c)] 1 sb dom suf) : suf = c := by
  obtain ⟨front, back, h1, h2, h3, -⟩ := h
  match front, back, h2 with
  | [], [x], h2 => simp at h1
  | [y], [x], h2 =>
    simp at h1
    obtain ⟨-, rfl⟩ := h1
    simpa [joinLabels] using h3
  | y :: y' :: [], [x], h2 => simp at h1
  | y :: y' :: y'' :: f, [x], h2 => simp at h1

/-- C17 fails where the list has a gap: `b.net` is not a rule, but `a.b.net` is. -/
theorem C17_counterexample_gap : ∃ r : ExtractResult,
    extract idId (buildTrie [b! "net", b! "a.b.net"]) { url := b! "www.b.net" } = .ok (r, none) ∧ r.hostType = .hostName ∧
    PublicSuffix [b! "net", b! "a.b.net"] [b! "net", b! "b", b! "www"] 1 ∧
    ¬ CutLabels (b! "www") [(46, b! "b"), (46, b! "net")] 1 r.subDomain r.domain r.suffix := by
  refine ⟨{ domain := b! "www", suffix := b! "b.net", registeredDomain := b! "www.b.net", hostType := .hostName },
    by decide +kernel, rfl, by decide +kernel, fun h => ?_⟩
  exact absurd (cut_one h) (by decide)

/-- C17 fails where a top-level label is not itself a rule: `co.za` is a rule, `za` is not. -/
theorem C17_counterexample_top : ∃ r : ExtractResult,
    extract idId (buildTrie [b! "co.za"]) { url := b! "a.co.za" } = .ok (r, none) ∧ r.hostType = .hostName ∧
    PublicSuffix [b! "co.za"] [b! "za", b! "co", b! "a"] 2 ∧ r.suffix = b! "co" := by
  exact ⟨{ domain := b! "a", suffix := b! "co", registeredDomain := b! "a.co", hostType := .hostName },
    by decide +kernel, rfl, by decide +kernel, rfl⟩

/-- C17 fails where a rule is longer than a wildcard next to it. -/
theorem C17_counterexample_shadow : ∃ r : ExtractResult,
    extract idId (buildTrie [b! "jp", b! "*.jp", b! "c.b.jp"]) { url := b! "a.c.b.jp" } = .ok (r, none) ∧
    r.hostType = .hostName ∧ PublicSuffix [b! "jp", b! "*.jp", b! "c.b.jp"] [b! "jp", b! "b", b! "c", b! "a"] 3 ∧
    r.suffix = b! "b.jp" := by
  exact ⟨{ subDomain := b! "a", domain := b! "c", suffix := b! "b.jp", registeredDomain := b! "c.b.jp",
           hostType := .hostName }, by decide +kernel, rfl, by decide +kernel, rfl⟩

/-- C17 fails for the bare rule `*`: there is no Suffix at all. -/
theorem C17_counterexample_bare : ∃ r : ExtractResult,
    extract idId (buildTrie [b! "*"]) { url := b! "a.b" } = .ok (r, none) ∧
    r.hostType = .hostName ∧ PublicSuffix [b! "*"] [b! "b", b! "a"] 1 ∧ r.suffix = [] := by
  exact ⟨{ subDomain := b! "a", domain := b! "b", hostType := .hostName }, by decide +kernel, rfl, by decide +kernel, rfl⟩

/-! ## C25: unknown top-level label -/

/-- C25: if no rule begins with the (percent-decoded) last label of the host, then there is no Suffix and no RegisteredDomain, Domain is the last label and SubDomain everything before it. -/
theorem C25_unknown_tld (idna : Idna) (rules : List Bytes) (e : URLParams) {r : ExtractResult}
    (hig : e.ignoreSubDomains = false)
    (h : extract idna (buildTrie rules) e = .ok (r, none)) (ht : r.hostType = .hostName) :
    ∃ host after n first rest tail, Authority e.url r.scheme r.userInfo (host ++ after) ∧ IsPlainHost host ∧
      AfterHost after r.port r.path ∧ HostTextOf idna e.convertURLToPunyCode host n ∧ HostLabels n first rest tail ∧
      ∀ l last, (first :: rest.map Prod.snd).getLast? = some l → Decodes l last →
        ¬ PrefixAt rules [last] →
        r.suffix = [] ∧ r.registeredDomain = [] ∧ CutLabels first rest 0 r.subDomain r.domain r.suffix := by
  obtain ⟨host, after, n, first, rest, tail, o, hA, hp, haf, hn, hl, h1, h2⟩ := name_labels_result idna _ e h ht
  rw [hig] at h2
  obtain ⟨k, hw, hc1, hc2⟩ := name_cut h1 h2 hl
  refine ⟨host, after, n, first, rest, tail, hA, hp, haf, hn, hl, fun l last hll hd hlast => ?_⟩
  have hend : o.endK = none := by
    obtain ⟨m, m1, -, m3, m4, m5, m6⟩ := walkL_spec hw (by simp [fromRight])
    have hm : m = 0 := by
      rcases Nat.eq_zero_or_pos m with h | h
      · exact h
      exfalso
      obtain ⟨i, rfl⟩ : ∃ i, m = i + 1 := ⟨m - 1, by omega⟩
      have e1 : ∃ ls, fromRight first rest = l :: ls := by
        unfold fromRight
        obtain ⟨ys, hys⟩ := List.getLast?_eq_some_iff.1 hll
        exact ⟨ys.reverse, by rw [hys]; simp⟩
      obtain ⟨ls, e1⟩ := e1
      rw [e1, path_cons, unescapeOrEmpty_of hd, buildTrie_has] at m3
      rcases m3 with m3 | ⟨q, hq, hr⟩
      · simp at m3
      · exact hlast ⟨q, List.IsPrefix.trans (by simp) hq, hr⟩
    subst hm
    rcases m6 rfl with ⟨h, -⟩ | ⟨j, hj, -⟩
    · exact h
    · omega
  have h3 := h2.2
  rw [hend] at h3
  exact ⟨h3.1, h3.2.1, hc1 hend⟩

example : ¬ PrefixAt pslRules [b! "xyz"] ∧
    extract idId (buildTrie pslRules) { url := b! "a.b.xyz." } =
      .ok ({ subDomain := b! "a.b", domain := b! "xyz", hostType := .hostName }, none) :=
  ⟨by decide +kernel, by decide +kernel⟩

/-- Also next to a wildcard for all top-level labels. -/
example : ¬ PrefixAt [b! "*", b! "x.*"] [b! "zz"] ∧
    extract idId (buildTrie [b! "*", b! "x.*"]) { url := b! "a.x.zz" } =
      .ok ({ subDomain := b! "a.x", domain := b! "zz", hostType := .hostName }, none) :=
  ⟨by decide +kernel, by decide +kernel⟩

/-! ## C24: percent-encoded labels -/

/-- C24, malformed escapes: a `%` in the host that is not followed by two hexadecimal digits is an error. -/
theorem C24_malformed (idna : Idna) (trie : Trie) (e : URLParams) {sch ui host after port path : Bytes}
    (hA : Authority e.url sch ui (host ++ after)) (hp : IsPlainHost host) (haf : AfterHost after port path)
    (hb : BadEscape host) :
    ∃ r esc, extract idna trie e = .ok (r, some (.badEscape esc)) := by
  rw [extract_plain idna trie e hA hp haf]
  have : ∃ esc, hostText idna e.convertURLToPunyCode host = .error (.badEscape esc) := by
    rcases decodes_or_error host with h | ⟨esc, h⟩
    · exact absurd hb ((decodes_iff_not_bad host).1 h)
    · exact ⟨esc, by unfold hostText; rw [h]⟩
  obtain ⟨esc, h⟩ := this
  rw [h]
  exact ⟨_, esc, rfl⟩

/-- C24, the converse: this error means there is such a `%`. -/
theorem C24_malformed_only (idna : Idna) (trie : Trie) (e : URLParams) {r : ExtractResult} {esc : Bytes}
    (h : extract idna trie e = .ok (r, some (.badEscape esc))) :
    ∃ sch ui host after, Authority e.url sch ui (host ++ after) ∧ BadEscape host := by
  obtain ⟨sch, ui, a, hA⟩ := authority_exists e.url
  rw [extract_authority idna trie e hA] at h
  injection h with h
  split at h
  · rename_i er hs
    simp only [Prod.mk.injEq, Option.some.injEq] at h
    have := scanSplit_bad hs
    rw [h.2] at this
    simp at this
  · unfold literalF at h
    split at h
    · split at h
      · simp at h
      · simp only at h
        split at h <;> simp at h
    · simp at h
  · rename_i host after hs
    refine ⟨sch, ui, host, after, (scanSplit_name_iff.1 hs).1 ▸ hA, ?_⟩
    unfold nameF at h
    split at h
    · simp at h
    · simp only at h
      split at h
      · rename_i er hh
        simp only [Prod.mk.injEq, Option.some.injEq] at h
        rw [h.2] at hh
        apply Classical.byContradiction
        intro hn
        obtain ⟨un, hun⟩ := (decodes_iff_not_bad host).2 hn
        rw [← queryUnescape_iff] at hun
        unfold hostText at hh
        rw [hun] at hh
        simp only at hh
        split at hh
        · simp at hh
        · split at hh <;> simp at hh
      · exfalso
        unfold hostF at h
        simp only at h
        split at h
        · simp at h
        · split at h
          · simp at h
          · split at h
            · simp at h
            · split at h <;> simp at h

/-- C24, partial: without exception rules only the decoded labels decide where the host is cut.  If two hosts have the
same decoded labels and both are accepted as host names, then SubDomain, Domain and Suffix have the same numbers
of labels in both, in the spelling of the host.  Missing: exception rules, which are compared with the undecoded
label, see `C24_counterexample`. -/
theorem C24_decoded_partial (idna idna' : Idna) (rules : List Bytes) (hx : NoExceptions rules) (e e' : URLParams)
    {r r' : ExtractResult} (hig : e.ignoreSubDomains = false) (hig' : e'.ignoreSubDomains = false)
    (h : extract idna (buildTrie rules) e = .ok (r, none)) (ht : r.hostType = .hostName)
    (h' : extract idna' (buildTrie rules) e' = .ok (r', none)) (ht' : r'.hostType = .hostName) :
    ∃ host after n first rest tail host' after' n' first' rest' tail',
      (Authority e.url r.scheme r.userInfo (host ++ after) ∧ IsPlainHost host ∧ AfterHost after r.port r.path ∧
        HostTextOf idna e.convertURLToPunyCode host n ∧ HostLabels n first rest tail) ∧
      (Authority e'.url r'.scheme r'.userInfo (host' ++ after') ∧ IsPlainHost host' ∧ AfterHost after' r'.port r'.path ∧
        HostTextOf idna' e'.convertURLToPunyCode host' n' ∧ HostLabels n' first' rest' tail') ∧
      ∀ name, DecodesAll (fromRight first rest) name → DecodesAll (fromRight first' rest') name →
        ∃ d n, CutLabels first (rest.take (rest.length - d)) n r.subDomain r.domain r.suffix ∧
          CutLabels first' (rest'.take (rest'.length - d)) n r'.subDomain r'.domain r'.suffix := by
  obtain ⟨host, after, n, first, rest, tail, o, hA, hp, haf, hn, hl, h1, h2⟩ := name_labels_result idna _ e h ht
  obtain ⟨host', after', n', first', rest', tail', o', hA', hp', haf', hn', hl', h1', h2'⟩ :=
    name_labels_result idna' _ e' h' ht'
  rw [hig] at h2
  rw [hig'] at h2'
  obtain ⟨k, hw, hc1, hc2⟩ := name_cut h1 h2 hl
  obtain ⟨k', hw', hc1', hc2'⟩ := name_cut h1' h2' hl'
  refine ⟨host, after, n, first, rest, tail, host', after', n', first', rest', tail', ⟨hA, hp, haf, hn, hl⟩,
    ⟨hA', hp', haf', hn', hl'⟩, ?_⟩
  intro name hd hd'
  have hxt : ∀ p l, ¬ (buildTrie rules).has (p ++ [33 :: l]) := by
    intro p l
    rw [buildTrie_has]
    rintro (hc | hc)
    · simp at hc
    · exact hx p l hc
  rw [walkL_decoded hxt hd hd'] at hw
  obtain ⟨o0, rfl, rfl⟩ := walkL_shift hw hw'
  cases heo : o0.endK with
  | none => exact ⟨0, 0, by simpa using hc1 (by simp [Out.shift, heo]), by simpa using hc1' (by simp [Out.shift, heo])⟩
  | some x =>
    obtain ⟨b1, b2, b3, b4⟩ := hc2 (x + k) (by simp [Out.shift, heo])
    obtain ⟨b1', b2', b3', b4'⟩ := hc2' (x + k') (by simp [Out.shift, heo])
    refine ⟨x, o0.sep - x, ?_, ?_⟩
    · have e1 : x + k - k = x := by omega
      have e2 : (o0.shift k).sep - (x + k) = o0.sep - x := by simp only [Out.shift]; omega
      rw [e1, e2] at b4; exact b4
    · have e1 : x + k' - k' = x := by omega
      have e2 : (o0.shift k').sep - (x + k') = o0.sep - x := by simp only [Out.shift]; omega
      rw [e1, e2] at b4'; exact b4'

/-- Exception rules are compared with the undecoded label: `%77ww` is `www`, but only `www.ck` gets a Domain. -/
theorem C24_counterexample :
    Decodes (b! "%77ww") (b! "www") ∧
    extract idId (buildTrie pslRules) { url := b! "www.ck" } =
      .ok ({ domain := b! "www", suffix := b! "ck", registeredDomain := b! "www.ck", hostType := .hostName }, none) ∧
    extract idId (buildTrie pslRules) { url := b! "%77ww.ck" } =
      .ok ({ suffix := b! "%77ww.ck" }, some .emptyDomain) := by
  refine ⟨?_, by decide +kernel, by decide +kernel⟩
  rw [← queryUnescape_iff]; decide +kernel

example : NoExceptions [b! "uk", b! "co.uk"] ∧ Decodes (b! "%63o") (b! "co") ∧
    extract idId (buildTrie [b! "uk", b! "co.uk"]) { url := b! "a.%63o.uk" } =
      .ok ({ domain := b! "a", suffix := b! "%63o.uk", registeredDomain := b! "a.%63o.uk", hostType := .hostName }, none) ∧
    extract idId (buildTrie [b! "uk", b! "co.uk"]) { url := b! "a.co.uk" } =
      .ok ({ domain := b! "a", suffix := b! "co.uk", registeredDomain := b! "a.co.uk", hostType := .hostName }, none) := by
  refine ⟨?_, by rw [← queryUnescape_iff]; decide +kernel, by decide +kernel, by decide +kernel⟩
  intro p l hc
  obtain ⟨q, hq, hpre⟩ := prefixAt_iff.1 hc
  have h1 : ∀ q ∈ [b! "uk", b! "co.uk"].map revLabels, ∀ x ∈ q, x.head? ≠ some 33 := by decide +kernel
  have := h1 q hq (33 :: l) (hpre.subset (by simp))
  simp at this

example : extract idId (buildTrie pslRules) { url := b! "a.%6" } = .ok ({}, some (.badEscape (b! "%6"))) := by
  decide +kernel

end Fasttld.Props
