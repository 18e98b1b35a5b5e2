import Verif.Props.Relate

/-!
# C53: only the rules under the last label count
-/

set_option linter.unusedSimpArgs false

namespace Fasttld.Props
open Fasttld Fasttld.Spec Trie

theorem sameBelow_prefix {rules rules' : List Bytes} {x : Bytes} (h : SameBelow rules rules' x) (p : List Bytes) :
    PrefixAt rules (x :: p) ↔ PrefixAt rules' (x :: p) := by
  unfold PrefixAt
  constructor <;> rintro ⟨q, hq, hr⟩ <;>
  · obtain ⟨t, rfl⟩ := hq
    rw [List.cons_append] at hr
    exact ⟨_, ⟨t, rfl⟩, by first | exact (h _).1 hr | exact (h _).2 hr⟩

theorem sameBelow_get {rules rules' : List Bytes} {x : Bytes} (h : SameBelow rules rules' x) :
    ((buildTrie rules).get x = none ∧ (buildTrie rules').get x = none) ∨
    ∃ v w, (buildTrie rules).get x = some v ∧ (buildTrie rules').get x = some w ∧ v.Same w := by
  have hh : ∀ p, (buildTrie rules).has (x :: p) ↔ (buildTrie rules').has (x :: p) := by
    intro p
    rw [buildTrie_has, buildTrie_has, sameBelow_prefix h]
  have he : ∀ p, (buildTrie rules).endAt (x :: p) ↔ (buildTrie rules').endAt (x :: p) := by
    intro p
    rw [buildTrie_endAt, buildTrie_endAt, h p]
    refine or_congr Iff.rfl ?_
    constructor <;> rintro ⟨l, e, hp⟩ <;>
    · obtain ⟨rfl, rfl⟩ : x = l ∧ p = [] := by simpa using e
      exact ⟨x, rfl, by first | exact (sameBelow_prefix h _).1 hp | exact (sameBelow_prefix h _).2 hp⟩
  cases ha : (buildTrie rules).get x with
  | none =>
    cases hb : (buildTrie rules').get x with
    | none => exact .inl ⟨rfl, rfl⟩
    | some w => have := hh []; rw [has_cons, has_cons, ha, hb] at this; simp [has_nil] at this
  | some v =>
    cases hb : (buildTrie rules').get x with
    | none => have := hh []; rw [has_cons, has_cons, ha, hb] at this; simp [has_nil] at this
    | some w =>
      refine .inr ⟨v, w, rfl, rfl, fun p => ?_⟩
      have h1 := hh p
      have h2 := he p
      rw [has_cons, has_cons, ha, hb] at h1
      rw [endAt_cons, endAt_cons, ha, hb] at h2
      exact ⟨by simpa using h1, by simpa using h2⟩

theorem walkL_local {rules rules' : List Bytes} {l : Bytes} (h1 : SameBelow rules rules' (unescapeOrEmpty l))
    (h2 : SameBelow rules rules' star) (h3 : PrefixAt rules [star] → SameBelow rules rules' (33 :: l)) (ls : List Bytes) (k : Nat)
    (endK : Option Nat) : walkL (buildTrie rules) (l :: ls) k endK = walkL (buildTrie rules') (l :: ls) k endK := by
  rw [walkL, walkL]
  split
  · rfl
  · have hs : (b! "*") = star := rfl
    unfold labelL
    rw [hs]
    rcases sameBelow_get h2 with ⟨g1, g2⟩ | ⟨v, w, g1, g2, -⟩
    · rw [g1, g2]
      rcases sameBelow_get h1 with ⟨g3, g4⟩ | ⟨v, w, g3, g4, hvw⟩
      · rw [g3, g4]
      · rw [g3, g4]
        simp only [hvw.isEnd]
        by_cases hc : v.kids.length = 0 ∨ ls.isEmpty = true
        · have hc' : w.kids.length = 0 ∨ ls.isEmpty = true := by rwa [← hvw.kids]
          rw [if_pos hc, if_pos hc']
        · have hc' : ¬ (w.kids.length = 0 ∨ ls.isEmpty = true) := by rwa [← hvw.kids]
          rw [if_neg hc, if_neg hc']
          exact walkL_same hvw _ _ _
    · rw [g1, g2]
      have : ((buildTrie rules).get (33 :: l)).isSome = ((buildTrie rules').get (33 :: l)).isSome := by
        have hp : PrefixAt rules [star] := by
          have := (buildTrie_has rules [star]).1 (by rw [has_cons, g1]; simp [has_nil])
          simpa using this
        rcases sameBelow_get (h3 hp) with ⟨g3, g4⟩ | ⟨v, w, g3, g4, -⟩ <;> rw [g3, g4] <;> rfl
      simp only [this]

/-- C53: the result for a host with last label `l`, decoded `last`, depends only on the rules whose top-level label is
`last` or `*`, and, if there are rules with top-level label `*`, those with `!l`. -/
theorem C53_local (idna : Idna) {rules rules' : List Bytes} (e : URLParams)
    {sch ui host after port path n first tail l last : Bytes} {rest : List (Nat × Bytes)}
    (hA : Authority e.url sch ui (host ++ after)) (hp : IsPlainHost host) (haf : AfterHost after port path)
    (hn : HostTextOf idna e.convertURLToPunyCode host n) (hl : HostLabels n first rest tail)
    (hll : (first :: rest.map Prod.snd).getLast? = some l) (hd : Decodes l last)
    (h1 : SameBelow rules rules' last) (h2 : SameBelow rules rules' star)
    (h3 : PrefixAt rules [star] → SameBelow rules rules' (33 :: l)) :
    extract idna (buildTrie rules) e = extract idna (buildTrie rules') e := by
  rw [extract_plain idna _ e hA hp haf, extract_plain idna _ e hA hp haf, hostText_iff.2 hn]
  have e1 : ∃ ls, fromRight first rest = l :: ls := by
    unfold fromRight
    obtain ⟨ys, hys⟩ := List.getLast?_eq_some_iff.1 hll
    exact ⟨ys.reverse, by rw [hys]; simp⟩
  obtain ⟨ls, e1⟩ := e1
  obtain ⟨ts, t1, t2, t3⟩ := hl.split
  have key : ∀ u, hostF (buildTrie rules) e.ignoreSubDomains n u = hostF (buildTrie rules') e.ignoreSubDomains n u := by
    intro u
    unfold hostF
    simp only [t1, t2, t3, e1]
    rw [walkL_local (by rw [unescapeOrEmpty_of hd]; exact h1) h2 h3]
  simp only [key]

/-- The rules with top-level label `x`; for the proofs only. -/
def under (rules : List Bytes) (x : Bytes) : List Bytes := rules.filter fun r => (splitByte 46 r).getLast? = some x

theorem ruleAt_under {rules : List Bytes} {x : Bytes} {p : List Bytes} :
    RuleAt (under rules x) p ↔ RuleAt rules p ∧ p.head? = some x := by
  unfold RuleAt under
  constructor
  · rintro ⟨r, hr, hl⟩
    obtain ⟨h1, h2⟩ := List.mem_filter.1 hr
    refine ⟨⟨r, h1, hl⟩, ?_⟩
    rw [← isLabels_iff.1 hl] at h2
    simpa using h2
  · rintro ⟨⟨r, hr, hl⟩, hh⟩
    refine ⟨r, List.mem_filter.2 ⟨hr, ?_⟩, hl⟩
    rw [← isLabels_iff.1 hl]
    simpa using hh

theorem prefixAt_under {rules : List Bytes} {x y : Bytes} {p : List Bytes} :
    PrefixAt (under rules x) (y :: p) ↔ PrefixAt rules (y :: p) ∧ y = x := by
  unfold PrefixAt
  constructor
  · rintro ⟨q, ⟨t, rfl⟩, hr⟩
    obtain ⟨h1, h2⟩ := ruleAt_under.1 hr
    exact ⟨⟨_, ⟨t, rfl⟩, h1⟩, by simpa using h2⟩
  · rintro ⟨⟨q, ⟨t, rfl⟩, hr⟩, rfl⟩
    exact ⟨_, ⟨t, rfl⟩, ruleAt_under.2 ⟨hr, by simp⟩⟩

theorem topRules_under {rules : List Bytes} {x : Bytes} (h : TopRuleFor rules x) : TopRules (under rules x) := by
  intro l hl
  obtain ⟨h1, rfl⟩ := prefixAt_under.1 hl
  rcases h h1 with h2 | h2
  · exact .inl (ruleAt_under.2 ⟨h2, rfl⟩)
  · exact .inr (prefixAt_under.2 ⟨h2, rfl⟩)

/-- C53: if no rule has the top-level label `*`, all other rules can be left out. -/
theorem C53_under (idna : Idna) (rules : List Bytes) (e : URLParams) (hstar : ¬ PrefixAt rules [star]) {r : ExtractResult}
    (h : extract idna (buildTrie rules) e = .ok (r, none)) (ht : r.hostType = .hostName) :
    ∃ host after n first rest tail, Authority e.url r.scheme r.userInfo (host ++ after) ∧ IsPlainHost host ∧
      AfterHost after r.port r.path ∧ HostTextOf idna e.convertURLToPunyCode host n ∧ HostLabels n first rest tail ∧
      ∀ l last, (first :: rest.map Prod.snd).getLast? = some l → Decodes l last →
        ∀ rules', (∀ p, RuleAt rules' p ↔ RuleAt rules p ∧ p.head? = some last) →
          extract idna (buildTrie rules') e = .ok (r, none) := by
  obtain ⟨host, after, n, first, rest, tail, o, hA, hp, haf, hn, hl, -, -⟩ := name_labels_result idna _ e h ht
  refine ⟨host, after, n, first, rest, tail, hA, hp, haf, hn, hl, fun l last hll hd rules' hr' => ?_⟩
  rw [← h]
  refine (C53_local idna e hA hp haf hn hl hll hd ?_ ?_ (fun h => absurd h hstar)).symm
  · intro p
    rw [hr']; simp
  · intro p
    constructor
    · intro hr; exact absurd ⟨_, ⟨p, rfl⟩, hr⟩ hstar
    · intro hr; exact absurd ⟨_, ⟨p, rfl⟩, ((hr' _).1 hr).1⟩ hstar

/-- C53: the conclusions of C03, C21 and C22 need the condition on the list only for the last label of the host itself. -/
theorem C53_conditions (idna : Idna) (rules : List Bytes) (e : URLParams) (hstar : ¬ PrefixAt rules [star])
    (hpu : e.convertURLToPunyCode = false) (hig : e.ignoreSubDomains = false) {r : ExtractResult}
    (h : extract idna (buildTrie rules) e = .ok (r, none)) (ht : r.hostType = .hostName) :
    ∃ host after n first rest tail, Authority e.url r.scheme r.userInfo (host ++ after) ∧ IsPlainHost host ∧
      AfterHost after r.port r.path ∧ HostTextOf idna false host n ∧ HostLabels n first rest tail ∧
      ∀ l last, (first :: rest.map Prod.snd).getLast? = some l → Decodes l last → TopRuleFor rules last →
        (∃ host after tail, Authority e.url r.scheme r.userInfo (host ++ after) ∧ IsPlainHost host ∧
          AfterHost after r.port r.path ∧ Assembled host r.subDomain r.domain r.suffix tail ∧ MadeOf separators tail) ∧
        (∀ c ∈ invalidChars, c ∉ missedChars → ¬ encode c <:+: r.subDomain ∧ ¬ encode c <:+: r.domain) ∧
        ∃ text, ((text = r.domain ∧ r.subDomain = []) ∨ ∃ s ∈ separators, text = r.subDomain ++ encode s ++ r.domain) ∧
          (∀ a ∈ separators, a ≠ 0xFF61 → ¬ encode a <+: text) ∧
          (∀ a ∈ separators, ∀ b ∈ separators, a ≠ 0xFF61 → b ≠ 0xFF61 → ¬ encode a ++ encode b <:+: text) := by
  obtain ⟨host, after, n, first, rest, tail, hA, hp, haf, hn, hl, hu⟩ := C53_under idna rules e hstar h ht
  rw [hpu] at hn
  refine ⟨host, after, n, first, rest, tail, hA, hp, haf, hn, hl, fun l last hll hd htop => ?_⟩
  have h' := hu l last hll hd (under rules last) fun p => ruleAt_under
  have hc := (topComplete_build _).2 (topRules_under htop)
  refine ⟨?_, C21_no_invalid_chars_partial idna _ e h' ht (.inr hc), C22_no_empty_labels_partial idna _ e hig h' ht (.inr hc)⟩
  obtain ⟨host, after, tail, g1, g2, g3, g4, -, g6⟩ := C03_reassembly_partial idna _ e hpu hig h' ht
  exact ⟨host, after, tail, g1, g2, g3, g4, g6 (.inr hc)⟩

-- `za` does no harm to other names, and the condition fails for `za` only
example : ¬ TopRules [b! "co.za", b! "com"] ∧ ¬ PrefixAt [b! "co.za", b! "com"] [star] ∧ RuleAt [b! "co.za", b! "com"] [b! "com"] ∧
    PrefixAt [b! "co.za", b! "com"] [b! "za"] ∧ ¬ RuleAt [b! "co.za", b! "com"] [b! "za"] ∧
    ¬ PrefixAt [b! "co.za", b! "com"] [b! "za", star] ∧
    extract idId (buildTrie [b! "co.za", b! "com"]) { url := b! "x.a.com." } =
      .ok ({ subDomain := b! "x", domain := b! "a", suffix := b! "com", registeredDomain := b! "a.com",
             hostType := .hostName }, none) ∧
    under [b! "co.za", b! "com"] (b! "com") = [b! "com"] := by
  exact ⟨by decide +kernel, by decide +kernel, by decide +kernel, by decide +kernel, by decide +kernel, by decide +kernel,
    by decide +kernel, by decide +kernel⟩

end Fasttld.Props
