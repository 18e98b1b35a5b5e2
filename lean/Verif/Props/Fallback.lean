import Verif.Proofs.FallbackList
import Verif.Props.Complete
import Verif.Props.Local

/-!
# C54: the built-in list

The properties of the list in fallback.go that the other claims depend on, checked line by line by the kernel
(Proofs/Inventory.lean, Proofs/FallbackChecked*.lean), and what they mean for Extract.
-/

set_option linter.unusedSimpArgs false

namespace Fasttld.Props
open Fasttld Fasttld.Spec Trie _root_.Fasttld.Inv

/-- The lines of the built-in list that are used, without white space around them. -/
def BuiltIn (priv : Bool) (lines : List Bytes) : Prop :=
  ∃ ts before after, StrippedLines hardcodedPSL ts ∧ Sections ts before after ∧ lines = if priv then ts else before

theorem builtIn_iff {priv : Bool} {lines : List Bytes} :
    BuiltIn priv lines ↔ lines = if priv then allLines else publicLines := by
  obtain ⟨after, hs⟩ := sections
  constructor
  · rintro ⟨ts, b, a, h1, h2, rfl⟩
    have h1 := strippedLines_iff.1 h1
    rw [← strippedLines_iff.1 strippedLines] at h1
    subst h1
    obtain ⟨rfl, -⟩ := sections_unique h2 hs
    rfl
  · rintro rfl
    exact ⟨_, _, _, strippedLines, hs, rfl⟩

theorem builtIn_rules (toASCII : Bytes → Option Bytes) {priv : Bool} {lines : List Bytes} (h : BuiltIn priv lines) :
    rulesOf toASCII lines = (rulesIn (builtInParts priv)).flatMap (contributes toASCII) := by
  rw [builtIn_iff.1 h, rules_builtIn]; rfl

theorem builtIn_trie (idna : Idna) {priv : Bool} {lines : List Bytes} (h : BuiltIn priv lines) :
    trieOfText idna priv hardcodedPSL = buildTrie (rulesOf idna.toASCII lines) := by
  obtain ⟨ts, b, a, h1, h2, rfl⟩ := h
  rw [trieOfText, parsePSL_eq idna h1 h2]
  cases priv with
  | false => rfl
  | true => simp only [if_true, h2.1, rulesOf_append]

/-- The condition on the conversion to ASCII, for the rules used. -/
theorem byLabel_used {toASCII : Bytes → Option Bytes} {f : Bytes → Bytes} {priv : Bool} {lines : List Bytes} (hb : BuiltIn priv lines)
    (h : ByLabel toASCII f (lines.filter (fun t => decide (IsRuleLine t)))) : ByLabel toASCII f (rulesIn (builtInParts priv)) := by
  rw [rules_builtIn, ← builtIn_iff.1 hb]; exact h

/-- C54: the built-in list has the four delimiters that a downloaded list must have. -/
theorem C54_delimiters : validPSLDelimiters hardcodedPSL = true := delimiters

/-- C54: the list has 6864 rules, and 9715 with the private section. -/
theorem C54_count {priv : Bool} {lines : List Bytes} (h : BuiltIn priv lines) :
    (lines.filter (fun t => decide (IsRuleLine t))).length = if priv then 9715 else 6864 := by
  rw [builtIn_iff.1 h, ← rules_builtIn]
  cases priv with
  | false => exact counts.1
  | true => exact counts.2

/-- C54: lists with and without the private section exist, and are unique. -/
theorem C54_lines (priv : Bool) : ∃ lines, BuiltIn priv lines ∧ ∀ lines', BuiltIn priv lines' → lines' = lines :=
  ⟨_, builtIn_iff.2 rfl, fun _ h => builtIn_iff.1 h⟩

variable {idna : Idna} {f : Bytes → Bytes} {priv : Bool} {lines : List Bytes}

theorem isLabels_reverse {g : Bytes} {ls : List Bytes} : IsLabels g ls ↔ ls.reverse = revLabels g := by
  have := isLabels_rev (r := g) (p := ls.reverse)
  rwa [List.reverse_reverse] at this

/-- C54: the built-in list is `Regular` for every name that avoids the listed ones. -/
theorem C54_regular (hb : BuiltIn priv lines) (hf : ByLabel idna.toASCII f (lines.filter (fun t => decide (IsRuleLine t))))
    {name : List Bytes} (hp : ∀ l ∈ name, l.head? ≠ some 33) (hg : Avoids f (gaps priv) name)
    (hs : Avoids f (shadows priv) name) : Regular (rulesOf idna.toASCII lines) name := by
  rw [builtIn_rules _ hb]
  refine regular (facts_builtIn priv) (byLabel_used hb hf) hp ?_ ?_
  · intro i g hg'
    have := hg g hg' (revLabels g).reverse (isLabels_reverse.2 (by simp))
    rw [List.reverse_reverse, ← List.map_reverse, List.reverse_reverse] at this
    exact ⟨fun e => this.1 (by rw [← e]; exact List.take_prefix _ _), fun e => this.2 (by rw [← e]; exact List.take_prefix _ _)⟩
  · intro i g hg'
    have := hs g hg' (revLabels g).reverse (isLabels_reverse.2 (by simp))
    rw [List.reverse_reverse] at this
    exact fun e => this.1 (by rw [← e]; exact List.take_prefix _ _)

/-- C54: with the built-in list, Suffix is the public suffix, for every host without escapes whose name avoids the listed
ones and has no label that begins with `!`. -/
theorem C54_public_suffix (hb : BuiltIn priv lines) (hf : ByLabel idna.toASCII f (lines.filter (fun t => decide (IsRuleLine t))))
    (e : URLParams) (hig : e.ignoreSubDomains = false) {r : ExtractResult}
    (h : extract idna (trieOfText idna priv hardcodedPSL) e = .ok (r, none)) (ht : r.hostType = .hostName) :
    ∃ host after n first rest tail, Authority e.url r.scheme r.userInfo (host ++ after) ∧ IsPlainHost host ∧
      AfterHost after r.port r.path ∧ HostTextOf idna e.convertURLToPunyCode host n ∧ HostLabels n first rest tail ∧
      (DecodesAll (fromRight first rest) (fromRight first rest) →
        (∀ l ∈ fromRight first rest, l.head? ≠ some 33) → Avoids f (gaps priv) (fromRight first rest) →
        Avoids f (shadows priv) (fromRight first rest) →
        (∀ n, PublicSuffix (rulesOf idna.toASCII lines) (fromRight first rest) n →
          CutLabels first rest n r.subDomain r.domain r.suffix) ∧
        (NoRuleMatches (rulesOf idna.toASCII lines) (fromRight first rest) →
          CutLabels first rest 0 r.subDomain r.domain r.suffix)) := by
  rw [builtIn_trie idna hb] at h
  obtain ⟨host, after, n, first, rest, tail, h1, h2, h3, h4, h5, -, h6⟩ := C17_public_suffix_partial idna _ e hig h ht
  refine ⟨host, after, n, first, rest, tail, h1, h2, h3, h4, h5, fun hd hp hg hs => ?_⟩
  exact h6 _ hd (C54_regular hb hf hp hg hs) (.inl rfl)

/-- The gaps with one label. -/
theorem gaps_top (priv : Bool) : ∀ g ∈ gaps priv, 46 ∉ g → g = b! "za" := by
  have h1 : (gapsPublic.map unpack).all (fun g => g.contains 46 || g == b! "za") = true := by decide +kernel
  have h2 : (gapsAll.map unpack).all (fun g => g.contains 46 || g == b! "za") = true := by decide +kernel
  intro g hg hd
  have : (g.contains 46 || g == b! "za") = true := by
    cases priv with
    | false => exact List.all_eq_true.1 h1 g hg
    | true => exact List.all_eq_true.1 h2 g hg
  simpa [hd] using this

/-- C54: every top-level label of the built-in list other than `za` is itself a rule, or the parent of a wildcard. -/
theorem C54_top (hb : BuiltIn priv lines) (hf : ByLabel idna.toASCII f (lines.filter (fun t => decide (IsRuleLine t))))
    {x : Bytes} (hx : x ≠ b! "za") : TopRuleFor (rulesOf idna.toASCII lines) x := by
  intro h
  have hf := byLabel_used hb hf
  rw [builtIn_rules _ hb] at h ⊢
  rcases gap_rules (facts_builtIn priv) hf (by simp) h with h | h | ⟨g, hg, h⟩
  · exact .inl h
  · exact .inr h
  · have one : ∃ l, revLabels g = [l] := by
      rcases h with h | h
      · exact ⟨x, h.symm⟩
      · obtain ⟨l, h, -⟩ := List.map_eq_singleton_iff.1 h.symm
        exact ⟨l, h⟩
    obtain ⟨l, e⟩ := one
    have hgl : g = l := by
      have := join_revLabels g
      rw [e] at this
      simpa [intercalate_singleton] using this.symm
    have hza := gaps_top priv g hg (by
      rw [hgl]; exact revLabels_free g l (by rw [e]; simp))
    subst hgl
    rw [e, hza] at h
    rcases h with h | h
    · exact absurd (by simpa using h) hx
    · rw [List.map_singleton, hf.ascii (b! "za") (by decide)] at h
      exact absurd (by simpa using h) hx

/-- C54: no rule of the built-in list has the top-level label `*`. -/
theorem C54_no_top_star (hb : BuiltIn priv lines) (hf : ByLabel idna.toASCII f (lines.filter (fun t => decide (IsRuleLine t)))) :
    ¬ PrefixAt (rulesOf idna.toASCII lines) [star] := by
  rw [builtIn_rules _ hb]
  exact no_top (facts_builtIn priv) (byLabel_used hb hf)

/-- C54: with the built-in list the parts can be put together to the host and hold no invalid characters, unless the
last label of the host is `za` (C53_conditions). -/
theorem C54_conditions (hb : BuiltIn priv lines) (hf : ByLabel idna.toASCII f (lines.filter (fun t => decide (IsRuleLine t))))
    (e : URLParams) (hpu : e.convertURLToPunyCode = false) (hig : e.ignoreSubDomains = false) {r : ExtractResult}
    (h : extract idna (trieOfText idna priv hardcodedPSL) e = .ok (r, none)) (ht : r.hostType = .hostName) :
    ∃ host after n first rest tail, Authority e.url r.scheme r.userInfo (host ++ after) ∧ IsPlainHost host ∧
      AfterHost after r.port r.path ∧ HostTextOf idna false host n ∧ HostLabels n first rest tail ∧
      ∀ l last, (first :: rest.map Prod.snd).getLast? = some l → Decodes l last → last ≠ b! "za" →
        (∃ host after tail, Authority e.url r.scheme r.userInfo (host ++ after) ∧ IsPlainHost host ∧
          AfterHost after r.port r.path ∧ Assembled host r.subDomain r.domain r.suffix tail ∧ MadeOf separators tail) ∧
        (∀ c ∈ invalidChars, c ∉ missedChars → ¬ encode c <:+: r.subDomain ∧ ¬ encode c <:+: r.domain) ∧
        ∃ text, ((text = r.domain ∧ r.subDomain = []) ∨ ∃ s ∈ separators, text = r.subDomain ++ encode s ++ r.domain) ∧
          (∀ a ∈ separators, a ≠ 0xFF61 → ¬ encode a <+: text) ∧
          (∀ a ∈ separators, ∀ b ∈ separators, a ≠ 0xFF61 → b ≠ 0xFF61 → ¬ encode a ++ encode b <:+: text) := by
  rw [builtIn_trie idna hb] at h
  obtain ⟨host, after, n, first, rest, tail, h1, h2, h3, h4, h5, h6⟩ :=
    C53_conditions idna _ e (C54_no_top_star hb hf) hpu hig h ht
  exact ⟨host, after, n, first, rest, tail, h1, h2, h3, h4, h5, fun l last hl hd hx => h6 l last hl hd (C54_top hb hf hx)⟩

theorem za_not_rule (hb : BuiltIn priv lines) (hf : ByLabel idna.toASCII f (lines.filter (fun t => decide (IsRuleLine t)))) :
    ¬ RuleAt (rulesOf idna.toASCII lines) [b! "za"] ∧ ¬ PrefixAt (rulesOf idna.toASCII lines) [b! "za", star] ∧
    RuleAt (rulesOf idna.toASCII lines) [b! "za", b! "co"] ∧ ∀ x, ¬ PrefixAt (rulesOf idna.toASCII lines) [b! "za", b! "co", x] := by
  have hf := byLabel_used hb hf
  rw [builtIn_rules _ hb]
  refine ⟨?_, ?_, ?_, ?_⟩
  · exact not_rule hf (p := [b! "za"]) (by decide) (absent_rule priv (s := b! "za") (by decide) (by decide +kernel))
  · exact not_star (facts_builtIn priv) hf (p := [b! "za"]) (absent_rule priv (s := b! "*.za") (by decide) (by decide +kernel))
  · exact rule_here hf (s := b! "co.za") (public_rule priv (by decide +kernel) (by decide) (by decide) hasCoZa (by simp [fallbackPublicParts]))
  · exact not_open hf (p := [b! "za", b! "co"]) (by simp) (by decide)
      (closed_rule priv (s := b! "co.za") (by decide) (by decide +kernel) (by decide +kernel))

/-- C54: `za` is an exception to `C54_top`: it is not a rule of the built-in list, `co.za` is. -/
theorem C54_za_gap (hb : BuiltIn priv lines) (hf : ByLabel idna.toASCII f (lines.filter (fun t => decide (IsRuleLine t)))) :
    ¬ TopRuleFor (rulesOf idna.toASCII lines) (b! "za") := by
  obtain ⟨h1, h2, h3, -⟩ := za_not_rule hb hf
  intro h
  rcases h ⟨_, ⟨[b! "co"], rfl⟩, h3⟩ with h | h
  · exact h1 h
  · exact h2 h

/-- C54: with the built-in list, the last label of `www.example.co.za` is in no part of the result. -/
theorem C54_za (hb : BuiltIn priv lines) (hf : ByLabel idna.toASCII f (lines.filter (fun t => decide (IsRuleLine t))))
    (hu : idna.toUnicodeErr (b! "www.example.co.za") = none) :
    extract idna (trieOfText idna priv hardcodedPSL) { url := b! "www.example.co.za" } =
      .ok ({ subDomain := b! "www", domain := b! "example", suffix := b! "co", registeredDomain := b! "example.co",
             hostType := .hostName }, none) := by
  obtain ⟨h1, h2, h3, h4⟩ := za_not_rule hb hf
  have h5 := C54_no_top_star hb hf
  rw [builtIn_trie idna hb, C52_extract]
  have dec : ∀ s, s ∈ [b! "www.example.co.za", b! "za", b! "co", b! "example", b! "www"] → Decodes s s := by
    intro s hs
    rw [← queryUnescape_iff]
    revert s
    decide +kernel
  refine ⟨[], [], b! "www.example.co.za", .name (b! "www.example.co.za") [], authority_iff.2 (by decide +kernel),
    ?_, ?_⟩
  · exact .name (host := b! "www.example.co.za") (after := []) (by unfold IsPlainHost; decide) (by simp)
  · refine .host (n := b! "www.example.co.za") (r := { subDomain := b! "www", domain := b! "example", suffix := b! "co", registeredDomain := b! "example.co", hostType := .hostName }) ⟨.inl rfl, .inl ⟨rfl, rfl⟩⟩ ⟨_, dec _ (by simp), .inl ⟨rfl, hu, rfl⟩⟩ ?_
    refine ⟨b! "www", [(46, b! "example"), (46, b! "co"), (46, b! "za")], [], [b! "za", b! "co", b! "example", b! "www"],
      some ⟨2, 1, 2, some 1⟩, ?_, ?_, ?_, ?_⟩
    · refine ⟨by decide +kernel, ?_, madeOf_nil _, ?_⟩
      · unfold FreeOf; decide +kernel
      · intro f s h
        have := congrArg List.getLast? h
        simp at this
    · exact ⟨.inl (dec _ (by simp)), .inl (dec _ (by simp)), .inl (dec _ (by simp)), .inl (dec _ (by simp)), trivial⟩
    · refine .ends ⟨by decide, .inr ⟨_, List.prefix_rfl, h3⟩, ?_, ?_⟩ (.all (.inr ?_)) (.at (by decide) (.inl h3) ?_)
      · intro j hj
        match j, hj with
        | 0, _ => rintro (h | h); · simp at h
                  exact h5 h
        | 1, _ => rintro (h | h); · simp at h
                  exact h2 h
      · intro j hj _
        match j, hj with
        | 0, _ => decide
        | 1, _ => decide
      · rintro (h | ⟨x, h | h⟩)
        · simp at h
        · simp at h
        · exact h4 x h
      · intro j hj
        obtain rfl : j = 0 := by omega
        rintro (h | ⟨l, e, h⟩)
        · exact h1 h
        · obtain rfl : b! "za" = l := by simpa using e
          exact h2 h
    · refine .name (t := b! "www.example") ?_ ?_ ?_ ?_ (by decide)
      · obtain ⟨b, hb, hi⟩ := isIPv4_eq (b! "www.example.co.za")
        rw [← hi]
        have : isIPv4 (b! "www.example.co.za") = .ok false := by decide +kernel
        rw [this] at hb
        cases hb
        simp
      · exact .suffix rfl (by decide)
      · rw [← hasInvalidChars_false_iff]; decide +kernel
      · exact .suffix (front := [(46, b! "example")]) (s := 46) (l := b! "co") (more := []) (back := [(46, b! "za")]) rfl rfl rfl
          (.inr ⟨[], 46, b! "example", rfl, rfl, rfl⟩)

theorem no_rules (hb : BuiltIn priv lines) (hf : ByLabel idna.toASCII f (lines.filter (fun t => decide (IsRuleLine t)))) :
    RuleAt (rulesOf idna.toASCII lines) [b! "no"] ∧ ¬ PrefixAt (rulesOf idna.toASCII lines) [b! "no", star] ∧
    ¬ RuleAt (rulesOf idna.toASCII lines) [b! "no", b! "hordaland"] ∧
    ¬ PrefixAt (rulesOf idna.toASCII lines) [b! "no", b! "hordaland", star] ∧
    ¬ PrefixAt (rulesOf idna.toASCII lines) [b! "no", b! "hordaland", b! "example"] ∧
    RuleAt (rulesOf idna.toASCII lines) [b! "no", b! "hordaland", b! "os"] := by
  have hf := byLabel_used hb hf
  rw [builtIn_rules _ hb]
  refine ⟨?_, ?_, ?_, ?_, ?_, ?_⟩
  · exact rule_here hf (s := b! "no") (public_rule priv (by decide +kernel) (by decide) (by decide) hasNo (by simp [fallbackPublicParts]))
  · exact not_star (facts_builtIn priv) hf (p := [b! "no"]) (absent_rule priv (s := b! "*.no") (by decide) (by decide +kernel))
  · exact not_rule hf (p := [b! "no", b! "hordaland"]) (by decide)
      (absent_rule priv (s := b! "hordaland.no") (by decide) (by decide +kernel))
  · exact not_star (facts_builtIn priv) hf (p := [b! "no", b! "hordaland"])
      (absent_rule priv (s := b! "*.hordaland.no") (by decide) (by decide +kernel))
  · exact not_prefix hf (p := [b! "no", b! "hordaland", b! "example"]) (by simp) (by decide)
      (absent_rule priv (s := b! "example.hordaland.no") (by decide) (by decide +kernel))
      (closed_rule priv (s := b! "example.hordaland.no") (by decide) (by decide +kernel) (by decide +kernel))
  · exact rule_here hf (s := b! "os.hordaland.no")
      (public_rule priv (by decide +kernel) (by decide) (by decide) hasOsHordaland (by simp [fallbackPublicParts]))

/-- C54: with the built-in list the public suffix of `example.hordaland.no` is `no`, and Extract says `hordaland.no`. -/
theorem C54_no (hb : BuiltIn priv lines) (hf : ByLabel idna.toASCII f (lines.filter (fun t => decide (IsRuleLine t))))
    (hu : idna.toUnicodeErr (b! "example.hordaland.no") = none) :
    PublicSuffix (rulesOf idna.toASCII lines) [b! "no", b! "hordaland", b! "example"] 1 ∧
    extract idna (trieOfText idna priv hardcodedPSL) { url := b! "example.hordaland.no" } =
      .ok ({ domain := b! "example", suffix := b! "hordaland.no", registeredDomain := b! "example.hordaland.no",
             hostType := .hostName }, none) := by
  obtain ⟨h1, h2, h3, h4, h6, h7⟩ := no_rules hb hf
  have h5 := C54_no_top_star hb hf
  have sub : ∀ {p q : List Bytes}, PrefixAt (rulesOf idna.toASCII lines) (p ++ q) → PrefixAt (rulesOf idna.toASCII lines) p :=
    fun ⟨q, e, h⟩ => ⟨q, (List.prefix_append _ _).trans e, h⟩
  constructor
  · refine .inr ⟨fun q hq hm => ?_, [b! "no"], ?_, ⟨.inr rfl, trivial⟩, rfl, fun q hq hm => ?_⟩
    · obtain ⟨q, l, rfl, -, hs⟩ : ∃ q' l, q = q' ++ [l] ∧ l ≠ star ∧ PrefixAt (rulesOf idna.toASCII lines) (q' ++ [star]) := by
        rw [builtIn_rules _ hb] at hq ⊢
        exact exc_rules (facts_builtIn priv) (byLabel_used hb hf) hq
      match q, hm, hs with
      | [], _, hs => exact h5 hs
      | [a], ⟨ha, _⟩, hs =>
        rcases ha with rfl | rfl
        · exact h5 (sub (p := [star]) hs)
        · exact h2 hs
      | [a, b], ⟨ha, hb, _⟩, hs =>
        rcases ha with rfl | rfl
        · exact h5 (sub (p := [star]) hs)
        · rcases hb with rfl | rfl
          · exact h2 (sub (p := [b! "no", star]) hs)
          · exact h4 hs
      | a :: b :: c :: d, hm, _ => cases d <;> exact hm.2.2.2.elim
    · obtain ⟨r, hr, hl⟩ := h1
      refine ⟨r, hr, ?_, hl⟩
      rw [show r = b! "no" from hl.2.2]
      decide
    · have hr : RuleAt (rulesOf idna.toASCII lines) q := by
        obtain ⟨r, h, -, h'⟩ := hq
        exact ⟨r, h, h'⟩
      have hpre : PrefixAt (rulesOf idna.toASCII lines) q := ⟨q, List.prefix_rfl, hr⟩
      match q, hm, hr, hpre with
      | [], _, _, _ => simp
      | [a], _, _, _ => simp
      | a :: b :: q, ⟨ha, hb, hm⟩, hr, hpre =>
        exfalso
        rcases ha with rfl | rfl
        · exact h5 (sub (p := [star]) (q := b :: q) hpre)
        · rcases hb with rfl | rfl
          · exact h2 (sub (p := [b! "no", star]) (q := q) hpre)
          · match q, hm, hr, hpre with
            | [], _, hr, _ => exact h3 hr
            | c :: q, ⟨hc, _⟩, _, hpre =>
              rcases hc with rfl | rfl
              · exact h4 (sub (p := [b! "no", b! "hordaland", star]) (q := q) hpre)
              · exact h6 (sub (p := [b! "no", b! "hordaland", b! "example"]) (q := q) hpre)
  rw [builtIn_trie idna hb, C52_extract]
  have dec : ∀ s, s ∈ [b! "example.hordaland.no", b! "no", b! "hordaland", b! "example"] → Decodes s s := by
    intro s hs
    rw [← queryUnescape_iff]
    revert s
    decide +kernel
  refine ⟨[], [], b! "example.hordaland.no", .name (b! "example.hordaland.no") [], authority_iff.2 (by decide +kernel),
    ?_, ?_⟩
  · exact .name (host := b! "example.hordaland.no") (after := []) (by unfold IsPlainHost; decide) (by simp)
  · refine .host (n := b! "example.hordaland.no") (r := { domain := b! "example", suffix := b! "hordaland.no", registeredDomain := b! "example.hordaland.no", hostType := .hostName }) ⟨.inl rfl, .inl ⟨rfl, rfl⟩⟩ ⟨_, dec _ (by simp), .inl ⟨rfl, hu, rfl⟩⟩ ?_
    refine ⟨b! "example", [(46, b! "hordaland"), (46, b! "no")], [], [b! "no", b! "hordaland", b! "example"],
      some ⟨2, 2, 2, some 0⟩, ?_, ?_, ?_, ?_⟩
    · refine ⟨by decide +kernel, ?_, madeOf_nil _, ?_⟩
      · unfold FreeOf; decide +kernel
      · intro f s h
        have := congrArg List.getLast? h
        simp at this
    · exact ⟨.inl (dec _ (by simp)), .inl (dec _ (by simp)), .inl (dec _ (by simp)), trivial⟩
    · have k2 : PrefixAt (rulesOf idna.toASCII lines) [b! "no", b! "hordaland"] := ⟨_, ⟨[b! "os"], rfl⟩, h7⟩
      refine .ends ⟨by decide, .inr k2, ?_, ?_⟩
        (.unknown (l := b! "example") (.inr ⟨b! "os", .inr ⟨_, List.prefix_rfl, h7⟩⟩) rfl (by decide) ?_ ?_) (.at (by decide) (.inl h1) ?_)
      · intro j hj
        match j, hj with
        | 0, _ => rintro (h | h); · simp at h
                  exact h5 h
        | 1, _ => rintro (h | h); · simp at h
                  exact h2 h
      · intro j hj _
        match j, hj with
        | 0, _ => decide
        | 1, _ => decide
      · rintro (h | h)
        · simp at h
        · exact h4 h
      · rintro (h | h)
        · simp at h
        · exact h6 h
      · intro j hj; omega
    · refine .name (t := b! "example") ?_ ?_ ?_ ?_ (by decide)
      · obtain ⟨b, hb, hi⟩ := isIPv4_eq (b! "example.hordaland.no")
        rw [← hi]
        have : isIPv4 (b! "example.hordaland.no") = .ok false := by decide +kernel
        rw [this] at hb
        cases hb
        simp
      · exact .suffix rfl (by decide)
      · rw [← hasInvalidChars_false_iff]; decide +kernel
      · exact .suffix (front := []) (s := 46) (l := b! "hordaland") (more := [(46, b! "no")]) (back := []) rfl rfl rfl
          (.inl ⟨rfl, rfl, rfl⟩)

/-! ## Examples -/

/-- Conversion label by label; labels that are not in ASCII all become `xn--`. -/
def byLabel (l : Bytes) : Bytes := if l.all (· < 128) then l else b! "xn--"

/-- A library for internationalized names with that conversion and without errors. -/
def byLabelIdna : Idna := { idId with toASCII := fun r => some (List.intercalate [46] ((splitByte 46 r).map byLabel)) }

/-- The condition on the conversion can be met. -/
theorem byLabel_holds (rules : List Bytes) : ByLabel byLabelIdna.toASCII byLabel rules := by
  refine ⟨?_, ?_, ?_⟩
  · intro l hl
    unfold byLabel
    rw [if_pos (by simpa using hl)]
  · intro l hl
    unfold byLabel
    rw [if_neg (by simpa using hl)]
    exact ⟨[], rfl, by simp⟩
  · rintro r - ls h1 h2 rfl
    show some _ = _
    rw [splitByte_unique 46 h1 h2]

-- the listed names without the private section
example : gaps false = [b! "akershus.no", b! "buskerud.no", b! "hedmark.no", b! "hordaland.no", b! "more-og-romsdal.no",
    b! "møre-og-romsdal.no", b! "nordland.no", b! "ostfold.no", b! "telemark.no", b! "vestfold.no", b! "østfold.no", b! "za"] ∧
    shadows false = [] := by
  constructor
  · show gapsPublic.map unpack = _
    decide +kernel
  · rfl
-- all conditions of C54_public_suffix hold for this name
example : Avoids byLabel (gaps false) [b! "uk", b! "co", b! "example"] ∧ Avoids byLabel (shadows false) [b! "uk", b! "co", b! "example"] := by
  have key : ∀ g ∈ gapsPublic.map unpack, ¬ revLabels g <+: [b! "uk", b! "co", b! "example"] ∧
      ¬ (revLabels g).map byLabel <+: [b! "uk", b! "co", b! "example"] := by decide +kernel
  refine ⟨fun g hg ls hls => ?_, fun g hg => by simp [shadows, shadowsPublic] at hg⟩
  rw [isLabels_reverse.1 hls, ← List.map_reverse, isLabels_reverse.1 hls]
  exact key g hg
example : extract byLabelIdna (trieOfText byLabelIdna true hardcodedPSL) { url := b! "www.example.co.za" } =
      .ok ({ subDomain := b! "www", domain := b! "example", suffix := b! "co", registeredDomain := b! "example.co",
             hostType := .hostName }, none) :=
  C54_za (builtIn_iff.2 rfl) (byLabel_holds _) rfl

end Fasttld.Props
