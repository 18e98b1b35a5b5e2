import Verif.Props.FallbackExact
import Verif.Props.Path
import Verif.Spec.Punycode

/-!
# C68: the examples in README.md, with the built-in list

README.md:57-224 and examples/demo.go.
-/

set_option linter.unusedSimpArgs false

namespace Fasttld.Props
open Fasttld Fasttld.Spec Trie _root_.Fasttld.Inv

section
variable {rules rules' ls ds : List Bytes}

theorem open_iff {p : List Bytes} : Open rules p ↔ p = [] ∨ ∃ q ∈ rules.map revLabels, p <+: q ∧ p.length < q.length := by
  unfold Open
  refine or_congr Iff.rfl ⟨?_, ?_⟩
  · rintro ⟨x, h | h⟩
    · simp at h
    · obtain ⟨q, hq, h⟩ := prefixAt_iff.1 h
      refine ⟨q, hq, (List.prefix_append _ _).trans h, ?_⟩
      have := h.length_le
      simp at this; omega
  · rintro ⟨q, hq, ⟨t, rfl⟩, h⟩
    cases t with
    | nil => simp at h
    | cons x t => exact ⟨x, .inr (prefixAt_iff.2 ⟨_, hq, ⟨t, by simp⟩⟩)⟩

instance {p : List Bytes} : Decidable (Open rules p) := decidable_of_iff _ open_iff.symm
instance {p : List Bytes} : Decidable (Known rules p) := by unfold Known; infer_instance

theorem open_up {k m : Nat} (hkm : k ≤ m) (h : Open rules (ds.take m)) : Open rules (ds.take k) := by
  by_cases e : k < ds.length
  · by_cases e2 : k = m
    · subst e2; exact h
    · right
      refine ⟨ds[k], ?_⟩
      have hp : Known rules (ds.take m) := by
        rcases h with h | ⟨x, h⟩
        · exact .inl h
        · exact known_up h
      rw [← take_succ e]
      obtain ⟨t, e3⟩ := List.take_prefix (k + 1) (ds.take m)
      rw [List.take_take, Nat.min_eq_left (by omega)] at e3
      rw [← e3] at hp
      exact known_up hp
  · rwa [List.take_of_length_le (by omega), ← List.take_of_length_le (l := ds) (i := m) (by omega)]

/-- It is enough to look at the first `k` labels if there are no longer rules, or a wildcard applies to the last of them. -/
theorem sameAlong_upto (k : Nat) (hk : 0 < k) (h : ∀ m < k, SameAt rules rules' ls ds m)
    (stop : ¬ Open rules (ds.take k) ∨ Known rules (ds.take (k - 1) ++ [star])) : SameAlong rules rules' ls ds := by
  intro m _ hf ho
  by_cases hm : m < k
  · exact h m hm
  · exfalso
    rcases stop with h1 | h1
    · exact h1 (open_up (by omega) ho)
    · exact hf.noStar (k - 1) (by omega) h1

theorem path_extract (idna : Idna) (e : URLParams) {sch ui a host after n first tail : Bytes} {rest : List (Nat × Bytes)}
    (hA : Authority e.url sch ui a) (hp : HostAt a (.name host after)) (hn : HostTextOf idna e.convertURLToPunyCode host n)
    (hs : HostShape n first rest tail) (h : SameAlong rules rules' (fromRight first rest) ((fromRight first rest).map unescapeOrEmpty)) :
    extract idna (buildTrie rules) e = extract idna (buildTrie rules') e := by
  refine C67_path idna e ?_
  intro sch' ui' a' host' after' n' first' rest' tail' ds' hA' hp' hn' hs' hd'
  obtain ⟨rfl, rfl, rfl⟩ := Authority_unique hA hA'
  have e1 := hostAt_iff.1 hp
  rw [hostAt_iff.1 hp'] at e1
  injection e1 with e1 e2
  subst e1
  have e3 := hostText_iff.2 hn
  rw [hostText_iff.2 hn'] at e3
  injection e3 with e3
  subst e3
  obtain ⟨rfl, rfl, rfl⟩ := hs.unique hs'
  rw [labelValues_iff.1 hd']
  exact h

end

theorem closed_public {s : Bytes} (h0 : 0 ∉ s) (h1 : tablePublic.find (fun _ _ => true) (pack s) = false) :
    ∀ r ∈ rulesIn (builtInParts false), ¬ 46 :: s <:+ r := by
  intro r hr h
  have u : ∀ a, unpack a = s → a = pack s := by
    intro a ha
    rw [← unpack_pack s h0] at ha
    exact unpack_inj _ _ ha
  obtain ⟨a, e, ha⟩ := anc partsOK_public r hr _ h
  rw [u a e, h1] at ha
  simp at ha

/-- An example: whether the private section is used, the arguments of Extract, and what it returns. -/
structure Example where
  priv : Bool
  e : URLParams
  r : ExtractResult
  err : Option Err

/-- README.md:57-224, from top to bottom; the names are those of README.md, in UTF-8. -/
def readme : List Example :=
  [⟨false, { url := b! "https://user@a.subdomain.example.a%63.uk:5000/a/b?id=42" },
    { scheme := b! "https://", userInfo := b! "user", subDomain := b! "a.subdomain", domain := b! "example",
      suffix := b! "a%63.uk", registeredDomain := b! "example.a%63.uk", port := b! "5000", path := b! "/a/b?id=42",
      hostType := .hostName }, none⟩,
   ⟨false, { url := b! "https://127.0.0.1:5000" },
    { scheme := b! "https://", domain := b! "127.0.0.1", registeredDomain := b! "127.0.0.1", port := b! "5000",
      hostType := .iPv4 }, none⟩,
   ⟨false, { url := b! "https://[aBcD:ef01:2345:6789:aBcD:ef01:2345:6789]:5000" },
    { scheme := b! "https://", domain := b! "aBcD:ef01:2345:6789:aBcD:ef01:2345:6789",
      registeredDomain := b! "aBcD:ef01:2345:6789:aBcD:ef01:2345:6789", port := b! "5000", hostType := .iPv6 }, none⟩,
   ⟨false, { url := b! "https://brb\u002ei\u3002am\uff0egoing\uff61to\uff0ebe\u3002a\uff61fk" },
    { scheme := b! "https://", subDomain := b! "brb\u002ei\u3002am\uff0egoing\uff61to", domain := b! "be",
      suffix := b! "a\uff61fk", registeredDomain := b! "be\u3002a\uff61fk", hostType := .hostName }, none⟩,
   ⟨false, { url := b! "https://google.blogspot.com" },
    { scheme := b! "https://", subDomain := b! "google", domain := b! "blogspot", suffix := b! "com",
      registeredDomain := b! "blogspot.com", hostType := .hostName }, none⟩,
   ⟨true, { url := b! "https://google.blogspot.com" },
    { scheme := b! "https://", domain := b! "google", suffix := b! "blogspot.com",
      registeredDomain := b! "google.blogspot.com", hostType := .hostName }, none⟩,
   ⟨false, { url := b! "https://maps.google.com", ignoreSubDomains := true },
    { scheme := b! "https://", domain := b! "google", suffix := b! "com", registeredDomain := b! "google.com",
      hostType := .hostName }, none⟩,
   ⟨false, { url := b! "https://hello.世界.com" },
    { scheme := b! "https://", subDomain := b! "hello", domain := b! "世界", suffix := b! "com",
      registeredDomain := b! "世界.com", hostType := .hostName }, none⟩,
   ⟨false, { url := b! "https://hello.世界.com", convertURLToPunyCode := true },
    { scheme := b! "https://", subDomain := b! "hello", domain := b! "xn--rhqv96g", suffix := b! "com",
      registeredDomain := b! "xn--rhqv96g.com", hostType := .hostName }, none⟩,
   ⟨false, { url := b! "https://example!.com" }, { scheme := b! "https://" }, some .invalidCharacters⟩]

/-- The host names in README.md, decoded. -/
def readmeHosts : List Bytes :=
  [b! "a.subdomain.example.ac.uk", b! "127.0.0.1", b! "brb\u002ei\u3002am\uff0egoing\uff61to\uff0ebe\u3002a\uff61fk",
   b! "google.blogspot.com", b! "maps.google.com", b! "hello.世界.com", b! "example!.com"]

theorem row (idna : Idna) {e : URLParams} {rules : List Bytes} (rules' : List Bytes) (sch ui host after port path n first : Bytes)
    (rest : List (Nat × Bytes)) {r : ExtractResult} {err : Option Err}
    (hA : sch = (schemeSplit (trimmed e.url)).1 ∧ (ui, host ++ after) = userSplit (schemeSplit (trimmed e.url)).2)
    (hS : scanSplit (host ++ after) = .name host after) (hP : portPath after = some (port, path))
    (hT : hostText idna e.convertURLToPunyCode host = .ok n)
    (shape : n = joinLabels first rest ∧ FreeOf separators first ∧ (∀ p ∈ rest, p.1 ∈ separators ∧ FreeOf separators p.2) ∧
      ∀ p, rest.getLast? = some p → p.2 ≠ [])
    (same : SameAlong rules rules' (fromRight first rest) ((fromRight first rest).map unescapeOrEmpty))
    (fin : (withFront { scheme := sch, userInfo := ui, port := port, path := path } (hostF (buildTrie rules') e.ignoreSubDomains n {}).1,
      (hostF (buildTrie rules') e.ignoreSubDomains n {}).2) = (r, err)) :
    extract idna (buildTrie rules) e = .ok (r, err) := by
  obtain ⟨g1, g2, g3, g4⟩ := shape
  have hs : HostShape n first rest [] := by
    refine ⟨by simpa using g1, ⟨g2, g3⟩, madeOf_nil _, ?_⟩
    rintro f s rfl
    exact g4 (s, []) (by simp) rfl
  obtain ⟨-, s2, s3⟩ := scanSplit_name_iff.1 hS
  rw [path_extract idna e (authority_iff.2 hA) (hostAt_iff.2 hS) (hostText_iff.1 hT) hs same,
    extract_plain idna _ e (authority_iff.2 hA) s2 ((portPath_iff s3).1 hP), hT]
  exact congrArg _ fin

theorem hostText_plain {idna : Idna} {host un : Bytes} (h : queryUnescape host = .ok un) (h' : idna.toUnicodeErr un = none) :
    hostText idna false host = .ok host := by
  unfold hostText
  rw [h]
  simp [h']

section
variable {idna : Idna} {f : Bytes → Bytes}

theorem known_iff {rules : List Bytes} {p : List Bytes} (h : p ≠ []) : Known rules p ↔ PrefixAt rules p := by
  unfold Known; simp [h]

theorem not_open' {rules : List Bytes} {p : List Bytes} (h : p ≠ []) (h' : ∀ x, ¬ PrefixAt rules (p ++ [x])) : ¬ Open rules p := by
  rintro (e | ⟨x, e | e⟩)
  · exact h e
  · simp at e
  · exact h' x e

theorem rule_prefix {rules : List Bytes} {p : List Bytes} (h : RuleAt rules p) : PrefixAt rules p := ⟨p, List.prefix_rfl, h⟩

/-- Hosts that end in `com`, without the private section. -/
theorem same_com {lines : List Bytes} (hb : BuiltIn false lines) (hf : ByLabel idna.toASCII f (lines.filter (fun t => decide (IsRuleLine t))))
    (ls ds : List Bytes) : SameAlong (rulesOf idna.toASCII lines) [b! "com"] ls (b! "com" :: ds) := by
  have h5 := C54_no_top_star hb hf
  have hf := byLabel_used hb hf
  rw [builtIn_rules _ hb] at h5 ⊢
  have h1 : RuleAt ((rulesIn (builtInParts false)).flatMap (contributes idna.toASCII)) [b! "com"] :=
    rule_here hf (s := b! "com") (public_rule false (by decide +kernel) (by decide) (by decide) hasCom (by simp [fallbackPublicParts]))
  have h2 : ¬ Open ((rulesIn (builtInParts false)).flatMap (contributes idna.toASCII)) [b! "com"] :=
    not_open' (by simp) (not_open hf (p := [b! "com"]) (by simp) (by decide) (closed_public (s := b! "com") (by decide) (by decide +kernel)))
  refine sameAlong_upto 1 (by omega) ?_ (.inl h2)
  intro m hm
  obtain rfl : m = 0 := by omega
  refine ⟨iff_of_false (by rw [known_iff (by simp)]; exact h5) (by simp only [List.take_zero]; decide +kernel), fun h => absurd h (by rw [known_iff (by simp)]; exact h5),
    fun _ => iff_of_true (.inr (rule_prefix h1)) (by simp only [List.take, List.take_zero]; decide +kernel), fun _ _ => iff_of_true (.inl h1) (.inl (by simp only [List.take, List.take_zero]; decide +kernel)),
    fun _ _ => iff_of_false h2 (by simp only [List.take, List.take_zero]; decide +kernel)⟩

/-- Hosts that end in `ac.uk`. -/
theorem same_ac_uk {lines : List Bytes} {priv : Bool} (hb : BuiltIn priv lines) (hf : ByLabel idna.toASCII f (lines.filter (fun t => decide (IsRuleLine t))))
    (ls ds : List Bytes) : SameAlong (rulesOf idna.toASCII lines) [b! "uk", b! "ac.uk"] ls (b! "uk" :: b! "ac" :: ds) := by
  have h5 := C54_no_top_star hb hf
  have hf := byLabel_used hb hf
  rw [builtIn_rules _ hb] at h5 ⊢
  generalize hR : (rulesIn (builtInParts priv)).flatMap (contributes idna.toASCII) = R at h5 ⊢
  have h1 : RuleAt R [b! "uk"] := hR ▸
    rule_here hf (s := b! "uk") (public_rule priv (by decide +kernel) (by decide) (by decide) hasUk (by simp [fallbackPublicParts]))
  have h2 : RuleAt R [b! "uk", b! "ac"] := hR ▸
    rule_here hf (s := b! "ac.uk") (public_rule priv (by decide +kernel) (by decide) (by decide) hasAcUk (by simp [fallbackPublicParts]))
  have h3 : ¬ PrefixAt R [b! "uk", star] := hR ▸
    not_star (facts_builtIn priv) hf (p := [b! "uk"]) (absent_rule priv (s := b! "*.uk") (by decide) (by decide +kernel))
  have h4 : ¬ Open R [b! "uk", b! "ac"] := not_open' (by simp) (hR ▸
    not_open hf (p := [b! "uk", b! "ac"]) (by simp) (by decide) (closed_rule priv (s := b! "ac.uk") (by decide) (by decide +kernel) (by decide +kernel)))
  refine sameAlong_upto 2 (by omega) ?_ (.inl h4)
  intro m hm
  match m, hm with
  | 0, _ =>
    have h0 : ¬ Known R [star] := by rw [known_iff (by simp)]; exact h5
    refine ⟨iff_of_false h0 (by simp only [List.take_zero]; decide +kernel), fun h => absurd h h0,
      fun _ => iff_of_true (.inr (rule_prefix h1)) (by simp only [List.take]; decide +kernel),
      fun _ _ => iff_of_true (.inl h1) (.inl (by simp only [List.take]; decide +kernel)),
      fun _ _ => iff_of_true (.inr ⟨b! "ac", .inr (rule_prefix h2)⟩) (by simp only [List.take]; decide +kernel)⟩
  | 1, _ =>
    have h0 : ¬ Known R [b! "uk", star] := by rw [known_iff (by simp)]; exact h3
    refine ⟨iff_of_false h0 (by simp only [List.take]; decide +kernel), fun h => absurd h h0,
      fun _ => iff_of_true (.inr (rule_prefix h2)) (by simp only [List.take]; decide +kernel),
      fun _ _ => iff_of_true (.inl h2) (.inl (by simp only [List.take]; decide +kernel)),
      fun _ _ => iff_of_false h4 (by simp only [List.take]; decide +kernel)⟩

/-- Hosts that end in `blogspot.com`, with the private section. -/
theorem same_blogspot {lines : List Bytes} (hb : BuiltIn true lines) (hf : ByLabel idna.toASCII f (lines.filter (fun t => decide (IsRuleLine t))))
    (ls ds : List Bytes) : SameAlong (rulesOf idna.toASCII lines) [b! "com", b! "blogspot.com"] ls (b! "com" :: b! "blogspot" :: ds) := by
  have h5 := C54_no_top_star hb hf
  have hf := byLabel_used hb hf
  rw [builtIn_rules _ hb] at h5 ⊢
  generalize hR : (rulesIn (builtInParts true)).flatMap (contributes idna.toASCII) = R at h5 ⊢
  have h1 : RuleAt R [b! "com"] := hR ▸
    rule_here hf (s := b! "com") (public_rule true (by decide +kernel) (by decide) (by decide) hasCom (by simp [fallbackPublicParts]))
  have h2 : RuleAt R [b! "com", b! "blogspot"] := hR ▸
    rule_here hf (s := b! "blogspot.com") (private_rule (by decide +kernel) (by decide) (by decide) hasBlogspot (by simp [fallbackPrivateParts]))
  have h3 : ¬ PrefixAt R [b! "com", star] := hR ▸
    not_star (facts_builtIn true) hf (p := [b! "com"]) (absent_rule true (s := b! "*.com") (by decide) (by decide +kernel))
  have h4 : ¬ Open R [b! "com", b! "blogspot"] := not_open' (by simp) (hR ▸
    not_open hf (p := [b! "com", b! "blogspot"]) (by simp) (by decide) (closed_rule true (s := b! "blogspot.com") (by decide) (by decide +kernel) (by decide +kernel)))
  refine sameAlong_upto 2 (by omega) ?_ (.inl h4)
  intro m hm
  match m, hm with
  | 0, _ =>
    have h0 : ¬ Known R [star] := by rw [known_iff (by simp)]; exact h5
    refine ⟨iff_of_false h0 (by simp only [List.take_zero]; decide +kernel), fun h => absurd h h0,
      fun _ => iff_of_true (.inr (rule_prefix h1)) (by simp only [List.take]; decide +kernel),
      fun _ _ => iff_of_true (.inl h1) (.inl (by simp only [List.take]; decide +kernel)),
      fun _ _ => iff_of_true (.inr ⟨b! "blogspot", .inr (rule_prefix h2)⟩) (by simp only [List.take]; decide +kernel)⟩
  | 1, _ =>
    have h0 : ¬ Known R [b! "com", star] := by rw [known_iff (by simp)]; exact h3
    refine ⟨iff_of_false h0 (by simp only [List.take]; decide +kernel), fun h => absurd h h0,
      fun _ => iff_of_true (.inr (rule_prefix h2)) (by simp only [List.take]; decide +kernel),
      fun _ _ => iff_of_true (.inl h2) (.inl (by simp only [List.take]; decide +kernel)),
      fun _ _ => iff_of_false h4 (by simp only [List.take]; decide +kernel)⟩

/-- Hosts that end in `fk` with `a` before it. -/
theorem same_fk {lines : List Bytes} {priv : Bool} (hb : BuiltIn priv lines) (hf : ByLabel idna.toASCII f (lines.filter (fun t => decide (IsRuleLine t))))
    (ls ds : List Bytes) : SameAlong (rulesOf idna.toASCII lines) [b! "*.fk"] (b! "fk" :: b! "a" :: ls) (b! "fk" :: ds) := by
  have h5 := C54_no_top_star hb hf
  have hf := byLabel_used hb hf
  rw [builtIn_rules _ hb] at h5 ⊢
  generalize hR : (rulesIn (builtInParts priv)).flatMap (contributes idna.toASCII) = R at h5 ⊢
  have h1 : RuleAt R [b! "fk", star] := hR ▸
    rule_here hf (s := b! "*.fk") (public_rule priv (by decide +kernel) (by decide) (by decide) hasStarFk (by simp [fallbackPublicParts]))
  have h2 : ¬ PrefixAt R [b! "fk", b! "!a"] := hR ▸ not_prefix hf (p := [b! "fk", b! "!a"]) (by simp) (by decide)
      (absent_rule priv (s := b! "!a.fk") (by decide) (by decide +kernel))
      (closed_rule priv (s := b! "!a.fk") (by decide) (by decide +kernel) (by decide +kernel))
  have h3 : PrefixAt R [b! "fk"] := ⟨_, ⟨[star], rfl⟩, h1⟩
  refine sameAlong_upto 2 (by omega) ?_ (.inr (.inr (rule_prefix h1)))
  intro m hm
  match m, hm with
  | 0, _ =>
    have h0 : ¬ Known R [star] := by rw [known_iff (by simp)]; exact h5
    refine ⟨iff_of_false h0 (by simp only [List.take_zero]; decide +kernel), fun h => absurd h h0,
      fun _ => iff_of_true (.inr h3) (by simp only [List.take]; decide +kernel),
      fun _ _ => iff_of_true (.inr ⟨_, rfl, rule_prefix h1⟩) (.inr ⟨b! "fk", rfl, by decide +kernel⟩),
      fun _ _ => iff_of_true (.inr ⟨star, .inr (rule_prefix h1)⟩) (by simp only [List.take]; decide +kernel)⟩
  | 1, _ =>
    have h0 : Known R ([b! "fk"] ++ [star]) := .inr (rule_prefix h1)
    refine ⟨iff_of_true h0 (by simp only [List.take]; decide +kernel), ?_, fun h => absurd h0 h, fun h => absurd h0 h, fun h => absurd h0 h⟩
    intro _ l hl
    obtain rfl : b! "a" = l := by simpa using hl
    exact iff_of_false (by rw [known_iff (by simp)]; exact h2) (by simp only [List.take]; decide +kernel)

/-- Hosts that end in `1`. -/
theorem same_one {lines : List Bytes} {priv : Bool} (hb : BuiltIn priv lines) (hf : ByLabel idna.toASCII f (lines.filter (fun t => decide (IsRuleLine t))))
    (ls ds : List Bytes) : SameAlong (rulesOf idna.toASCII lines) [] ls (b! "1" :: ds) := by
  have h5 := C54_no_top_star hb hf
  have hf := byLabel_used hb hf
  rw [builtIn_rules _ hb] at h5 ⊢
  generalize hR : (rulesIn (builtInParts priv)).flatMap (contributes idna.toASCII) = R at h5 ⊢
  have h1 : ¬ PrefixAt R [b! "1"] := hR ▸ not_prefix hf (p := [b! "1"]) (by simp) (by decide)
      (absent_rule priv (s := b! "1") (by decide) (by decide +kernel))
      (closed_rule priv (s := b! "1") (by decide) (by decide +kernel) (by decide +kernel))
  have h0 : ¬ Known R [star] := by rw [known_iff (by simp)]; exact h5
  have h2 : ¬ Known R [b! "1"] := by rw [known_iff (by simp)]; exact h1
  refine sameAlong_upto 1 (by omega) ?_ (.inl ?_)
  · intro m hm
    obtain rfl : m = 0 := by omega
    refine ⟨iff_of_false h0 (by simp only [List.take_zero]; decide +kernel), fun h => absurd h h0,
      fun _ => iff_of_false h2 (by simp only [List.take]; decide +kernel), fun _ h => absurd h h2, fun _ h => absurd h h2⟩
  · rintro (h | ⟨x, h⟩)
    · simp at h
    · exact h2 (known_up h)

/-- C68: the results in README.md are those with the built-in list. -/
theorem C68_readme {lines : Bool → List Bytes} (hb : ∀ priv, BuiltIn priv (lines priv))
    (hf : ∀ priv, ByLabel idna.toASCII f ((lines priv).filter (fun t => decide (IsRuleLine t))))
    (hu : ∀ s ∈ readmeHosts, idna.toUnicodeErr s = none)
    (hl : idna.lookupASCII (b! "hello.世界.com") = some (b! "hello.xn--rhqv96g.com")) :
    ∀ x ∈ readme, extract idna (trieOfText idna x.priv hardcodedPSL) x.e = .ok (x.r, x.err) := by
  have un : ∀ host s, queryUnescape host = .ok s → s ∈ readmeHosts → hostText idna false host = .ok host :=
    fun host s h1 h2 => hostText_plain h1 (hu s h2)
  have puny : hostText idna true (b! "hello.世界.com") = .ok (b! "hello.xn--rhqv96g.com") := by
    unfold hostText formatAsPunycode
    rw [show queryUnescape (b! "hello.世界.com") = .ok (b! "hello.世界.com") by decide +kernel]
    simp [hl]
  intro x hx
  rw [builtIn_trie idna (hb x.priv)]
  simp only [readme, List.mem_cons, List.not_mem_nil, or_false] at hx
  rcases hx with rfl | rfl | rfl | rfl | rfl | rfl | rfl | rfl | rfl | rfl
  · exact row idna [b! "uk", b! "ac.uk"] (b! "https://") (b! "user") (b! "a.subdomain.example.a%63.uk") (b! ":5000/a/b?id=42")
      (b! "5000") (b! "/a/b?id=42") (b! "a.subdomain.example.a%63.uk") (b! "a")
      [(46, b! "subdomain"), (46, b! "example"), (46, b! "a%63"), (46, b! "uk")] (by decide +kernel) (by decide +kernel)
      (by decide +kernel) (un _ (b! "a.subdomain.example.ac.uk") (by decide +kernel) (by decide +kernel)) (by decide +kernel) (same_ac_uk (hb _) (hf _) _ _) (by decide +kernel)
  · exact row idna [] (b! "https://") [] (b! "127.0.0.1") (b! ":5000") (b! "5000") (b! "") (b! "127.0.0.1") (b! "127")
      [(46, b! "0"), (46, b! "0"), (46, b! "1")] (by decide +kernel) (by decide +kernel) (by decide +kernel)
      (un _ (b! "127.0.0.1") (by decide +kernel) (by decide +kernel))
      (by decide +kernel) (same_one (hb _) (hf _) _ _) (by decide +kernel)
  · rw [extracts_iff]
    refine ⟨b! "https://", [], b! "[aBcD:ef01:2345:6789:aBcD:ef01:2345:6789]:5000",
      .literal (b! "aBcD:ef01:2345:6789:aBcD:ef01:2345:6789") (b! ":5000"), authority_iff.2 (by decide +kernel),
      hostAt_iff.2 (by decide +kernel), ?_⟩
    refine .ipv6 (port := b! "5000") (path := []) ?_ ((portPath_iff ?_).1 (by decide +kernel))
    · obtain ⟨b, h1, h2⟩ := isIPv6_eq (b! "aBcD:ef01:2345:6789:aBcD:ef01:2345:6789")
      rw [← h2]
      have : isIPv6 (b! "aBcD:ef01:2345:6789:aBcD:ef01:2345:6789") = .ok true := by decide +kernel
      rw [this] at h1
      cases h1
      rfl
    · intro x t h
      injection h with h
      subst h
      decide
  · exact row idna [b! "*.fk"] (b! "https://") [] (b! "brb\u002ei\u3002am\uff0egoing\uff61to\uff0ebe\u3002a\uff61fk") (b! "") (b! "") (b! "") (b! "brb\u002ei\u3002am\uff0egoing\uff61to\uff0ebe\u3002a\uff61fk") (b! "brb")
      [(46, b! "i"), (12290, b! "am"), (65294, b! "going"), (65377, b! "to"), (65294, b! "be"), (12290, b! "a"), (65377, b! "fk")] (by decide +kernel) (by decide +kernel) (by decide +kernel)
      (un _ (b! "brb\u002ei\u3002am\uff0egoing\uff61to\uff0ebe\u3002a\uff61fk") (by decide +kernel) (by decide +kernel))
      (by decide +kernel) (same_fk (hb _) (hf _) _ _) (by decide +kernel)
  · exact row idna [b! "com"] (b! "https://") [] (b! "google.blogspot.com") (b! "") (b! "") (b! "") (b! "google.blogspot.com") (b! "google")
      [(46, b! "blogspot"), (46, b! "com")] (by decide +kernel) (by decide +kernel) (by decide +kernel)
      (un _ (b! "google.blogspot.com") (by decide +kernel) (by decide +kernel))
      (by decide +kernel) (same_com (hb _) (hf _) _ _) (by decide +kernel)
  · exact row idna [b! "com", b! "blogspot.com"] (b! "https://") [] (b! "google.blogspot.com") (b! "") (b! "") (b! "") (b! "google.blogspot.com") (b! "google")
      [(46, b! "blogspot"), (46, b! "com")] (by decide +kernel) (by decide +kernel) (by decide +kernel)
      (un _ (b! "google.blogspot.com") (by decide +kernel) (by decide +kernel))
      (by decide +kernel) (same_blogspot (hb _) (hf _) _ _) (by decide +kernel)
  · exact row idna [b! "com"] (b! "https://") [] (b! "maps.google.com") (b! "") (b! "") (b! "") (b! "maps.google.com") (b! "maps")
      [(46, b! "google"), (46, b! "com")] (by decide +kernel) (by decide +kernel) (by decide +kernel)
      (un _ (b! "maps.google.com") (by decide +kernel) (by decide +kernel))
      (by decide +kernel) (same_com (hb _) (hf _) _ _) (by decide +kernel)
  · exact row idna [b! "com"] (b! "https://") [] (b! "hello.世界.com") (b! "") (b! "") (b! "") (b! "hello.世界.com") (b! "hello")
      [(46, b! "世界"), (46, b! "com")] (by decide +kernel) (by decide +kernel) (by decide +kernel)
      (un _ (b! "hello.世界.com") (by decide +kernel) (by decide +kernel))
      (by decide +kernel) (same_com (hb _) (hf _) _ _) (by decide +kernel)
  · exact row idna [b! "com"] (b! "https://") [] (b! "hello.世界.com") (b! "") (b! "") (b! "") (b! "hello.xn--rhqv96g.com") (b! "hello")
      [(46, b! "xn--rhqv96g"), (46, b! "com")] (by decide +kernel) (by decide +kernel) (by decide +kernel)
      puny
      (by decide +kernel) (same_com (hb _) (hf _) _ _) (by decide +kernel)
  · exact row idna [b! "com"] (b! "https://") [] (b! "example!.com") (b! "") (b! "") (b! "") (b! "example!.com") (b! "example!")
      [(46, b! "com")] (by decide +kernel) (by decide +kernel) (by decide +kernel)
      (un _ (b! "example!.com") (by decide +kernel) (by decide +kernel))
      (by decide +kernel) (same_com (hb _) (hf _) _ _) (by decide +kernel)

/-- C68: for hosts that end in `com`, all other rules without the private section can be left out. -/
theorem C68_com {lines : List Bytes} (hb : BuiltIn false lines)
    (hf : ByLabel idna.toASCII f (lines.filter (fun t => decide (IsRuleLine t)))) (e : URLParams)
    (h : ∀ sch ui a host after n first rest tail ds, Authority e.url sch ui a → HostAt a (.name host after) →
      HostTextOf idna e.convertURLToPunyCode host n → HostShape n first rest tail → LabelValues (fromRight first rest) ds →
      ds.head? = some (b! "com")) :
    extract idna (trieOfText idna false hardcodedPSL) e = extract idna (buildTrie [b! "com"]) e := by
  rw [builtIn_trie idna hb]
  refine C67_path idna e fun sch ui a host after n first rest tail ds h1 h2 h3 h4 h5 => ?_
  have := h sch ui a host after n first rest tail ds h1 h2 h3 h4 h5
  cases ds with
  | nil => simp at this
  | cons d ds =>
    obtain rfl : d = b! "com" := by simpa using this
    exact same_com hb hf _ _

-- there are such conversions, and Punycode is what README.md says
example : ∀ x ∈ readme, extract { byLabelIdna with lookupASCII := fun _ => some (b! "hello.xn--rhqv96g.com") }
    (trieOfText { byLabelIdna with lookupASCII := fun _ => some (b! "hello.xn--rhqv96g.com") } x.priv hardcodedPSL) x.e = .ok (x.r, x.err) :=
  C68_readme (fun _ => builtIn_iff.2 rfl) (fun _ => byLabel_holds _) (fun _ _ => rfl) rfl
example : Punycode.label (b! "世界") = b! "xn--rhqv96g" := by decide +kernel
-- the results depend on the list: with other rules they are different
example : extract idId (buildTrie []) { url := b! "https://google.blogspot.com" } =
    .ok ({ scheme := b! "https://", subDomain := b! "google.blogspot", domain := b! "com", hostType := .hostName }, none) ∧
    extract idId (buildTrie [b! "com"]) { url := b! "https://maps.google.com", ignoreSubDomains := true } =
    .ok ({ scheme := b! "https://", domain := b! "google", suffix := b! "com", registeredDomain := b! "google.com",
           hostType := .hostName }, none) ∧
    extract idId (buildTrie [b! "uk", b! "ac.uk"]) { url := b! "https://user@a.subdomain.example.a%63.uk:5000/a/b?id=42" } =
    .ok ({ scheme := b! "https://", userInfo := b! "user", subDomain := b! "a.subdomain", domain := b! "example",
           suffix := b! "a%63.uk", registeredDomain := b! "example.a%63.uk", port := b! "5000", path := b! "/a/b?id=42",
           hostType := .hostName }, none) ∧
    extract idId (buildTrie [b! "*.fk"]) { url := b! "https://brb\u002ei\u3002am\uff0egoing\uff61to\uff0ebe\u3002a\uff61fk" } =
    .ok ({ scheme := b! "https://", subDomain := b! "brb\u002ei\u3002am\uff0egoing\uff61to", domain := b! "be",
           suffix := b! "a\uff61fk", registeredDomain := b! "be\u3002a\uff61fk", hostType := .hostName }, none) ∧
    extract idId (buildTrie [b! "com"]) { url := b! "https://example!.com" } =
    .ok ({ scheme := b! "https://" }, some .invalidCharacters) ∧
    extract idId (buildTrie []) { url := b! "https://127.0.0.1:5000" } =
    .ok ({ scheme := b! "https://", domain := b! "127.0.0.1", registeredDomain := b! "127.0.0.1", port := b! "5000",
           hostType := .iPv4 }, none) := by decide +kernel

end

end Fasttld.Props
