import Verif.Props.Complete

/-!
# C63: what is in the result when there is an error
-/

namespace Fasttld.Props
open Fasttld Fasttld.Spec Trie

/-- Errors after which Port and Path are not set. -/
def early : Err → Bool
  | .openingBracketNotFirst | .closingWithoutOpening | .incompleteBrackets | .invalidIPv6 | .trailingAfterIPv6
  | .invalidPort => true
  | _ => false

/-- C63: Scheme and UserInfo are those of the URL. -/
theorem C63_scheme (idna : Idna) (rules : List Bytes) (e : URLParams) {r : ExtractResult} {err : Option Err}
    (h : extract idna (buildTrie rules) e = .ok (r, err)) : ∃ a, Authority e.url r.scheme r.userInfo a := by
  obtain ⟨sch, ui, a, part, hA, -, hf⟩ := (C52_extract idna rules e r err).1 h
  cases hf <;> exact ⟨a, hA⟩

/-- C63: Port and Path are both empty after an error in the brackets or the port, and those of the URL after any other. -/
theorem C63_port (idna : Idna) (rules : List Bytes) (e : URLParams) {r : ExtractResult} {er : Err}
    (h : extract idna (buildTrie rules) e = .ok (r, some er)) :
    if early er then r.port = [] ∧ r.path = []
    else ∃ host after, Authority e.url r.scheme r.userInfo (host ++ after) ∧ IsPlainHost host ∧ AfterHost after r.port r.path := by
  obtain ⟨sch, ui, a, part, hA, hH, hf⟩ := (C52_extract idna rules e r (some er)).1 h
  generalize hE : some er = E at hf
  have late : ∀ {host after port path : Bytes}, AfterHost after port path → HostAt a (.name host after) →
      ∃ host after, Authority e.url sch ui (host ++ after) ∧ IsPlainHost host ∧ AfterHost after port path := by
    intro host after port path h1 h2
    cases h2 with
    | name h3 h4 => exact ⟨_, _, hA, h3, h1⟩
  cases hf with
  | brackets =>
    obtain rfl := Option.some.inj hE
    cases hH <;> exact ⟨rfl, rfl⟩
  | notIPv6 => obtain rfl := Option.some.inj hE; exact ⟨rfl, rfl⟩
  | trailing => obtain rfl := Option.some.inj hE; exact ⟨rfl, rfl⟩
  | ipv6Port => obtain rfl := Option.some.inj hE; exact ⟨rfl, rfl⟩
  | namePort => obtain rfl := Option.some.inj hE; exact ⟨rfl, rfl⟩
  | ipv6 => cases hE
  | escape h1 => obtain rfl := Option.some.inj hE; exact late h1 hH
  | idna h1 => obtain rfl := Option.some.inj hE; exact late h1 hH
  | host h1 h2 h3 =>
    obtain ⟨first, rest, tail, ds, w, -, -, -, hj⟩ := h3
    cases hj
    · obtain rfl := Option.some.inj hE; exact late h1 hH
    · cases hE
    · obtain rfl := Option.some.inj hE; exact late h1 hH
    · obtain rfl := Option.some.inj hE; exact late h1 hH
    · cases hE

/-- C63: the parts of the host and HostType are empty, with two exceptions.  If only the port after an IPv6 address in
brackets is wrong, the address is there.  If the domain is missing, SubDomain, Suffix and RegisteredDomain are those that
belong to the empty domain. -/
theorem C63_host (idna : Idna) (rules : List Bytes) (e : URLParams) {r : ExtractResult} {er : Err}
    (h : extract idna (buildTrie rules) e = .ok (r, some er)) :
    (r.hostType = .none ∧ r.subDomain = [] ∧ r.domain = [] ∧ r.suffix = [] ∧ r.registeredDomain = []) ∨
    (er = .invalidPort ∧ r.hostType = .iPv6 ∧ r.subDomain = [] ∧ r.suffix = [] ∧ r.registeredDomain = r.domain ∧
      IsIPv6 IsIPv4 r.domain ∧ ∃ after, Authority e.url r.scheme r.userInfo (91 :: r.domain ++ 93 :: after) ∧
        ∀ port path, ¬ AfterHost after port path) ∨
    (er = .emptyDomain ∧ r.hostType = .none ∧ r.domain = [] ∧
      ∃ host after n first rest tail ds w sub, Authority e.url r.scheme r.userInfo (host ++ after) ∧
        HostTextOf idna e.convertURLToPunyCode host n ∧ HostShape n first rest tail ∧ LabelValues (fromRight first rest) ds ∧
        Reading rules (fromRight first rest) ds (some w) ∧ Parts first rest w.mark w.cut sub [] r.suffix r.registeredDomain ∧
        r.subDomain = if e.ignoreSubDomains then [] else sub) := by
  obtain ⟨sch, ui, a, part, hA, hH, hf⟩ := (C52_extract idna rules e r (some er)).1 h
  generalize hE : some er = E at hf
  cases hf with
  | brackets => exact .inl ⟨rfl, rfl, rfl, rfl, rfl⟩
  | notIPv6 => exact .inl ⟨rfl, rfl, rfl, rfl, rfl⟩
  | trailing => exact .inl ⟨rfl, rfl, rfl, rfl, rfl⟩
  | namePort => exact .inl ⟨rfl, rfl, rfl, rfl, rfl⟩
  | escape => exact .inl ⟨rfl, rfl, rfl, rfl, rfl⟩
  | idna => exact .inl ⟨rfl, rfl, rfl, rfl, rfl⟩
  | ipv6 => cases hE
  | ipv6Port h1 h2 h3 =>
    obtain rfl := Option.some.inj hE
    refine .inr (.inl ⟨rfl, rfl, rfl, rfl, rfl, h1, ?_⟩)
    cases hH with
    | literal => exact ⟨_, by simpa using hA, h3⟩
  | host h1 h2 h3 =>
    obtain ⟨first, rest, tail, ds, w, g1, g2, g3, hj⟩ := h3
    cases hj with
    | consecutive => exact .inl ⟨rfl, rfl, rfl, rfl, rfl⟩
    | invalid => exact .inl ⟨rfl, rfl, rfl, rfl, rfl⟩
    | ipv4 => cases hE
    | name => cases hE
    | noDomain _ _ _ hp =>
      obtain rfl := Option.some.inj hE
      refine .inr (.inr ⟨rfl, rfl, rfl, ?_⟩)
      cases hH with
      | name => exact ⟨_, _, _, first, rest, tail, ds, _, _, hA, h2, g1, g2, g3, hp, rfl⟩

/-- C63: in a result with an error Domain is never set without HostType, and never for a host name. -/
theorem C63_no_domain (idna : Idna) (rules : List Bytes) (e : URLParams) {r : ExtractResult} {er : Err}
    (h : extract idna (buildTrie rules) e = .ok (r, some er)) : r.domain ≠ [] → r.hostType = .iPv6 ∧ er = .invalidPort := by
  intro hd
  rcases C63_host idna rules e h with ⟨-, -, h1, -⟩ | ⟨h1, h2, -⟩ | ⟨-, -, h1, -⟩
  · exact absurd h1 hd
  · exact ⟨h2, h1⟩
  · exact absurd h1 hd

/-- The example in the README, and one for each kind of error. -/
example : ∀ x ∈ ([(b! "https://example!.com", { scheme := b! "https://" }, .invalidCharacters),
      (b! "https://u@example!.com:80/p", { scheme := b! "https://", userInfo := b! "u", port := b! "80", path := b! "/p" }, .invalidCharacters),
      (b! "https://u@[::1]:99999/p", { scheme := b! "https://", userInfo := b! "u", hostType := .iPv6, domain := b! "::1", registeredDomain := b! "::1" }, .invalidPort),
      (b! "https://u@a.com:99999/p", { scheme := b! "https://", userInfo := b! "u" }, .invalidPort),
      (b! "https://u@[::1]x/p", { scheme := b! "https://", userInfo := b! "u" }, .trailingAfterIPv6),
      (b! "https://u@[::z]/p", { scheme := b! "https://", userInfo := b! "u" }, .invalidIPv6),
      (b! "https://u@[::1/p", { scheme := b! "https://", userInfo := b! "u" }, .incompleteBrackets),
      (b! "https://u@x]/p", { scheme := b! "https://", userInfo := b! "u" }, .closingWithoutOpening),
      (b! "https://u@a[::1]/p", { scheme := b! "https://", userInfo := b! "u" }, .openingBracketNotFirst),
      (b! "https://u@a%zz.com:80/p", { scheme := b! "https://", userInfo := b! "u", port := b! "80", path := b! "/p" }, .badEscape (b! "%zz")),
      (b! "https://u@a..uk:80/p", { scheme := b! "https://", userInfo := b! "u", port := b! "80", path := b! "/p" }, .consecutiveSeparators),
      (b! "https://u@co.uk:80/p", { scheme := b! "https://", userInfo := b! "u", suffix := b! "co.uk", port := b! "80", path := b! "/p" }, .emptyDomain)]
      : List (Bytes × ExtractResult × Err)),
    extract idId (buildTrie [b! "com", b! "uk", b! "co.uk"]) ⟨x.1, false, false⟩ = .ok (x.2.1, some x.2.2) := by
  decide +kernel

end Fasttld.Props
