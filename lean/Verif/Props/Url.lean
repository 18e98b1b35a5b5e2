import Verif.Proofs.Outcome

/-!
# C05-C12, C16, C28: scheme, userinfo, port, path, brackets

`Spec.Authority url scheme ui a` says what scheme and userinfo are, and that `a` is what follows them.
Every URL has exactly one such decomposition (`Authority_exists`, `Authority_unique`).
-/

namespace Fasttld.Props
open Fasttld Fasttld.Spec

/-- An IDNA library that accepts everything and changes nothing, for examples. -/
def idId : Idna := { toASCII := some, lookupASCII := some, toUnicodeErr := fun _ => none }

/-- Rules `com`, `uk`, `co.uk`, for examples. -/
def exTrie : Trie := buildTrie [b! "com", b! "uk", b! "co.uk"]

theorem Authority_exists (url : Bytes) : ∃ sch ui a, Authority url sch ui a := authority_exists url

/-- The relation `Authority` is a function of the URL. -/
theorem Authority_unique {url s1 u1 a1 s2 u2 a2 : Bytes} (h1 : Authority url s1 u1 a1)
    (h2 : Authority url s2 u2 a2) : s1 = s2 ∧ u1 = u2 ∧ a1 = a2 := by
  obtain ⟨e1, h1⟩ := authority_iff.1 h1
  obtain ⟨e2, h2⟩ := authority_iff.1 h2
  rw [← h2] at h1
  simp only [Prod.mk.injEq] at h1
  exact ⟨e1.trans e2.symm, h1.1, h1.2⟩

/-- Every result, also one with an error, carries the scheme and userinfo of the URL. -/
theorem result_authority (idna : Idna) (trie : Trie) (e : URLParams) {r : ExtractResult} {err : Option Err}
    (h : extract idna trie e = .ok (r, err)) : ∃ a, Authority e.url r.scheme r.userInfo a := by
  obtain ⟨sch, ui, a, hA⟩ := authority_exists e.url
  refine ⟨a, ?_⟩
  rw [extract_authority idna trie e hA] at h
  injection h with h
  have : r.scheme = sch ∧ r.userInfo = ui := by
    split at h
    · simp only [Prod.mk.injEq] at h; rw [← h.1]; simp
    · unfold literalF at h
      split at h
      · split at h
        · simp only [Prod.mk.injEq] at h; rw [← h.1]; simp
        · simp only at h
          split at h
          · simp only [Prod.mk.injEq] at h; rw [← h.1]; simp
          · simp only [Prod.mk.injEq] at h; rw [← h.1]; simp
      · simp only [Prod.mk.injEq] at h; rw [← h.1]; simp
    · unfold nameF at h
      split at h
      · simp only [Prod.mk.injEq] at h; rw [← h.1]; simp
      · simp only at h
        split at h
        · simp only [Prod.mk.injEq] at h; rw [← h.1]; simp
        · rw [hostF_front ⟨rfl, rfl, rfl, rfl, rfl⟩] at h
          simp only [Prod.mk.injEq] at h; rw [← h.1]; simp [withFront]
  rw [this.1, this.2]; exact hA

/-! ## C08, C09: scheme -/

/-- C08: on success and on failure, Scheme is the longest prefix of the trimmed URL that is a scheme, and
is empty exactly if there is none. -/
theorem C08_scheme_exact (idna : Idna) (trie : Trie) (e : URLParams) {r : ExtractResult} {err : Option Err}
    (h : extract idna trie e = .ok (r, err)) :
    ∃ t, IsTrim true true whiteSpace e.url t ∧ SchemeOf t r.scheme := by
  obtain ⟨a, t, rest, h1, h2, -, -⟩ := result_authority idna trie e h
  exact ⟨t, h1, h2⟩

example : extract idId exTrie { url := b! " ht-tps:/\\/a.com" } =
    .ok ({ scheme := b! "ht-tps:/\\/", domain := b! "a", suffix := b! "com", registeredDomain := b! "a.com",
           hostType := .hostName }, none) := by decide +kernel
example : IsScheme (b! "ht-tps:/\\/") :=
  ⟨b! "ht-tps", b! ":", b! "/\\/", by decide, .inr ⟨⟨104, b! "t-tps", by decide, by decide, by decide⟩, .inr rfl⟩,
    by decide, by decide⟩

/-- C09 does not hold: the library takes a name without colon, followed by two slashes, for a scheme, so
that the path segment of a URL without scheme becomes the host. -/
theorem C09_counterexample :
    ¬ ∀ (idna : Idna) (trie : Trie) (e : URLParams) (r : ExtractResult) (err : Option Err),
      extract idna trie e = .ok (r, err) → (∀ c ∈ r.scheme, isSlash c = true) ∨ 58 ∈ r.scheme := by
  intro h
  have h1 : extract idId exTrie { url := b! "example.com//evil.co.uk" } =
      .ok ({ scheme := b! "example.com//", domain := b! "evil", suffix := b! "co.uk",
             registeredDomain := b! "evil.co.uk", hostType := .hostName }, none) := by decide +kernel
  exact absurd (h _ _ _ _ _ h1) (by decide)

/-- What remains true of C09: whatever precedes the slashes is a letter followed by letters, digits, `+`,
`-`, `.`, and at most one colon, which then is last. -/
theorem C09_shape_partial (idna : Idna) (trie : Trie) (e : URLParams) {r : ExtractResult} {err : Option Err}
    (h : extract idna trie e = .ok (r, err)) : r.scheme = [] ∨ IsScheme r.scheme := by
  obtain ⟨t, -, ⟨h, -⟩ | ⟨h, -⟩⟩ := C08_scheme_exact idna trie e h
  · exact .inl h
  · exact .inr h

/-- The text begins with a name and two slashes, without a colon between them. -/
def NameThenSlashes (t : Bytes) : Prop :=
  ∃ c r a b rest, t = c :: r ++ a :: b :: rest ∧ isLetter c = true ∧ (∀ x ∈ r, isSchemeChar x = true) ∧
    isSlash a = true ∧ isSlash b = true

/-- C09, exactly: the claim fails for those URLs that begin with a name and two slashes, and only for those. -/
theorem C09_exact (idna : Idna) (trie : Trie) (e : URLParams) {r : ExtractResult} {err : Option Err}
    (h : extract idna trie e = .ok (r, err)) :
    ∃ t, IsTrim true true whiteSpace e.url t ∧
      (((∀ c ∈ r.scheme, isSlash c = true) ∨ 58 ∈ r.scheme) ↔ ¬ NameThenSlashes t) := by
  obtain ⟨t, h1, h2⟩ := C08_scheme_exact idna trie e h
  have hls : ∀ c, isLetter c = true → isSlash c = false ∧ c ≠ 58 := forall_byte (by decide +kernel)
  have hcs : ∀ c, isSchemeChar c = true → isSlash c = false ∧ c ≠ 58 := forall_byte (by decide +kernel)
  have hs58 : isSlash 58 = false := by decide
  have htw : ∀ (n : Bytes) (a : UInt8) (s : Bytes), (∀ x ∈ n, isSlash x = false) → isSlash a = true →
      (n ++ a :: s).takeWhile (fun x => !isSlash x) = n := by
    intro n a s hn ha
    rw [List.takeWhile_append_of_pos (by intro x hx; simp [hn x hx])]
    simp [ha]
  refine ⟨t, h1, ?_, fun hno => ?_⟩
  · rintro hc ⟨c, n, a, b, rest, rfl, g1, g2, g3, g4⟩
    have hn : ∀ x ∈ c :: n, isSlash x = false := by
      intro x hx
      rcases List.mem_cons.1 hx with rfl | hx
      · exact (hls _ g1).1
      · exact (hcs _ (g2 x hx)).1
    have hq : IsScheme (c :: n ++ [a, b]) :=
      ⟨c :: n, [], [a, b], by simp, .inr ⟨⟨c, n, rfl, g1, g2⟩, .inl rfl⟩, by simp, by simp [g3, g4]⟩
    have hqt : c :: n ++ [a, b] <+: c :: n ++ a :: b :: rest := ⟨rest, by simp⟩
    rcases h2 with ⟨-, h2⟩ | ⟨h2, h3, h4⟩
    · exact h2 _ hq hqt
    · obtain ⟨k, hk⟩ := List.prefix_of_prefix_length_le hqt h3 (h4 _ hq hqt)
      obtain ⟨name, colon, sl, e1, e2, e3, e4⟩ := h2
      rw [← hk] at hc
      rcases hc with hc | hc
      · have := hc c (by simp)
        rw [(hls _ g1).1] at this; simp at this
      · rw [hk] at hc
        have e5 := htw (c :: n) a (b :: k) hn g3
        rw [show c :: n ++ a :: b :: k = r.scheme by rw [← hk]; simp, e1] at e5
        obtain ⟨x, sl, rfl⟩ := List.exists_cons_of_length_pos (l := sl) (by omega)
        have hx := e4 x (by simp)
        rcases e2 with ⟨rfl, rfl⟩ | ⟨⟨d, m, rfl, f1, f2⟩, rfl | rfl⟩
        · simp [hx] at e5
        · rw [e1] at hc
          simp only [List.append_nil, List.mem_append] at hc
          rcases hc with hc | hc
          · rcases List.mem_cons.1 hc with rfl | hc
            · exact (hls _ f1).2 rfl
            · exact (hcs _ (f2 _ hc)).2 rfl
          · have := e4 _ hc
            rw [hs58] at this; simp at this
        · rw [htw _ _ _ (by
            intro y hy
            simp only [List.mem_append, List.mem_cons, List.not_mem_nil, or_false] at hy
            rcases hy with (rfl | hy) | rfl
            · exact (hls _ f1).1
            · exact (hcs _ (f2 _ hy)).1
            · exact hs58) hx] at e5
          have : (58 : UInt8) ∈ c :: n := by rw [← e5]; simp
          rcases List.mem_cons.1 this with rfl | hm
          · exact (hls _ g1).2 rfl
          · exact (hcs _ (g2 _ hm)).2 rfl
  · rcases h2 with ⟨h2, -⟩ | ⟨⟨name, colon, sl, e1, e2, e3, e4⟩, ⟨k, hk⟩, -⟩
    · simp [h2]
    · rcases e2 with ⟨rfl, rfl⟩ | ⟨⟨d, m, rfl, f1, f2⟩, rfl | rfl⟩
      · left; rw [e1]; simpa using e4
      · refine absurd ?_ hno
        obtain ⟨x, sl, rfl⟩ := List.exists_cons_of_length_pos (l := sl) (by omega)
        obtain ⟨y, sl, rfl⟩ := List.exists_cons_of_length_pos (l := sl) (by simp at e3; omega)
        exact ⟨d, m, x, y, sl ++ k, by rw [← hk, e1]; simp, f1, f2, e4 _ (by simp), e4 _ (by simp)⟩
      · right; rw [e1]; simp

example : NameThenSlashes (b! "example.com//evil.co.uk") :=
  ⟨101, b! "xample.com", 47, 47, b! "evil.co.uk", by decide, by decide, by decide, by decide, by decide⟩

/-! ## C10: userinfo -/

/-- C10: on success and on failure, UserInfo is everything before the last `@` that precedes the first of
`/ \ ? # [ ]` after the scheme, and is empty, with nothing removed, if there is no such `@`. -/
theorem C10_userinfo_exact (idna : Idna) (trie : Trie) (e : URLParams) {r : ExtractResult} {err : Option Err}
    (h : extract idna trie e = .ok (r, err)) :
    ∃ t rest a, IsTrim true true whiteSpace e.url t ∧ SchemeOf t r.scheme ∧ t = r.scheme ++ rest ∧
      UserInfoOf rest r.userInfo a := by
  obtain ⟨a, t, rest, h1, h2, h3, h4⟩ := result_authority idna trie e h
  exact ⟨t, rest, a, h1, h2, h3, h4⟩

example : extract idId exTrie { url := b! "//u@v:w@a.com/@b" } =
    .ok ({ scheme := b! "//", userInfo := b! "u@v:w", domain := b! "a", suffix := b! "com",
           registeredDomain := b! "a.com", path := b! "/@b", hostType := .hostName }, none) := by decide +kernel

/-! ## C07: white space -/

/-- C07: white space before and after the URL has no influence at all. -/
theorem C07_whitespace_irrelevant (idna : Idna) (trie : Trie) (e : URLParams) {a b : Bytes}
    (ha : MadeOf whiteSpace a) (hb : MadeOf whiteSpace b) :
    extract idna trie { e with url := a ++ e.url ++ b } = extract idna trie e := by
  rw [extract_eq, extract_eq]
  unfold extractF
  simp only
  have : trimmed (a ++ e.url ++ b) = trimmed e.url := by
    symm
    rw [← isTrim_iff]
    obtain ⟨x, y, h1, h2, h3, h4, h5, h6, h7⟩ := isTrim_iff.2 (rfl : trimmed e.url = trimmed e.url)
    refine ⟨a ++ x, y ++ b, ?_, ha.append h2, h3.append hb, by simp, by simp, h6, h7⟩
    have : e.url = x ++ trimmed e.url ++ y := h1
    generalize trimmed e.url = t at this
    rw [this]; simp
  rw [this]
  rfl

example : MadeOf whiteSpace ([9, 32, 0xC2, 0xA0, 0xE2, 0x80, 0x8B]) := ⟨[9, 32, 0xA0, 0x200B], by decide, by decide⟩

/-! ## C06: IgnoreSubDomains -/

/-- C06: `IgnoreSubDomains` changes nothing but `SubDomain`, which it empties. -/
theorem C06_ignoreSubDomains (idna : Idna) (trie : Trie) (e : URLParams) {r : ExtractResult} {err : Option Err}
    (h : extract idna trie { e with ignoreSubDomains := false } = .ok (r, err)) :
    extract idna trie { e with ignoreSubDomains := true } = .ok ({ r with subDomain := [] }, err) := by
  obtain ⟨sch, ui, a, hA⟩ := authority_exists e.url
  rw [extract_authority idna trie { e with ignoreSubDomains := false } hA] at h
  rw [extract_authority idna trie { e with ignoreSubDomains := true } hA]
  injection h with h
  congr 1
  split at h
  · simp only [Prod.mk.injEq] at h; rw [← h.1, ← h.2]
  · have hl : ∀ inner after, (literalF inner after { scheme := sch, userInfo := ui }).1.subDomain = [] := by
      intro inner after
      unfold literalF
      split
      · split
        · rfl
        · simp only
          split <;> rfl
      · rfl
    rename_i inner after hs
    have := hl inner after
    rw [h] at this
    simp only at this
    rw [h]
    cases r; simp only at this; subst this; rfl
  · unfold nameF at h ⊢
    split at h
    · simp only [Prod.mk.injEq] at h; rw [← h.1, ← h.2]
    · simp only at h ⊢
      split at h
      · simp only [Prod.mk.injEq] at h; rw [← h.1, ← h.2]
      · rw [hostF_ignore rfl, h]

example : extract idId exTrie { url := b! "x.a.co.uk" } =
    .ok ({ subDomain := b! "x", domain := b! "a", suffix := b! "co.uk", registeredDomain := b! "a.co.uk",
           hostType := .hostName }, none) := by decide +kernel

/-! ## C11: port -/

/-- C11, with the signs the library accepts: on success, Port is empty or a decimal numeral with value
0..65535, perhaps with a `+` sign, or a `-` sign before a zero.  Missing: there should be no sign, see
`C11_sign_accepted`. -/
theorem C11_port_range_partial (idna : Idna) (trie : Trie) (e : URLParams) {r : ExtractResult}
    (h : extract idna trie e = .ok (r, none)) : r.port = [] ∨ IsPort r.port := by
  obtain ⟨a, -, ⟨after, -, -, ⟨-, h⟩, -⟩ | ⟨host, after, n, -, -, ⟨-, h⟩, -⟩⟩ := extract_ok idna trie e h
  all_goals
    rcases h with ⟨h, -⟩ | ⟨h, -⟩
    · exact .inl h
    · exact .inr h

/-- C11, second half: a host followed by `:` and anything but a port and perhaps a path is an error. -/
theorem C11_bad_port_rejected (idna : Idna) (trie : Trie) (e : URLParams) {sch ui host rest : Bytes}
    (hA : Authority e.url sch ui (host ++ 58 :: rest)) (hp : IsPlainHost host)
    (hb : ∀ port path, IsPort port → (path = [] ∨ ∃ c t, path = c :: t ∧ isPathStart c = true) → rest ≠ port ++ path) :
    extract idna trie e = .ok ({ scheme := sch, userInfo := ui }, some .invalidPort) := by
  have hhd : ∀ x t, 58 :: rest = x :: t → isHostEnd x = true := by rintro x t ⟨⟩; decide
  rw [extract_authority idna trie e hA, scanSplit_name_iff.2 ⟨rfl, hp, hhd⟩]
  simp only
  unfold nameF
  cases hpp : portPath (58 :: rest) with
  | none => rfl
  | some p =>
    obtain ⟨p, q⟩ := p
    obtain ⟨h1, ⟨-, h2⟩ | ⟨h2, h3⟩⟩ := (portPath_iff hhd).1 hpp
    · rcases h1 with rfl | ⟨c, t, rfl, hc⟩
      · simp at h2
      · simp at h2; rw [← h2.1] at hc; exact absurd hc (by decide)
    · simp at h3; exact absurd h3 (hb p q h2 h1)

/-- The sign is really accepted. -/
theorem C11_sign_accepted :
    extract idId exTrie { url := b! "a.com:+080/" } =
      .ok ({ domain := b! "a", suffix := b! "com", registeredDomain := b! "a.com", port := b! "+080",
             path := b! "/", hostType := .hostName }, none) := by decide +kernel

example : extract idId exTrie { url := b! "a.com:65535" } =
    .ok ({ domain := b! "a", suffix := b! "com", registeredDomain := b! "a.com", port := b! "65535",
           hostType := .hostName }, none) := by decide +kernel
example : extract idId exTrie { url := b! "a.com:65536" } = .ok ({}, some .invalidPort) := by decide +kernel
example : extract idId exTrie { url := b! "a.com:" } = .ok ({}, some .invalidPort) := by decide +kernel

/-! ## C12: path -/

/-- C12: on success, Path is what follows scheme and userinfo, from the first of `/ \ ? #` on. -/
theorem C12_path_exact (idna : Idna) (trie : Trie) (e : URLParams) {r : ExtractResult}
    (h : extract idna trie e = .ok (r, none)) :
    ∃ a hostport, Authority e.url r.scheme r.userInfo a ∧ CutAt isPathStart a hostport r.path := by
  obtain ⟨a, hA, ⟨after, h1, h6, ⟨hq, h⟩, -⟩ | ⟨host, after, n, h1, hp, ⟨hq, h⟩, -⟩⟩ := extract_ok idna trie e h
  · rcases h with ⟨hpo, h⟩ | ⟨hpo, h⟩
    · refine ⟨a, 91 :: (r.domain ++ [93]), hA, by rw [h1, h]; simp, ?_, hq⟩
      intro c hc
      simp only [List.mem_cons, List.mem_append, List.mem_nil_iff, or_false] at hc
      rcases hc with rfl | hc | rfl
      · decide
      · exact (plainByte_iff.1 (h6.plain c hc)).1
      · decide
    · refine ⟨a, 91 :: (r.domain ++ 93 :: 58 :: r.port), hA, by rw [h1, h]; simp, ?_, hq⟩
      intro c hc
      simp only [List.mem_cons, List.mem_append] at hc
      rcases hc with rfl | hc | rfl | rfl | hc
      · decide
      · exact (plainByte_iff.1 (h6.plain c hc)).1
      · decide
      · decide
      · exact isPort_no_pathStart hpo c hc
  · have hpl : ∀ c ∈ host, isPathStart c = false := by
      intro c hc
      have := (hp c hc).1
      simp only [isHostEnd, Bool.or_eq_false_iff] at this
      exact this.1
    rcases h with ⟨hpo, h⟩ | ⟨hpo, h⟩
    · exact ⟨a, host, hA, by rw [h1, h], hpl, hq⟩
    · refine ⟨a, host ++ 58 :: r.port, hA, by rw [h1, h]; simp, ?_, hq⟩
      intro c hc
      simp only [List.mem_cons, List.mem_append] at hc
      rcases hc with hc | rfl | hc
      · exact hpl c hc
      · decide
      · exact isPort_no_pathStart hpo c hc

example : extract idId exTrie { url := b! "a.com:1?x=/y#z" } =
    .ok ({ domain := b! "a", suffix := b! "com", registeredDomain := b! "a.com", port := b! "1",
           path := b! "?x=/y#z", hostType := .hostName }, none) := by decide +kernel

/-! ## C16: brackets -/

/-- C16: if there is a bracket between userinfo and path, `Extract` succeeds exactly for `[`, a valid IPv6
address, `]`, and nothing, a port or a path after it; and then this is the result. -/
theorem C16_brackets (idna : Idna) (trie : Trie) (e : URLParams) {sch ui a hostport path : Bytes}
    {r : ExtractResult} (hA : Authority e.url sch ui a) (hc : CutAt isPathStart a hostport path)
    (hb : 91 ∈ hostport ∨ 93 ∈ hostport) :
    extract idna trie e = .ok (r, none) ↔
      ∃ ip after port pa, a = 91 :: (ip ++ 93 :: after) ∧ IsIPv6 IsIPv4 ip ∧ AfterHost after port pa ∧
        r = { scheme := sch, userInfo := ui, domain := ip, registeredDomain := ip, port := port, path := pa,
              hostType := .iPv6 } := by
  rw [extract_authority idna trie e hA]
  constructor
  · intro h
    injection h with h
    split at h
    · simp at h
    · rename_i inner after hs
      obtain ⟨h6, port, pa, haf, rfl⟩ := literalF_ok.1 h
      exact ⟨inner, after, port, pa, ((scanSplit_literal_iff (isIPv6_no_brackets h6)).1 hs).1, h6, haf, rfl⟩
    · rename_i host after hs
      exfalso
      obtain ⟨ha, hp, hhd⟩ := scanSplit_name_iff.1 hs
      unfold nameF at h
      cases hpp : portPath after with
      | none => rw [hpp] at h; simp at h
      | some p =>
        obtain ⟨p, q⟩ := p
        have haf := (portPath_iff hhd).1 hpp
        obtain ⟨z, w, hcut, hz⟩ := noBracket_of_afterHost haf
        -- `host ++ z` is everything before the path
        have hcut2 : CutAt isPathStart a (host ++ z) w := by
          refine ⟨by rw [ha, hcut.1]; simp, ?_, hcut.2.2⟩
          intro c hc
          rcases List.mem_append.1 hc with hc | hc
          · have := (hp c hc).1
            simp only [isHostEnd, Bool.or_eq_false_iff] at this
            exact this.1
          · exact hcut.2.1 c hc
        have heq : hostport = host ++ z := by
          have e1 := (cutAt_iff.1 hc)
          have e2 := (cutAt_iff.1 hcut2)
          rw [e1.1, e2.1]
        rw [heq] at hb
        rcases hb with hb | hb <;> rcases List.mem_append.1 hb with hb | hb
        · exact (hp _ hb).2.1 rfl
        · exact hz.1 hb
        · exact (hp _ hb).2.2 rfl
        · exact hz.2 hb
  · rintro ⟨ip, after, port, pa, h1, h6, haf, rfl⟩
    rw [(scanSplit_literal_iff (isIPv6_no_brackets h6)).2 ⟨h1, noBracket_of_afterHost haf⟩]
    simp only
    congr 1
    exact literalF_ok.2 ⟨h6, port, pa, haf, rfl⟩

/-- Host type IPv6 only comes from brackets. -/
theorem C16_ipv6_only_from_brackets (idna : Idna) (trie : Trie) (e : URLParams) {r : ExtractResult}
    (h : extract idna trie e = .ok (r, none)) (ht : r.hostType = .iPv6) :
    ∃ after, Authority e.url r.scheme r.userInfo (91 :: (r.domain ++ 93 :: after)) ∧ IsIPv6 IsIPv4 r.domain := by
  obtain ⟨a, hA, ⟨after, h1, h6, -⟩ | ⟨host, after, n, h1, hp, -, -, hn⟩⟩ := extract_ok idna trie e h
  · exact ⟨after, h1 ▸ hA, h6⟩
  · obtain ⟨o, -, ⟨-, h2⟩ | ⟨-, -, -, h2⟩⟩ := hostF_ok.1 hn <;>
      (have := congrArg ExtractResult.hostType h2; simp [ht] at this)

example : extract idId exTrie { url := b! "//[::1]:8/x" } =
    .ok ({ scheme := b! "//", domain := b! "::1", registeredDomain := b! "::1", port := b! "8", path := b! "/x",
           hostType := .iPv6 }, none) := by decide +kernel
example : extract idId exTrie { url := b! "[::1].a.com" } = .ok ({}, some .trailingAfterIPv6) := by decide +kernel
example : extract idId exTrie { url := b! "a[::1].com" } = .ok ({}, some .openingBracketNotFirst) := by
  decide +kernel

/-! ## C28: the host part does not depend on the other parts -/

/-- C28, hosts without brackets: two URLs with the same host text, each with a valid port and path after it,
give the same host fields, the same host type and the same error.  Missing: a bad port hides a bad host, see
`C28_counterexample`. -/
theorem C28_host_independent_partial (idna : Idna) (trie : Trie) (e1 e2 : URLParams)
    {s1 u1 a1 p1 q1 s2 u2 a2 p2 q2 host : Bytes} (hp : IsPlainHost host)
    (h1 : Authority e1.url s1 u1 (host ++ a1)) (h1' : AfterHost a1 p1 q1)
    (h2 : Authority e2.url s2 u2 (host ++ a2)) (h2' : AfterHost a2 p2 q2)
    (hi : e1.ignoreSubDomains = e2.ignoreSubDomains)
    (hc : e1.convertURLToPunyCode = e2.convertURLToPunyCode) :
    ∃ (v : ExtractResult) (err : Option Err),
      extract idna trie e1 =
        .ok ({ v with scheme := s1, userInfo := u1, port := p1, path := q1 }, err) ∧
      extract idna trie e2 =
        .ok ({ v with scheme := s2, userInfo := u2, port := p2, path := q2 }, err) := by
  rw [extract_plain idna trie e1 h1 hp h1', extract_plain idna trie e2 h2 hp h2', hi, hc]
  cases hostText idna e2.convertURLToPunyCode host with
  | error er => exact ⟨{}, some er, rfl, rfl⟩
  | ok n => exact ⟨_, _, rfl, rfl⟩

/-- The same host, not allowed in both, but with a bad port the error is another one. -/
theorem C28_counterexample :
    extract idId exTrie { url := b! "a_.com" } = .ok ({}, some .invalidCharacters) ∧
    extract idId exTrie { url := b! "a_.com:x" } = .ok ({}, some .invalidPort) := by decide +kernel

/-- C28, bracketed hosts.  Missing: as above. -/
theorem C28_literal_independent_partial (idna : Idna) (trie : Trie) (e1 e2 : URLParams)
    {s1 u1 a1 p1 q1 s2 u2 a2 p2 q2 inner : Bytes} (hb : 91 ∉ inner ∧ 93 ∉ inner)
    (h1 : Authority e1.url s1 u1 (91 :: (inner ++ 93 :: a1))) (h1' : AfterHost a1 p1 q1)
    (h2 : Authority e2.url s2 u2 (91 :: (inner ++ 93 :: a2))) (h2' : AfterHost a2 p2 q2) :
    (∃ (v : ExtractResult),
      extract idna trie e1 =
        .ok ({ v with scheme := s1, userInfo := u1, port := p1, path := q1 }, none) ∧
      extract idna trie e2 =
        .ok ({ v with scheme := s2, userInfo := u2, port := p2, path := q2 }, none)) ∨
    (extract idna trie e1 = .ok ({ scheme := s1, userInfo := u1 }, some .invalidIPv6) ∧
     extract idna trie e2 = .ok ({ scheme := s2, userInfo := u2 }, some .invalidIPv6)) := by
  rw [extract_authority idna trie e1 h1, extract_authority idna trie e2 h2,
    (scanSplit_literal_iff hb).2 ⟨rfl, noBracket_of_afterHost h1'⟩,
    (scanSplit_literal_iff hb).2 ⟨rfl, noBracket_of_afterHost h2'⟩]
  simp only
  by_cases h6 : isIPv6B inner = true
  · left
    rw [literalF_ok.2 ⟨(isIPv6B_iff _).1 h6, p1, q1, h1', rfl⟩, literalF_ok.2 ⟨(isIPv6B_iff _).1 h6, p2, q2, h2', rfl⟩]
    exact ⟨{ domain := inner, registeredDomain := inner, hostType := .iPv6 }, rfl, rfl⟩
  · right
    unfold literalF
    simp [h6]

end Fasttld.Props
