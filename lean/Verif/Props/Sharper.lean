import Verif.Props.Complete
import Verif.Props.Print
import Verif.Props.Strings

/-!
# C28, C30, C33, C46: exactly when they hold
-/

set_option linter.unusedSimpArgs false

namespace Fasttld.Props
open Fasttld Fasttld.Spec Trie

/-! ## C28 -/

/-- What follows the host is a valid port and path. -/
def GoodAfter (after : Bytes) : Prop := ∃ port path, AfterHost after port path

/-- The results have the same fields that belong to the host. -/
def SameHostFields (r1 r2 : ExtractResult) : Prop :=
  r1.subDomain = r2.subDomain ∧ r1.domain = r2.domain ∧ r1.suffix = r2.suffix ∧
    r1.registeredDomain = r2.registeredDomain ∧ r1.hostType = r2.hostType

/-- A bad port after a host name is reported, whatever the host. -/
theorem extract_badAfter (idna : Idna) (rules : List Bytes) (e : URLParams) {s u host a : Bytes}
    (h : Authority e.url s u (host ++ a)) (hh : HostAt (host ++ a) (.name host a)) (hb : ¬ GoodAfter a) :
    extract idna (buildTrie rules) e = .ok ({ scheme := s, userInfo := u }, some .invalidPort) :=
  (C52_extract ..).2 ⟨s, u, _, _, h, hh, .namePort fun port path hp => hb ⟨port, path, hp⟩⟩

/-- And only then. -/
theorem port_error (idna : Idna) (rules : List Bytes) (e : URLParams) {s u host a : Bytes} {r : ExtractResult}
    (h : Authority e.url s u (host ++ a)) (hh : HostAt (host ++ a) (.name host a))
    (hx : extract idna (buildTrie rules) e = .ok (r, some .invalidPort)) : ¬ GoodAfter a := by
  obtain ⟨sch, ui, a', part, hA, hH, hf⟩ := (C52_extract idna rules e r _).1 hx
  obtain ⟨rfl, rfl, rfl⟩ := Authority_unique hA h
  obtain rfl := (hostAt_iff.1 hH).symm.trans (hostAt_iff.1 hh)
  generalize hE : some Err.invalidPort = E at hf
  cases hf with
  | namePort hn => rintro ⟨port, path, hp⟩; exact hn _ _ hp
  | escape => cases hE
  | idna => cases hE
  | host _ _ h3 =>
    obtain ⟨first, rest, tail, ds, w, -, -, -, hj⟩ := h3
    cases hj <;> cases hE

/-- C28, exactly, for hosts without brackets: two URLs with the same host text give the same host fields and the same
error if and only if what follows the host is valid in both or in neither. -/
theorem C28_exact (idna : Idna) (rules : List Bytes) (e1 e2 : URLParams) {s1 u1 a1 s2 u2 a2 host : Bytes}
    {r1 r2 : ExtractResult} {err1 err2 : Option Err}
    (h1 : Authority e1.url s1 u1 (host ++ a1)) (g1 : HostAt (host ++ a1) (.name host a1))
    (h2 : Authority e2.url s2 u2 (host ++ a2)) (g2 : HostAt (host ++ a2) (.name host a2))
    (hi : e1.ignoreSubDomains = e2.ignoreSubDomains) (hc : e1.convertURLToPunyCode = e2.convertURLToPunyCode)
    (x1 : extract idna (buildTrie rules) e1 = .ok (r1, err1)) (x2 : extract idna (buildTrie rules) e2 = .ok (r2, err2)) :
    (SameHostFields r1 r2 ∧ err1 = err2) ↔ (GoodAfter a1 ↔ GoodAfter a2) := by
  have hp : IsPlainHost host := (scanSplit_name_iff.1 (hostAt_iff.1 g1)).2.1
  by_cases b1 : GoodAfter a1 <;> by_cases b2 : GoodAfter a2
  · obtain ⟨p1, q1, k1⟩ := b1
    obtain ⟨p2, q2, k2⟩ := b2
    obtain ⟨v, err, y1, y2⟩ := C28_host_independent_partial idna (buildTrie rules) e1 e2 hp h1 k1 h2 k2 hi hc
    rw [y1] at x1; rw [y2] at x2
    cases x1; cases x2
    exact ⟨fun _ => ⟨fun _ => ⟨_, _, k2⟩, fun _ => ⟨_, _, k1⟩⟩, fun _ => ⟨⟨rfl, rfl, rfl, rfl, rfl⟩, rfl⟩⟩
  · have y2 := extract_badAfter idna rules e2 h2 g2 b2
    rw [y2] at x2; cases x2
    refine ⟨fun h => ?_, fun h => absurd (h.1 b1) b2⟩
    obtain ⟨-, rfl⟩ := h
    exact absurd b1 (port_error idna rules e1 h1 g1 x1)
  · have y1 := extract_badAfter idna rules e1 h1 g1 b1
    rw [y1] at x1; cases x1
    refine ⟨fun h => ?_, fun h => absurd (h.2 b2) b1⟩
    obtain ⟨-, rfl⟩ := h
    exact absurd b2 (port_error idna rules e2 h2 g2 x2)
  · have y1 := extract_badAfter idna rules e1 h1 g1 b1
    have y2 := extract_badAfter idna rules e2 h2 g2 b2
    rw [y1] at x1; rw [y2] at x2
    cases x1; cases x2
    exact ⟨fun _ => ⟨fun h => absurd h b1, fun h => absurd h b2⟩, fun _ => ⟨⟨rfl, rfl, rfl, rfl, rfl⟩, rfl⟩⟩

/-- C28: a failure that is not the port's is the same failure in every other URL with that host, unless that has a bad
port; then this is reported. -/
theorem C28_failure (idna : Idna) (rules : List Bytes) (e1 e2 : URLParams) {s1 u1 a1 s2 u2 a2 host : Bytes}
    {r1 r2 : ExtractResult} {er : Err} {err2 : Option Err}
    (h1 : Authority e1.url s1 u1 (host ++ a1)) (g1 : HostAt (host ++ a1) (.name host a1))
    (h2 : Authority e2.url s2 u2 (host ++ a2)) (g2 : HostAt (host ++ a2) (.name host a2))
    (hi : e1.ignoreSubDomains = e2.ignoreSubDomains) (hc : e1.convertURLToPunyCode = e2.convertURLToPunyCode)
    (x1 : extract idna (buildTrie rules) e1 = .ok (r1, some er)) (hne : er ≠ .invalidPort)
    (x2 : extract idna (buildTrie rules) e2 = .ok (r2, err2)) :
    (GoodAfter a2 ∧ err2 = some er) ∨ (¬ GoodAfter a2 ∧ err2 = some .invalidPort) := by
  have b1 : GoodAfter a1 := by
    refine Classical.byContradiction fun hb => hne ?_
    have y1 := extract_badAfter idna rules e1 h1 g1 hb
    rw [y1] at x1; cases x1; rfl
  by_cases b2 : GoodAfter a2
  · exact .inl ⟨b2, ((C28_exact idna rules e1 e2 h1 g1 h2 g2 hi hc x1 x2).2 ⟨fun _ => b2, fun _ => b1⟩).2.symm⟩
  · have y2 := extract_badAfter idna rules e2 h2 g2 b2
    rw [y2] at x2; cases x2
    exact .inr ⟨b2, rfl⟩

/-- C28, hosts in brackets: the failure of the host is the same failure in every URL with that host, in full. -/
theorem C28_literal_failure (idna : Idna) (rules : List Bytes) (e1 e2 : URLParams) {s1 u1 a1 b1 s2 u2 a2 b2 inner : Bytes}
    {r1 r2 : ExtractResult} {err2 : Option Err}
    (h1 : Authority e1.url s1 u1 a1) (g1 : HostAt a1 (.literal inner b1))
    (h2 : Authority e2.url s2 u2 a2) (g2 : HostAt a2 (.literal inner b2))
    (x1 : extract idna (buildTrie rules) e1 = .ok (r1, some .invalidIPv6))
    (x2 : extract idna (buildTrie rules) e2 = .ok (r2, err2)) :
    err2 = some .invalidIPv6 ∧ SameHostFields r1 r2 := by
  obtain ⟨sch, ui, a', part, hA, hH, hf⟩ := (C52_extract idna rules e1 r1 _).1 x1
  obtain ⟨rfl, rfl, rfl⟩ := Authority_unique hA h1
  obtain rfl := (hostAt_iff.1 hH).symm.trans (hostAt_iff.1 g1)
  generalize hE : some Err.invalidIPv6 = E at hf
  cases hf with
  | notIPv6 h6 =>
    have y2 := (C52_extract idna rules e2 _ _).2 ⟨s2, u2, _, _, h2, g2, .notIPv6 h6⟩
    rw [y2] at x2; cases x2
    exact ⟨rfl, rfl, rfl, rfl, rfl, rfl⟩
  | trailing => cases hE
  | ipv6Port => cases hE
  | ipv6 => cases hE

example : extract idId exTrie { url := b! "http://u@a_.com/p" } =
      .ok ({ scheme := b! "http://", userInfo := b! "u", path := b! "/p" }, some .invalidCharacters) ∧
    extract idId exTrie { url := b! "a_.com:8" } = .ok ({ port := b! "8" }, some .invalidCharacters) ∧
    extract idId exTrie { url := b! "a_.com:x" } = .ok ({}, some .invalidPort) ∧
    extract idId exTrie { url := b! "[z]:x" } = .ok ({}, some .invalidIPv6) ∧
    extract idId exTrie { url := b! "u@[z]/p" } = .ok ({ userInfo := b! "u" }, some .invalidIPv6) := by decide +kernel

/-! ## C30 -/

/-- The rules that a marker before the lines `ts` would make private: those up to the next marker. -/
def upToMarker (ts : List Bytes) : List Bytes := ts.takeWhile (fun t => decide (t ≠ privateMarker))

theorem rulesOf_append (f : Bytes → Option Bytes) (a b : List Bytes) : rulesOf f (a ++ b) = rulesOf f a ++ rulesOf f b := by
  simp [rulesOf]

theorem rulesOf_marker (f : Bytes → Option Bytes) (a : List Bytes) : rulesOf f (privateMarker :: a) = rulesOf f a := by
  unfold rulesOf
  rw [List.filter_cons_of_neg (by decide +kernel)]

/-- C30, exactly: inserting the marker line changes the parsed lists if and only if there is no marker before it and a
rule after it, before the next marker. -/
theorem C30_exact (idna : Idna) {text text' : Bytes} {A B : List Bytes} (h : StrippedLines text (A ++ B))
    (h' : StrippedLines text' (A ++ privateMarker :: B)) :
    parsePSL idna text' = parsePSL idna text ↔
      privateMarker ∈ A ∨ rulesOf idna.toASCII (upToMarker B) = [] := by
  by_cases hA : privateMarker ∈ A
  · refine ⟨fun _ => .inl hA, fun _ => ?_⟩
    obtain ⟨bef, aft, ⟨h1, h2, h3⟩⟩ := sections_exists A
    obtain ⟨rest, rfl⟩ : ∃ rest, aft = privateMarker :: rest := by
      rcases h3 with rfl | h3
      · rw [h1, List.append_nil] at hA; exact absurd hA h2
      · exact h3
    rw [C29_parse_exact idna h (before := bef) (after := privateMarker :: rest ++ B) ⟨by rw [h1]; simp, h2, .inr ⟨_, rfl⟩⟩,
      C29_parse_exact idna h' (before := bef) (after := privateMarker :: rest ++ privateMarker :: B)
        ⟨by rw [h1]; simp, h2, .inr ⟨_, rfl⟩⟩]
    simp only [rulesOf_append, rulesOf_marker, List.cons_append]
  · simp only [hA, false_or]
    obtain ⟨bef, aft, ⟨h1, h2, h3⟩⟩ := sections_exists B
    have hup : upToMarker B = bef := by
      unfold upToMarker
      rw [h1]
      have hall : ∀ t ∈ bef, decide (t ≠ privateMarker) = true := by
        intro t ht
        simp only [decide_eq_true_eq]
        rintro rfl; exact h2 ht
      rcases h3 with rfl | ⟨rest, rfl⟩
      · have := List.takeWhile_append_of_pos hall (l₂ := [])
        simpa using this
      · rw [List.takeWhile_append_of_pos hall]; simp
    rw [hup, C29_parse_exact idna h (before := A ++ bef) (after := aft)
        ⟨by rw [h1]; simp, by simp [hA, h2], h3⟩,
      C29_parse_exact idna h' (before := A) (after := privateMarker :: B) ⟨rfl, hA, .inr ⟨_, rfl⟩⟩]
    have hB : rulesOf idna.toASCII B = rulesOf idna.toASCII bef ++ rulesOf idna.toASCII aft := by
      rw [h1, rulesOf_append]
    simp only [rulesOf_append, rulesOf_marker, hB]
    constructor
    · intro he
      have := congrArg Suffixes.publicSuffixes he
      simpa using this
    · intro he
      simp [he]

-- the marker matters between two rules; not after another marker, and not if only comments follow
example : let p := parsePSL ⟨some, some, some⟩
    p (b! "com\n// ===BEGIN PRIVATE DOMAINS===\nnet") ≠ p (b! "com\nnet") ∧
    p (b! "com\n// ===BEGIN PRIVATE DOMAINS===\n// ===BEGIN PRIVATE DOMAINS===\nnet") =
      p (b! "com\n// ===BEGIN PRIVATE DOMAINS===\nnet") ∧
    p (b! "com\n// ===BEGIN PRIVATE DOMAINS===\n// c\n") = p (b! "com\n// c\n") := by decide +kernel

/-! ## C33 -/

/-- C33 for one set: for every string and mode, exactly the maximal runs of trim characters are removed. -/
def TrimsExactly (set : List Nat) : Prop :=
  ∀ (s : Bytes) (mode : TrimMode) (t : Bytes),
    fastTrim s set mode = .ok t ↔ IsTrim (mode != .trimRight) (mode != .trimLeft) set s t

/-- C33, exactly: for sets of characters, U+FFFD is the only one that makes a difference. -/
theorem C33_exact (set : List Nat) (hset : ∀ r ∈ set, IsScalar r) : TrimsExactly set ↔ 0xFFFD ∉ set := by
  constructor
  · intro h hm
    have h1 : fastTrim [0xFF] set .trimBoth = .ok [] := by
      unfold fastTrim
      simp only [show rangeString [0xFF] = [(0, 0xFFFD)] by decide +kernel]
      have he : RuneSet.exists set 0xFFFD = true := by simpa [RuneSet.exists] using hm
      simp [trimLeftLoop, he]
    obtain ⟨a, b, he, ⟨ca, hca, rfl⟩, ⟨cb, hcb, rfl⟩, -⟩ := (h _ _ _).1 h1
    have key : ∀ c, IsScalar c → ∀ t, (0xFF : UInt8) :: t ≠ encode c := by
      intro c hc t he
      have h0 := congrArg (fun l => l.head?.map UInt8.toNat) he
      have h1 : c < 0x110000 := by unfold IsScalar at hc; omega
      unfold encode at h0
      simp only [List.head?_cons, Option.map_some] at h0
      split at h0
      · simp at h0; omega
      · split at h0
        · simp at h0; omega
        · split at h0
          · simp at h0; omega
          · simp at h0; omega
    cases ca with
    | nil =>
      cases cb with
      | nil => simp at he
      | cons c cs =>
        have hc := hset c (hcb c (by simp))
        cases hx : encode c with
        | nil => exact encode_ne_nil c hx
        | cons x t =>
          rw [List.flatMap_cons, hx] at he
          simp at he
          exact key c hc t (by rw [hx, he.1])
    | cons c cs =>
      have hc := hset c (hca c (by simp))
      cases hx : encode c with
      | nil => exact encode_ne_nil c hx
      | cons x t =>
        rw [List.flatMap_cons, hx] at he
        simp at he
        exact key c hc t (by rw [hx, he.1])
  · intro h s mode t
    have H := C33_fastTrim_exact_partial set (fun r hr => ⟨hset r hr, fun hc => h (hc ▸ hr)⟩) s mode
    refine ⟨fun ht => ?_, H.2 t⟩
    obtain ⟨t', h1, h2⟩ := H.1
    rw [h1] at ht
    cases ht
    exact h2

example : ∀ set ∈ [whiteSpace, separators], TrimsExactly set := by
  intro set hs
  refine (C33_exact set ?_).2 ?_ <;> revert set <;> decide +kernel

/-! ## C46 -/

/-- C46, exactly: the output has one line per component, one for the host type and an empty one, if and only if there are no
line breaks in the URL and the result. -/
theorem C46_exact (url : Bytes) (r : ExtractResult) :
    (textOf (printRes url r)).count 10 = 11 ↔ OneLiners url r := by
  rw [C46_text]
  cases r with
  | mk sc ui sub dom suf reg port path ht =>
    have h0 : ∀ b : Bytes, b.count 10 = 0 ↔ (10 : UInt8) ∉ b := fun b => List.count_eq_zero
    have hh : (hostTypeName ht).count 10 = 0 := by cases ht <;> decide +kernel
    simp only [resultLines, components, OneLiners, List.map_cons, List.map_nil, List.cons_append, List.nil_append,
      List.flatMap_cons, List.flatMap_nil, List.count_append, hh]
    have hcol : ∀ n ∈ [b! "url", b! "scheme", b! "userinfo", b! "subdomain", b! "domain", b! "suffix",
      b! "registered domain", b! "port", b! "path", b! "host type"], (column n).count 10 = 0 := by decide +kernel
    simp only [List.mem_cons, List.mem_nil_iff, or_false, forall_eq_or_imp, forall_eq] at hcol ⊢
    simp only [hcol, ← h0]
    simp
    omega

end Fasttld.Props
