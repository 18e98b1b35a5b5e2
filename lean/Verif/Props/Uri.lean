import Verif.Spec.Uri
import Verif.Props.Sharper
import Verif.Props.NetExact

/-!
# C75: Extract and RFC 3986

For every URI with an authority that the grammar of RFC 3986 allows (`Spec/Uri.lean`), the parts that Extract reports are
the components that the grammar gives it, and the host is judged as if it stood alone.
-/

set_option linter.unusedSimpArgs false

namespace Fasttld.Props
open Fasttld Fasttld.Spec

/-! ## Characters -/

theorem uriText_all {ok : UInt8 → Bool} {P : UInt8 → Prop} {t : Bytes} (h : UriText ok t) (h1 : ∀ c, ok c = true → P c)
    (h2 : P 37) (h3 : ∀ c, (hexDigit c).isSome = true → P c) : ∀ c ∈ t, P c := by
  induction h with
  | nil => intro c hc; simp at hc
  | char hc _ ih =>
    intro x hx
    rcases List.mem_cons.1 hx with rfl | hx
    · exact h1 _ hc
    · exact ih x hx
  | escape ha hb _ ih =>
    intro x hx
    rcases List.mem_cons.1 hx with rfl | hx
    · exact h2
    rcases List.mem_cons.1 hx with rfl | hx
    · exact h3 _ ha
    rcases List.mem_cons.1 hx with rfl | hx
    · exact h3 _ hb
    · exact ih x hx

/-- A character of a URI. -/
def uriByte (c : UInt8) : Bool := 33 ≤ c.toNat && c.toNat ≤ 126 && c != 92

theorem hex_plain (c : UInt8) : (hexDigit c).isSome = true →
    uriByte c = true ∧ isUserInfoStop c = false ∧ isHostEnd c = false ∧ c ≠ 64 ∧ c ≠ 91 ∧ c ≠ 93 :=
  forall_byte (P := fun c => (hexDigit c).isSome = true →
    uriByte c = true ∧ isUserInfoStop c = false ∧ isHostEnd c = false ∧ c ≠ 64 ∧ c ≠ 91 ∧ c ≠ 93) (by decide +kernel) c

theorem regName_byte {h : Bytes} (hr : IsRegName h) :
    ∀ c ∈ h, uriByte c = true ∧ isUserInfoStop c = false ∧ isHostEnd c = false ∧ c ≠ 64 ∧ c ≠ 91 ∧ c ≠ 93 :=
  uriText_all hr (forall_byte (by decide +kernel)) (by decide) hex_plain

theorem userInfo_byte {h : Bytes} (hr : IsUserInfo h) : ∀ c ∈ h, uriByte c = true ∧ isUserInfoStop c = false ∧ c ≠ 64 :=
  uriText_all hr (forall_byte (by decide +kernel)) (by decide) fun c hc =>
    ⟨(hex_plain c hc).1, (hex_plain c hc).2.1, (hex_plain c hc).2.2.2.1⟩

theorem uriPath_byte {p : Bytes} (hr : IsUriPath p) : ∀ c ∈ p, uriByte c = true :=
  uriText_all hr.1 (forall_byte (by decide +kernel)) (by decide) fun c hc => (hex_plain c hc).1

theorem uriQuery_byte {p : Bytes} (hr : IsUriQuery p) : ∀ c ∈ p, uriByte c = true :=
  uriText_all hr (forall_byte (by decide +kernel)) (by decide) fun c hc => (hex_plain c hc).1

theorem digit_byte (c : UInt8) : isDigit c = true →
    uriByte c = true ∧ isUserInfoStop c = false ∧ isPathStart c = false ∧ c ≠ 64 :=
  forall_byte (P := fun c => isDigit c = true →
    uriByte c = true ∧ isUserInfoStop c = false ∧ isPathStart c = false ∧ c ≠ 64) (by decide +kernel) c

theorem schemeName_byte {s : Bytes} (h : IsSchemeName s) : ∀ c ∈ s, uriByte c = true := by
  obtain ⟨c, r, rfl, hc, hr⟩ := h
  intro x hx
  rcases List.mem_cons.1 hx with rfl | hx
  · exact forall_byte (P := fun c => isLetter c = true → uriByte c = true) (by decide +kernel) _ hc
  · exact forall_byte (P := fun c => isSchemeChar c = true → uriByte c = true) (by decide +kernel) _ (hr x hx)

/-- Nothing is trimmed from a text of URI characters. -/
theorem isTrim_uri {t : Bytes} (h : ∀ c ∈ t, uriByte c = true) : IsTrim true true whiteSpace t t := by
  have key : ∀ r ∈ whiteSpace, ¬ (∀ c ∈ encode r, uriByte c = true) := by decide +kernel
  refine ⟨[], [], by simp, ⟨[], by simp, rfl⟩, ⟨[], by simp, rfl⟩, by simp, by simp, fun _ r hr hp => ?_, fun _ r hr hp => ?_⟩
  · exact key r hr fun c hc => h c (hp.subset hc)
  · exact key r hr fun c hc => h c (hp.subset hc)

/-! ## IP-literals -/

theorem isSlash_of_stop {c : UInt8} : isUserInfoStop c = false → isSlash c = false :=
  forall_byte (P := fun c => isUserInfoStop c = false → isSlash c = false) (by decide +kernel) c

theorem literal_byte {s : Bytes} (h : Rfc4291 s ∨ IsIPvFuture s) : ∀ c ∈ s, uriByte c = true ∧ isSlash c = false ∧ c ≠ 91 ∧ c ≠ 93 := by
  have hh : ∀ c : UInt8, (hexDigit c).isSome = true → uriByte c = true ∧ isSlash c = false ∧ c ≠ 91 ∧ c ≠ 93 := fun c hc =>
    ⟨(hex_plain c hc).1, isSlash_of_stop (hex_plain c hc).2.1, (hex_plain c hc).2.2.2.2⟩
  have hg : ∀ {g}, IsGroup4 g → ∀ c ∈ g, uriByte c = true ∧ isSlash c = false ∧ c ≠ 91 ∧ c ≠ 93 := fun hg c hc => hh c (hg.2.2 c hc)
  have ho : ∀ {d}, IsOctet d → ∀ c ∈ d, uriByte c = true ∧ isSlash c = false ∧ c ≠ 91 ∧ c ≠ 93 := by
    rintro d ⟨n, hn, rfl⟩
    revert n
    have : ∀ n < 256, ∀ c ∈ decimal n, uriByte c = true ∧ isSlash c = false ∧ c ≠ 91 ∧ c ≠ 93 := by decide +kernel
    exact fun n hn => this n (by omega)
  have hgs : ∀ {b n s}, Groups4 b n s → ∀ c ∈ s, uriByte c = true ∧ isSlash c = false ∧ c ≠ 91 ∧ c ≠ 93 := by
    intro b n s h
    induction h with
    | one h => exact hg h
    | quad _ h =>
      obtain ⟨a, b, c, d, h1, h2, h3, h4, rfl⟩ := h
      intro x hx
      simp only [List.mem_append, List.mem_cons] at hx
      rcases hx with hx | rfl | hx | rfl | hx | rfl | hx
      · exact ho h1 x hx
      · decide
      · exact ho h2 x hx
      · decide
      · exact ho h3 x hx
      · decide
      · exact ho h4 x hx
    | cons h _ ih =>
      intro x hx
      simp only [List.mem_append, List.mem_cons] at hx
      rcases hx with hx | rfl | hx
      · exact hg h x hx
      · decide
      · exact ih x hx
  rcases h with (h | ⟨l, r, n, m, h1, h2, -, rfl⟩) | ⟨v, x, y, rfl, hv, -, hx, -, hy⟩
  · exact hgs h
  · intro x hx
    simp only [List.mem_append, List.mem_cons] at hx
    rcases hx with hx | rfl | rfl | hx
    · rcases h1 with ⟨-, rfl⟩ | h1
      · simp at hx
      · exact hgs h1 x hx
    · decide
    · decide
    · rcases h2 with ⟨-, rfl⟩ | h2
      · simp at hx
      · exact hgs h2 x hx
  · intro c hc
    simp only [List.cons_append, List.mem_append, List.mem_cons] at hc
    rcases hc with rfl | hc | rfl | hc
    · rcases hv with rfl | rfl <;> decide
    · exact hh c (hx c hc)
    · decide
    · exact forall_byte (P := fun c => (isUnreserved c || isSubDelim c || c == 58) = true →
        uriByte c = true ∧ isSlash c = false ∧ c ≠ 91 ∧ c ≠ 93) (by decide +kernel) c (hy c hc)

theorem groups_first {quad : Bytes → Prop} {n : Nat} {s : Bytes} (h : Groups quad n s) :
    quad s ∨ ∃ c t, s = c :: t ∧ (hexDigit c).isSome = true := by
  have hg : ∀ {g}, IsGroup g → ∃ c t, g = c :: t ∧ (hexDigit c).isSome = true := by
    intro g hg
    cases g with
    | nil => exact absurd rfl hg.1
    | cons c t => exact ⟨c, t, rfl, hg.2.1 c (by simp)⟩
  cases h with
  | one h => exact .inr (hg h)
  | dotted h => exact .inl h
  | cons h _ =>
    obtain ⟨c, t, rfl, hc⟩ := hg h
    exact .inr ⟨c, _, rfl, hc⟩

theorem future_not_ipv6 {s : Bytes} (h : IsIPvFuture s) : ¬ IsIPv6 IsIPv4 s := by
  obtain ⟨v, x, y, rfl, hv, -, -, -, -⟩ := h
  have hn : ∀ c t, v :: x ++ 46 :: y = c :: t → (hexDigit c).isSome = true → False := by
    intro c t he hc
    simp only [List.cons_append, List.cons.injEq] at he
    obtain ⟨rfl, -⟩ := he
    rcases hv with rfl | rfl <;> exact absurd hc (by decide)
  have hq : ∀ t, ¬ IsIPv4 (v :: t) := by
    rintro t ⟨q, w, ⟨a, b, c, d, r1, r2, r3, ⟨n, hn, rfl⟩, -, -, -, -, -, -, rfl⟩, -, he⟩
    have : ∀ n < 256, ∃ c ∈ (decimal n).head?, c ≠ 118 ∧ c ≠ 86 := by decide +kernel
    obtain ⟨c, hc, h1, h2⟩ := this n (by omega)
    cases hd : decimal n with
    | nil => rw [hd] at hc; simp at hc
    | cons c' t' =>
      rw [hd] at hc he
      simp only [List.head?_cons, Option.mem_def, Option.some.injEq] at hc
      simp only [List.cons_append, List.cons.injEq] at he
      rcases hv with hv | hv
      · exact h1 (by rw [← hc, ← he.1, hv])
      · exact h2 (by rw [← hc, ← he.1, hv])
  rintro (h | ⟨l, r, n, m, h1, -, -, h⟩)
  · rcases groups_first h with h | ⟨c, t, he, hc⟩
    · exact hq _ h
    · exact hn c t he hc
  · rcases h1 with ⟨-, rfl⟩ | h1
    · simp only [List.cons_append, List.nil_append, List.cons.injEq] at h
      rcases hv with rfl | rfl <;> exact absurd h.1 (by decide)
    · rcases groups_first h1 with h' | ⟨c, t, rfl, hc⟩
      · exact h'
      · exact hn c _ h hc

/-! ## Where the components are -/

theorem led_byte {c : UInt8} (hc : uriByte c = true) {o : Option Bytes} (h : ∀ s, o = some s → ∀ x ∈ s, uriByte x = true) :
    ∀ x ∈ led c o, uriByte x = true := by
  cases o with
  | none => simp [led]
  | some s =>
    intro x hx
    rcases List.mem_cons.1 hx with rfl | hx
    · exact hc
    · exact h s rfl x hx

theorem uri_tail_byte {u : Uri} (h : u.Valid) : ∀ c ∈ u.tail, uriByte c = true := by
  intro c hc
  simp only [Uri.tail, List.mem_append] at hc
  rcases hc with (hc | hc) | hc
  · exact uriPath_byte h.path c hc
  · exact led_byte (by decide) (fun q hq => uriQuery_byte (h.query q hq)) c hc
  · exact led_byte (by decide) (fun q hq => uriQuery_byte (h.fragment q hq)) c hc

theorem uri_tail_head {u : Uri} (h : u.Valid) : u.tail = [] ∨ ∃ c t, u.tail = c :: t ∧ isPathStart c = true := by
  unfold Uri.tail
  rcases h.path.2 with hp | ⟨t, hp⟩
  · rw [hp]
    cases u.query with
    | some q => exact .inr ⟨63, _, rfl, by decide⟩
    | none =>
      cases u.fragment with
      | some f => exact .inr ⟨35, _, rfl, by decide⟩
      | none => exact .inl rfl
  · rw [hp]; exact .inr ⟨47, _, rfl, by decide⟩

theorem uri_host_byte {u : Uri} (h : u.Valid) : ∀ c ∈ u.host.text, uriByte c = true := by
  have hv := h.host
  cases hu : u.host with
  | regName s => rw [hu] at hv; exact fun c hc => (regName_byte hv c hc).1
  | ipv6 s =>
    rw [hu] at hv
    intro c hc
    simp only [UriHost.text, List.cons_append, List.mem_append, List.mem_cons, List.not_mem_nil, or_false] at hc
    rcases hc with rfl | hc | rfl
    · decide
    · exact (literal_byte (.inl hv) c hc).1
    · decide
  | ipvFuture s =>
    rw [hu] at hv
    intro c hc
    simp only [UriHost.text, List.cons_append, List.mem_append, List.mem_cons, List.not_mem_nil, or_false] at hc
    rcases hc with rfl | hc | rfl
    · decide
    · exact (literal_byte (.inr hv) c hc).1
    · decide

theorem uri_text_byte {u : Uri} (h : u.Valid) : ∀ c ∈ u.text, uriByte c = true := by
  intro c hc
  simp only [Uri.text, Uri.authority, List.mem_append] at hc
  rcases hc with ((hc | hc) | (hc | hc) | hc) | hc
  · exact schemeName_byte h.scheme c hc
  · revert c; decide
  · cases hu : u.userinfo with
    | none => rw [hu] at hc; simp at hc
    | some x =>
      rw [hu] at hc
      simp only [List.mem_append, List.mem_cons, List.not_mem_nil, or_false] at hc
      rcases hc with hc | rfl
      · exact (userInfo_byte (h.userinfo x hu) c hc).1
      · decide
  · exact uri_host_byte h c hc
  · exact led_byte (by decide) (fun p hp x hx => (digit_byte x (h.port p hp x hx)).1) c hc
  · exact uri_tail_byte h c hc

/-- Userinfo is looked for up to here: the host and the port, or nothing before a bracket. -/
theorem uri_zone {u : Uri} (h : u.Valid) :
    ∃ zone more, u.host.text ++ led 58 u.port ++ u.tail = zone ++ more ∧
      (∀ c ∈ zone, isUserInfoStop c = false ∧ c ≠ 64) ∧ (more = [] ∨ ∃ c t, more = c :: t ∧ isUserInfoStop c = true) := by
  have hv := h.host
  cases hu : u.host with
  | regName s =>
    rw [hu] at hv
    refine ⟨s ++ led 58 u.port, u.tail, rfl, ?_, ?_⟩
    · intro c hc
      rcases List.mem_append.1 hc with hc | hc
      · exact ⟨(regName_byte hv c hc).2.1, (regName_byte hv c hc).2.2.2.1⟩
      · cases hp : u.port with
        | none => rw [hp] at hc; simp [led] at hc
        | some p =>
          rw [hp] at hc
          rcases List.mem_cons.1 hc with rfl | hc
          · decide
          · have := digit_byte c (h.port p hp c hc)
            exact ⟨this.2.1, this.2.2.2⟩
    · rcases uri_tail_head h with ht | ⟨c, t, ht, hc⟩
      · exact .inl ht
      · exact .inr ⟨c, t, ht, by simp [isUserInfoStop, hc]⟩
  | ipv6 s => exact ⟨[], _, rfl, by simp, .inr ⟨91, _, rfl, by decide⟩⟩
  | ipvFuture s => exact ⟨[], _, rfl, by simp, .inr ⟨91, _, rfl, by decide⟩⟩

theorem uri_userInfo {u : Uri} (h : u.Valid) :
    UserInfoOf (u.authority ++ u.tail) (u.userinfo.getD []) (u.host.text ++ (led 58 u.port ++ u.tail)) := by
  obtain ⟨zone, more, he, hz, hm⟩ := uri_zone h
  cases hu : u.userinfo with
  | none =>
    refine ⟨zone, more, ⟨?_, fun c hc => (hz c hc).1, hm⟩, .inl ⟨fun hc => (hz _ hc).2 rfl, rfl, ?_⟩⟩
    · rw [← he]; simp [Uri.authority, hu]
    · simp [Uri.authority, hu]
  | some x =>
    have hx := userInfo_byte (h.userinfo x hu)
    refine ⟨x ++ 64 :: zone, more, ⟨?_, ?_, hm⟩, .inr ⟨zone, rfl, fun hc => (hz _ hc).2 rfl, ?_⟩⟩
    · rw [List.append_assoc, List.cons_append, ← he]; simp [Uri.authority, hu]
    · intro c hc
      rcases List.mem_append.1 hc with hc | hc
      · exact (hx c hc).2.1
      rcases List.mem_cons.1 hc with rfl | hc
      · decide
      · exact (hz c hc).1
    · rw [← he]; simp

/-- The slashes after the scheme end before the authority, unless that is empty and a path follows. -/
theorem uri_no_slash {u : Uri} (h : u.Valid) (ha : u.authority ≠ [] ∨ u.path = []) :
    (u.authority ++ u.tail).takeWhile isSlash = [] := by
  have key : ∀ c t, u.authority ++ u.tail = c :: t → isSlash c = false := by
    intro c t he
    by_cases hn : u.authority = []
    · rw [hn, List.nil_append] at he
      have hp := ha.resolve_left (fun h => h hn)
      unfold Uri.tail at he
      rw [hp, List.nil_append] at he
      cases hq : u.query with
      | some q => rw [hq] at he; simp only [led, List.cons_append, List.cons.injEq] at he; rw [← he.1]; decide
      | none =>
        rw [hq] at he
        cases hf : u.fragment with
        | some f => rw [hf] at he; simp only [led, List.nil_append, List.cons.injEq] at he; rw [← he.1]; decide
        | none => rw [hf] at he; simp [led] at he
    · have hb : ∀ c ∈ u.authority, isSlash c = false := by
        intro c hc
        simp only [Uri.authority, List.mem_append] at hc
        rcases hc with (hc | hc) | hc
        · cases hu : u.userinfo with
          | none => rw [hu] at hc; simp at hc
          | some x =>
            rw [hu] at hc
            simp only [List.mem_append, List.mem_cons, List.not_mem_nil, or_false] at hc
            rcases hc with hc | rfl
            · exact isSlash_of_stop (userInfo_byte (h.userinfo x hu) c hc).2.1
            · decide
        · have hv := h.host
          have hlit : ∀ s, (Rfc4291 s ∨ IsIPvFuture s) → c ∈ s → isSlash c = false := fun s hs hc =>
            (literal_byte hs c hc).2.1
          cases hu : u.host with
          | regName s => rw [hu] at hv hc; exact isSlash_of_stop (regName_byte hv c hc).2.1
          | ipv6 s =>
            rw [hu] at hv hc
            simp only [UriHost.text, List.cons_append, List.mem_append, List.mem_cons, List.not_mem_nil, or_false] at hc
            rcases hc with rfl | hc | rfl
            · decide
            · exact hlit s (.inl hv) hc
            · decide
          | ipvFuture s =>
            rw [hu] at hv hc
            simp only [UriHost.text, List.cons_append, List.mem_append, List.mem_cons, List.not_mem_nil, or_false] at hc
            rcases hc with rfl | hc | rfl
            · decide
            · exact hlit s (.inr hv) hc
            · decide
        · cases hp : u.port with
          | none => rw [hp] at hc; simp [led] at hc
          | some p =>
            rw [hp] at hc
            rcases List.mem_cons.1 hc with rfl | hc
            · decide
            · exact isSlash_of_stop (digit_byte c (h.port p hp c hc)).2.1
      cases hauth : u.authority with
      | nil => exact absurd hauth hn
      | cons x y =>
        rw [hauth, List.cons_append, List.cons.injEq] at he
        exact hb c (by rw [hauth, ← he.1]; simp)
  cases he : u.authority ++ u.tail with
  | nil => rfl
  | cons c t => rw [List.takeWhile_cons, key c t he]; rfl

theorem uri_authority {u : Uri} (h : u.Valid) (ha : u.authority ≠ [] ∨ u.path = []) :
    Authority u.text (u.scheme ++ [58, 47, 47]) (u.userinfo.getD []) (u.host.text ++ (led 58 u.port ++ u.tail)) := by
  refine ⟨u.text, u.authority ++ u.tail, isTrim_uri (uri_text_byte h), ?_, by simp [Uri.text], uri_userInfo h⟩
  rw [schemeOf_iff, Uri.text, List.append_assoc, schemeSplit_of_scheme, uri_no_slash h ha, List.append_nil]
  obtain ⟨c, r, hs, hc, hr⟩ := h.scheme
  exact ⟨u.scheme, [58], [47, 47], by simp, .inr ⟨⟨c, r, hs, hc, hr⟩, .inr rfl⟩, by decide, by decide⟩

theorem regName_authority {h : Bytes} (hr : IsRegName h) : Authority h [] [] h := by
  have hb := regName_byte hr
  refine ⟨h, h, isTrim_uri fun c hc => (hb c hc).1, .inl ⟨rfl, ?_⟩, rfl, h, [], ⟨by simp, fun c hc => (hb c hc).2.1, .inl rfl⟩,
    .inl ⟨fun hc => (hb _ hc).2.2.2.1 rfl, rfl, rfl⟩⟩
  rintro q ⟨name, colon, sl, rfl, -, hlen, hsl⟩ hp
  cases sl with
  | nil => simp at hlen
  | cons x sl =>
    have h1 := hsl x (by simp)
    rw [isSlash_of_stop (hb x (hp.subset (by simp))).2.1] at h1
    cases h1

/-- After the host: the port and the path, query and fragment of the grammar, if the port exists. -/
theorem uri_after {u : Uri} (h : u.Valid) (hp : u.PortExists) :
    AfterHost (led 58 u.port ++ u.tail) (u.port.getD []) u.tail := by
  refine ⟨uri_tail_head h, ?_⟩
  cases hu : u.port with
  | none => exact .inl ⟨rfl, rfl⟩
  | some p => exact .inr ⟨.inl ⟨(hp p hu).1, h.port p hu, (hp p hu).2⟩, rfl⟩

/-- Otherwise nothing that the library accepts. -/
theorem uri_after_bad {u : Uri} (h : u.Valid) (hp : ¬ u.PortExists) (port path : Bytes) :
    ¬ AfterHost (led 58 u.port ++ u.tail) port path := by
  rintro ⟨hq, hx⟩
  refine hp fun p hu => ?_
  rw [hu] at hx
  rcases hx with ⟨-, rfl⟩ | ⟨h1, h2⟩
  · rcases hq with hq | ⟨c, t, hq, hc⟩
    · simp [led] at hq
    · simp only [led, List.cons_append, List.cons.injEq] at hq
      rw [← hq.1] at hc
      exact absurd hc (by decide)
  · simp only [led, List.cons_append, List.cons.injEq, true_and] at h2
    obtain ⟨h3, -⟩ := cutAt_iff.1 (show CutAt isPathStart (p ++ u.tail) p u.tail from
      ⟨rfl, fun c hc => (digit_byte c (h.port p hu c hc)).2.2.1, uri_tail_head h⟩)
    obtain ⟨h4, -⟩ := cutAt_iff.1 (show CutAt isPathStart (p ++ u.tail) port path from
      ⟨h2, isPort_no_pathStart h1, hq⟩)
    obtain rfl : p = port := h3.trans h4.symm
    have hd := h.port p hu
    rcases h1 with h1 | ⟨q, rfl, -⟩ | ⟨q, rfl, -⟩
    · exact ⟨h1.1, h1.2.2⟩
    · exact absurd (hd 43 (by simp)) (by decide)
    · exact absurd (hd 45 (by simp)) (by decide)

theorem uri_literal_at {u : Uri} (h : u.Valid) {s : Bytes} (hs : Rfc4291 s ∨ IsIPvFuture s) :
    HostAt (91 :: s ++ [93] ++ (led 58 u.port ++ u.tail)) (.literal s (led 58 u.port ++ u.tail)) := by
  have hb := literal_byte hs
  have hl : ∀ c ∈ led 58 u.port, isPathStart c = false ∧ c ≠ 91 ∧ c ≠ 93 := by
    cases hp : u.port with
    | none => simp [led]
    | some p =>
      intro c hc
      rcases List.mem_cons.1 hc with rfl | hc
      · decide
      · exact forall_byte (P := fun c => isDigit c = true → isPathStart c = false ∧ c ≠ 91 ∧ c ≠ 93) (by decide +kernel) c
          (h.port p hp c hc)
  have := HostAt.literal (y := s) (z := led 58 u.port) (inner := s) (rest := led 58 u.port) (path := u.tail)
    (fun c hc => (hb c hc).2.2) (fun c hc => ⟨(hl c hc).1, (hl c hc).2.1⟩) rfl (fun hc => (hl _ hc).2.2 rfl) (by
      intro x t ht
      rcases uri_tail_head h with h0 | ⟨c, t', h0, hc⟩
      · rw [h0] at ht; cases ht
      · rw [h0, List.cons.injEq] at ht
        rw [← ht.1]; exact hc)
  simpa using this

theorem rfc4291_isIPv6 {s : Bytes} (h : Rfc4291 s) : IsIPv6 IsIPv4 s := by
  obtain ⟨b, h1, h2⟩ := isIPv6_eq s
  rw [((C13_exact s).1 h).1] at h1
  cases h1
  exact h2.1 rfl

/-! ## C75 -/

/-- C75: a URI of RFC 3986 whose host is a registered name (or an IPv4 address).  Scheme, UserInfo, Port and Path are the
components of the grammar; everything else, and the error, is what Extract says about the host alone. -/
theorem C75_regName (idna : Idna) (rules : List Bytes) (e : URLParams) {u : Uri} (h : u.Valid)
    (ha : u.authority ≠ [] ∨ u.path = []) (hp : u.PortExists) {host : Bytes} (hu : u.host = .regName host)
    {r : ExtractResult} {err : Option Err}
    (hx : extract idna (buildTrie rules) { e with url := host } = .ok (r, err)) :
    extract idna (buildTrie rules) { e with url := u.text } =
      .ok ({ r with scheme := u.scheme ++ b! "://", userInfo := u.userinfo.getD [], port := u.port.getD [],
                    path := u.tail }, err) := by
  have hv := h.host
  rw [hu] at hv
  have h1 := uri_authority h ha
  rw [hu] at h1
  have h2 : Authority host [] [] (host ++ []) := by rw [List.append_nil]; exact regName_authority hv
  obtain ⟨v, er, x1, x2⟩ := C28_host_independent_partial idna (buildTrie rules) { e with url := u.text } { e with url := host }
    (fun c hc => ⟨(regName_byte hv c hc).2.2.1, (regName_byte hv c hc).2.2.2.2⟩) h1 (uri_after h hp) h2
    (p2 := []) (q2 := []) ⟨.inl rfl, .inl ⟨rfl, rfl⟩⟩ rfl rfl
  rw [hx] at x2
  cases x2
  exact x1

/-- C75: a URI of RFC 3986 whose host is an IPv6 address is accepted, with the components of the grammar. -/
theorem C75_ipv6 (idna : Idna) (rules : List Bytes) (e : URLParams) {u : Uri} (h : u.Valid) (hp : u.PortExists)
    {s : Bytes} (hu : u.host = .ipv6 s) :
    extract idna (buildTrie rules) { e with url := u.text } =
      .ok ({ scheme := u.scheme ++ b! "://", userInfo := u.userinfo.getD [], hostType := .iPv6, domain := s,
             registeredDomain := s, port := u.port.getD [], path := u.tail }, none) := by
  have hv := h.host
  rw [hu] at hv
  have h1 := uri_authority h (.inl (by simp [Uri.authority, hu, UriHost.text]))
  rw [hu] at h1
  exact (C52_extract ..).2 ⟨_, _, _, _, h1, uri_literal_at h (.inl hv), .ipv6 (rfc4291_isIPv6 hv) (uri_after h hp)⟩

/-- C75: a host of a future version (RFC 3986, section 3.2.2) is rejected. -/
theorem C75_ipvFuture (idna : Idna) (rules : List Bytes) (e : URLParams) {u : Uri} (h : u.Valid)
    {s : Bytes} (hu : u.host = .ipvFuture s) :
    extract idna (buildTrie rules) { e with url := u.text } =
      .ok ({ scheme := u.scheme ++ b! "://", userInfo := u.userinfo.getD [] }, some .invalidIPv6) := by
  have hv := h.host
  rw [hu] at hv
  have h1 := uri_authority h (.inl (by simp [Uri.authority, hu, UriHost.text]))
  rw [hu] at h1
  exact (C52_extract ..).2 ⟨_, _, _, _, h1, uri_literal_at h (.inr hv), .notIPv6 (future_not_ipv6 hv)⟩

/-- C75: an empty port and one above 65535, which the grammar allows, are errors; Scheme and UserInfo are those of the
grammar nevertheless. -/
theorem C75_port (idna : Idna) (rules : List Bytes) (e : URLParams) {u : Uri} (h : u.Valid)
    (ha : u.authority ≠ [] ∨ u.path = []) (hp : ¬ u.PortExists) (hf : ∀ s, u.host ≠ .ipvFuture s) :
    ∃ r, extract idna (buildTrie rules) { e with url := u.text } = .ok (r, some .invalidPort) ∧
      r.scheme = u.scheme ++ b! "://" ∧ r.userInfo = u.userinfo.getD [] ∧ r.port = [] ∧ r.path = [] := by
  have hv := h.host
  have h1 := uri_authority h ha
  have hhead : ∀ x t, led 58 u.port ++ u.tail = x :: t → isHostEnd x = true := by
    intro x t hx
    cases hu : u.port with
    | none => exact absurd (fun p h => by rw [hu] at h; cases h) hp
    | some p => rw [hu] at hx; simp only [led, List.cons_append, List.cons.injEq] at hx; rw [← hx.1]; decide
  cases hu : u.host with
  | regName s =>
    rw [hu] at h1 hv
    exact ⟨_, (C52_extract ..).2 ⟨_, _, _, _, h1, .name (fun c hc => ⟨(regName_byte hv c hc).2.2.1,
      (regName_byte hv c hc).2.2.2.2⟩) hhead, .namePort (uri_after_bad h hp)⟩, rfl, rfl, rfl, rfl⟩
  | ipv6 s =>
    rw [hu] at h1 hv
    exact ⟨_, (C52_extract ..).2 ⟨_, _, _, _, h1, uri_literal_at h (.inl hv), .ipv6Port (rfc4291_isIPv6 hv) hhead
      (uri_after_bad h hp)⟩, rfl, rfl, rfl, rfl⟩
  | ipvFuture s => exact absurd hu (hf s)

/-- C75: if the authority is empty and a path follows, RFC 3986 sees no host; Extract takes the slash for part of the
scheme and the first segment of the path for the host. -/
theorem C75_empty_authority :
    (Uri.mk (b! "file") none (.regName []) none (b! "/etc.com/hosts") none none).text = b! "file:///etc.com/hosts" ∧
    extract idId exTrie { url := b! "file:///etc.com/hosts" } =
      .ok ({ scheme := b! "file:///", domain := b! "etc", suffix := b! "com", registeredDomain := b! "etc.com",
             path := b! "/hosts", hostType := .hostName }, none) := by decide +kernel

theorem uriText_of_all {ok : UInt8 → Bool} {t : Bytes} (h : ∀ c ∈ t, ok c = true) : UriText ok t := by
  induction t with
  | nil => exact .nil
  | cons c t ih => exact .char (h c (by simp)) (ih fun x hx => h x (by simp [hx]))

/-- The example of RFC 3986, section 3, with userinfo and another host. -/
def exUri : Uri :=
  { scheme := b! "foo", userinfo := some (b! "u:p"), host := .regName (b! "ex%41.co.uk"), port := some (b! "8042"),
    path := b! "/over/there", query := some (b! "name=ferret"), fragment := some (b! "nose?@") }

theorem exUri_valid : exUri.Valid where
  scheme := ⟨102, b! "oo", rfl, by decide, by decide⟩
  userinfo x hx := by cases hx; exact uriText_of_all (by decide)
  host := .char (by decide) (.char (by decide) (.escape (by decide) (by decide) (uriText_of_all (by decide))))
  port p hp := by cases hp; decide
  path := ⟨uriText_of_all (by decide), .inr ⟨_, rfl⟩⟩
  query q hq := by cases hq; exact uriText_of_all (by decide)
  fragment q hq := by cases hq; exact uriText_of_all (by decide)

theorem C75_example :
    exUri.Valid ∧ exUri.authority ≠ [] ∧ exUri.PortExists ∧
    exUri.text = b! "foo://u:p@ex%41.co.uk:8042/over/there?name=ferret#nose?@" ∧
    extract idId exTrie { url := exUri.text } =
      .ok ({ scheme := b! "foo://", userInfo := b! "u:p", domain := b! "ex%41", suffix := b! "co.uk",
             registeredDomain := b! "ex%41.co.uk", port := b! "8042", path := b! "/over/there?name=ferret#nose?@",
             hostType := .hostName }, none) ∧
    extract idId exTrie { url := b! "http://a.com:/" } = .ok ({ scheme := b! "http://" }, some .invalidPort) ∧
    extract idId exTrie { url := b! "http://a.com:65536" } = .ok ({ scheme := b! "http://" }, some .invalidPort) ∧
    extract idId exTrie { url := b! "http://[v1.a]/" } = .ok ({ scheme := b! "http://" }, some .invalidIPv6) ∧
    extract idId exTrie { url := b! "ldap://[2001:db8::7]/c=GB?objectClass?one" } =
      .ok ({ scheme := b! "ldap://", domain := b! "2001:db8::7", registeredDomain := b! "2001:db8::7",
             path := b! "/c=GB?objectClass?one", hostType := .iPv6 }, none) ∧
    extract idId exTrie { url := b! "http://u@:80?q" } =
      .ok ({ scheme := b! "http://", userInfo := b! "u", port := b! "80", path := b! "?q" }, some .emptyDomain) :=
  ⟨exUri_valid, by decide, by unfold Uri.PortExists; intro p hp; cases hp; decide, by decide +kernel, by decide +kernel,
    by decide +kernel⟩

end Fasttld.Props
