import Verif.Spec.Browser
import Verif.Props.Sharper
import Verif.Props.Lists

/-!
# C76: Extract and browsers

If Extract accepts a URL that a browser would open over HTTP, WebSocket or FTP, both see the same host, with one exception.
-/

set_option linter.unusedSimpArgs false

namespace Fasttld.Props
open Fasttld Fasttld.Spec

/-! ## Tabs and newlines in the host -/

theorem join_decodes {first : Bytes} {rest : List SepLabel} {tail un : Bytes} (hs : ∀ p ∈ rest, p.1 ∈ separators)
    (ht : MadeOf separators tail) (h : Decodes (joinLabels first rest ++ tail) un) :
    (∃ d, Decodes first d) ∧ ∀ p ∈ rest, ∃ d, Decodes p.2 d := by
  induction rest generalizing first un with
  | nil =>
    refine ⟨?_, by simp⟩
    obtain ⟨cs, hc, rfl⟩ := ht
    cases cs with
    | nil => exact ⟨un, by simpa [joinLabels] using h⟩
    | cons c cs =>
      simp only [joinLabels, List.flatMap_cons, ← List.append_assoc] at h
      obtain ⟨ra, -, h1, -⟩ := (decodes_sep (hc c (by simp)) ..).1 h
      exact ⟨ra, h1⟩
  | cons p rest ih =>
    obtain ⟨s, l⟩ := p
    rw [joinLabels, List.append_assoc] at h
    obtain ⟨ra, rb, h1, h2, -⟩ := (decodes_sep (hs (s, l) (by simp)) ..).1 h
    obtain ⟨h3, h4⟩ := ih (fun p hp => hs p (by simp [hp])) h2
    refine ⟨⟨ra, h1⟩, fun p hp => ?_⟩
    rcases List.mem_cons.1 hp with rfl | hp
    · exact h3
    · exact h4 p hp

theorem mem_intercalate {c : UInt8} {ls : List Bytes} {l : Bytes} (hl : l ∈ ls) (hc : c ∈ l) :
    c ∈ List.intercalate [46] ls := by
  induction ls with
  | nil => simp at hl
  | cons x ls ih =>
    cases ls with
    | nil =>
      obtain rfl : l = x := by simpa using hl
      simpa [List.intercalate] using hc
    | cons y ls =>
      have e : List.intercalate [46] (x :: y :: ls) = x ++ 46 :: List.intercalate [46] (y :: ls) := by
        simp [List.intercalate]
      rw [e]
      rcases List.mem_cons.1 hl with rfl | hl
      · simp [hc]
      · simp [ih hl]

/-- A byte that is not an invalid character of a host name, nor in any rule, is not in the text of an accepted host. -/
theorem accepted_free {idna : Idna} {rules : List Bytes} {e : URLParams} {r : ExtractResult} {host after n first : Bytes}
    {rest : List SepLabel} {tail : Bytes} {ds : List Bytes} {m seen cut : Nat} {mark : Option Nat}
    (H : Accepted idna rules e r host after n first rest tail ds m seen cut mark) {un : Bytes} (hun : Decodes n un)
    {c : UInt8} (hc : isTabOrNewline c = true) (hr : ∀ rule ∈ rules, c ∉ rule) : c ∉ n := by
  have hc3 : c = 9 ∨ c = 10 ∨ c = 13 := by simpa [isTabOrNewline, or_assoc] using hc
  have hne : c.toNat ∈ invalidChars ∧ c.toNat ∉ missedChars ∧ encode c.toNat = [c] := by
    rcases hc3 with rfl | rfl | rfl <;> decide +kernel
  have hself : ∀ x ∈ [c], x ≠ 37 ∧ x ≠ 43 ∧ hexDigit x = none := by
    intro x hx
    obtain rfl : x = c := by simpa using hx
    rcases hc3 with rfl | rfl | rfl <;> decide
  have hok : ∀ {t}, HostCharsOK t → c ∉ t := by
    intro t ht hm
    refine ht.2.2.2.2 _ hne.1 hne.2.1 ?_
    rw [hne.2.2]
    obtain ⟨a, b, rfl⟩ := List.append_of_mem hm
    exact ⟨a, b, by simp⟩
  have hsep : ∀ s ∈ separators, c ∉ encode s := by
    rcases hc3 with rfl | rfl | rfl <;> decide
  have hseen := stops_seen H.stops
  -- a matched label is a label of a rule
  have hmatched : ∀ a s l b, rest = a ++ (s, l) :: b → b.length < m → c ∉ l := by
    rintro a s l b rfl hb hcl
    obtain ⟨d, hd⟩ := (join_decodes (fun p hp => (H.shape.free.2 p hp).1) H.shape.tail (H.shape.text ▸ hun)).2 (s, l) (by simp)
    have hds : ds[b.length]? = some d := by
      rw [labelValues_iff.1 H.values, List.getElem?_map, fromRight_get, Option.map_some, unescapeOrEmpty_of hd]
    have hcd : c ∈ d := by
      have : [c] <:+: l := by
        obtain ⟨x, y, rfl⟩ := List.append_of_mem hcl
        exact ⟨x, y, by simp⟩
      exact (decodes_infix hself (by simp) hd this).subset (by simp)
    have hmem : d ∈ ds.take m := by
      rw [List.mem_take_iff_getElem]
      obtain ⟨hlt, he⟩ := List.getElem?_eq_some_iff.1 hds
      exact ⟨b.length, by omega, he⟩
    rcases H.follows.known with hk | ⟨q, hq, rule, hrule, hl⟩
    · rw [hk] at hmem; simp at hmem
    · refine hr rule hrule ?_
      rw [hl.2.2]
      exact mem_intercalate (by simpa using hq.subset hmem) hcd
  intro hcn
  obtain ⟨t, hch, hokt⟩ := H.checked
  have hjoin : ∀ (first : Bytes) (rest : List SepLabel), c ∈ joinLabels first rest →
      c ∈ first ∨ ∃ p ∈ rest, c ∈ encode p.1 ∨ c ∈ p.2 := by
    intro first rest
    induction rest generalizing first with
    | nil => intro h; exact .inl h
    | cons p rest ih =>
      obtain ⟨s, l⟩ := p
      intro h
      simp only [joinLabels, List.mem_append] at h
      rcases h with (h | h) | h
      · exact .inl h
      · exact .inr ⟨(s, l), by simp, .inl h⟩
      · rcases ih l h with h | ⟨p, hp, h⟩
        · exact .inr ⟨(s, l), by simp, .inr h⟩
        · exact .inr ⟨p, by simp [hp], h⟩
  have hlabel : c ∈ first ∨ ∃ p ∈ rest, c ∈ p.2 := by
    rw [H.shape.text, List.mem_append] at hcn
    rcases hcn with h | h
    · rcases hjoin _ _ h with h | ⟨p, hp, h | h⟩
      · exact .inl h
      · exact absurd h (hsep _ (H.shape.free.2 p hp).1)
      · exact .inr ⟨p, hp, h⟩
    · obtain ⟨cs, hcs, rfl⟩ := H.shape.tail
      obtain ⟨s, hs, h⟩ := List.mem_flatMap.1 h
      exact absurd h (hsep s (hcs s hs))
  have htext : ∀ k, k ≤ m → HostCharsOK (textTo first rest k) → False := by
    intro k hk hko
    rcases hlabel with h | ⟨⟨s, l⟩, hp, h⟩
    · exact hok hko ((infix_textTo_first k).subset h)
    · obtain ⟨a, b, rfl⟩ := List.append_of_mem hp
      rcases Nat.lt_or_ge b.length m with hlt | hge
      · exact hmatched a s l b rfl hlt h
      · exact hok hko ((infix_textTo (by omega)).subset h)
  cases hch with
  | noSuffix => exact htext seen hseen.1 hokt
  | suffix => exact htext m (Nat.le_refl _) hokt
  | suffixOnly => exact hok hokt hcn

/-! ## The bytes of addresses and ports -/

theorem ipv4_bytes_all {P : UInt8 → Prop} (hx : ∀ c, (hexDigit c).isSome = true → P c)
    (hs : ∀ r ∈ separators, ∀ c ∈ encode r, P c) {s : Bytes} (h : IsIPv4 s) : ∀ c ∈ s, P c := by
  have hd : ∀ c : UInt8, isDigit c = true → (hexDigit c).isSome = true := fun c =>
    forall_byte (P := fun c => isDigit c = true → (hexDigit c).isSome = true) (by decide +kernel) c
  have ho : ∀ o, IsOctet o → ∀ c ∈ o, P c := by
    intro o ho c hc
    rw [isOctet_iff] at ho
    exact hx c (hd c (ho.2.1 c hc))
  obtain ⟨q, t, ⟨a, b, c, d, r1, r2, r3, ha, hb, hc, hd, h1, h2, h3, rfl⟩, ⟨cs, hcs, rfl⟩, rfl⟩ := h
  intro x hx
  simp only [List.mem_append, List.mem_flatMap] at hx
  rcases hx with ((((((hx | hx) | hx) | hx) | hx) | hx) | hx) | ⟨r, hr, hx⟩
  · exact ho _ ha x hx
  · exact hs _ h1 x hx
  · exact ho _ hb x hx
  · exact hs _ h2 x hx
  · exact ho _ hc x hx
  · exact hs _ h3 x hx
  · exact ho _ hd x hx
  · exact hs r (hcs r hr) x hx

theorem groups_bytes_all {P : UInt8 → Prop} (hx : ∀ c, (hexDigit c).isSome = true → P c) (h58 : P 58) {quad : Bytes → Prop}
    (hq : ∀ q, quad q → ∀ c ∈ q, P c) {n : Nat} {s : Bytes} (h : Groups quad n s) : ∀ c ∈ s, P c := by
  induction h with
  | one h => exact fun c hc => hx c (h.2.1 c hc)
  | dotted h => exact hq _ h
  | cons h _ ih =>
    intro c hc
    rcases List.mem_append.1 hc with hc | hc
    · exact hx c (h.2.1 c hc)
    · rcases List.mem_cons.1 hc with rfl | hc
      · exact h58
      · exact ih c hc

theorem ipv6_bytes_all {P : UInt8 → Prop} (hx : ∀ c, (hexDigit c).isSome = true → P c) (h58 : P 58)
    (hs : ∀ r ∈ separators, ∀ c ∈ encode r, P c) {s : Bytes} (h : IsIPv6 IsIPv4 s) : ∀ c ∈ s, P c := by
  rcases h with h | ⟨l, r, n, m, hl, hr, -, rfl⟩
  · exact groups_bytes_all hx h58 (fun q hq => ipv4_bytes_all hx hs hq) h
  · intro c hc
    simp only [List.mem_append, List.mem_cons] at hc
    rcases hc with hc | rfl | rfl | hc
    · rcases hl with ⟨-, rfl⟩ | hl
      · simp at hc
      · exact groups_bytes_all hx h58 (fun q hq => hq.elim) hl c hc
    · exact h58
    · exact h58
    · rcases hr with ⟨-, rfl⟩ | hr
      · simp at hc
      · exact groups_bytes_all hx h58 (fun q hq => ipv4_bytes_all hx hs hq) hr c hc

theorem port_bytes_all {P : UInt8 → Prop} (hd : ∀ c, isDigit c = true → P c) (h43 : P 43) (h45 : P 45) {p : Bytes}
    (h : IsPort p) : ∀ c ∈ p, P c := by
  intro c hc
  rcases h with h | ⟨q, rfl, h⟩ | ⟨q, rfl, h, -⟩
  · exact hd c (h.2.1 c hc)
  · rcases List.mem_cons.1 hc with rfl | hc
    · exact h43
    · exact hd c (h.2.1 c hc)
  · rcases List.mem_cons.1 hc with rfl | hc
    · exact h45
    · exact hd c (h.2.1 c hc)

/-- A byte that a browser leaves in the host. -/
def keptByte (c : UInt8) : Bool := !isPathStart c && c != 64 && !isTabOrNewline c

theorem keptByte_iff {c : UInt8} : keptByte c = true ↔ isPathStart c = false ∧ c ≠ 64 ∧ isTabOrNewline c = false := by
  simp [keptByte, and_assoc]

theorem kept_hex (c : UInt8) : (hexDigit c).isSome = true → keptByte c = true :=
  forall_byte (P := fun c => (hexDigit c).isSome = true → keptByte c = true) (by decide +kernel) c
theorem kept_sep : ∀ r ∈ separators, ∀ c ∈ encode r, keptByte c = true := by decide

theorem port_kept {p : Bytes} (h : IsPort p) :
    ∀ c ∈ p, keptByte c = true ∧ isUserInfoStop c = false ∧ c ≠ 64 ∧ isSlash c = false :=
  port_bytes_all (forall_byte (by decide +kernel)) (by decide) (by decide) h

/-! ## What Extract makes of a URL that it accepts -/

/-- No host name without text is accepted. -/
theorem hostShape_empty {first tail : Bytes} {rest : List SepLabel} (h : HostShape [] first rest tail) :
    first = [] ∧ rest = [] := by
  have ht := h.text
  cases rest with
  | nil =>
    rw [joinLabels] at ht
    exact ⟨(List.append_eq_nil_iff.1 ht.symm).1, rfl⟩
  | cons p rest =>
    obtain ⟨s, l⟩ := p
    have := congrArg List.length ht
    simp only [joinLabels, List.length_append, List.length_nil] at this
    have h1 := encode_ne_nil s
    cases he : encode s with
    | nil => exact absurd he h1
    | cons => rw [he] at this; simp at this; omega

/-- The host of an accepted URL, if it is a name, has no tab and no newline. -/
theorem name_kept {idna : Idna} {rules : List Bytes} {e : URLParams} {r : ExtractResult} {host after : Bytes} {sch ui : Bytes}
    (hx : extract idna (buildTrie rules) e = .ok (r, none))
    (hA : Authority e.url sch ui (host ++ after)) (hat : HostAt (host ++ after) (.name host after))
    (hr : ∀ rule ∈ rules, ∀ c ∈ rule, isTabOrNewline c = false)
    (hi : e.convertURLToPunyCode = true → ∀ un x, idna.lookupASCII un = some x → ∀ c ∈ un, isTabOrNewline c = false) :
    ∀ c ∈ host, isTabOrNewline c = false := by
  obtain ⟨sch', ui', a', part, hA', hat', hf⟩ := (C52_extract idna rules e r none).1 hx
  obtain ⟨rfl, rfl, rfl⟩ := Authority_unique hA hA'
  obtain rfl := (hostAt_iff.1 hat).symm.trans (hostAt_iff.1 hat')
  generalize hE : (none : Option Err) = E at hf
  cases hf with
  | namePort => cases hE
  | escape => cases hE
  | idna => cases hE
  | @host _ _ port path n r' _ haf htx hres =>
    subst hE
    have hn : n ≠ [] := by
      rintro rfl
      obtain ⟨first, rest, tail, ds, w, hsh, -, -, hj⟩ := hres
      obtain ⟨rfl, rfl⟩ := hostShape_empty hsh
      generalize hE : (none : Option Err) = E at hj
      cases hj with
      | consecutive => cases hE
      | invalid => cases hE
      | noDomain => cases hE
      | ipv4 h4 =>
        have := (ipv4_head_ne h4)
        exact this (by decide +kernel)
      | @name w _ _ _ _ _ _ _ _ hp hd =>
        generalize w.mark = mark at hp
        generalize w.cut = cut at hp
        cases hp with
        | noSuffix h =>
          rcases h with ⟨-, rfl, -⟩ | ⟨f, s, l, h, -⟩
          · exact hd rfl
          · simp at h
        | suffix h => simp at h
        | suffixOnly => exact hd rfl
    obtain ⟨un, hun, ⟨hp, -, rfl⟩ | ⟨hp, rfl⟩⟩ := htx
    · obtain ⟨first, rest, tail, ds, w, hsh, hlv, hrd, hj⟩ := hres
      by_cases ht : r'.hostType = .hostName
      · obtain ⟨host', after', n', first', rest', tail', ds', m, seen, cut, mark, H⟩ := accepted hx ht
        obtain ⟨-, -, he⟩ := Authority_unique H.authority hA
        obtain ⟨rfl, -⟩ : host' = n ∧ after' = after := by
          have h1 : HostAt (host' ++ after') (.name host' after') := .name H.plain (afterHost_head H.after)
          rw [he] at h1
          have := (hostAt_iff.1 h1).symm.trans (hostAt_iff.1 hat)
          simpa using this
        have hn' : n' = host' := by
          obtain ⟨un', -, ⟨-, -, h⟩ | ⟨h, -⟩⟩ := H.text
          · exact h
          · rw [hp] at h; cases h
        subst hn'
        intro c hc
        refine Classical.byContradiction fun hb => ?_
        refine accepted_free H hun (by simpa using hb) (fun rule hrule hm => hb (hr rule hrule c hm)) hc
      · generalize hE : (none : Option Err) = E at hj
        cases hj with
        | consecutive => cases hE
        | invalid => cases hE
        | noDomain => cases hE
        | ipv4 h4 => exact fun c hc => (keptByte_iff.1 (ipv4_bytes_all kept_hex kept_sep h4 c hc)).2.2
        | name => exact absurd rfl ht
    · cases hl : idna.lookupASCII un with
      | none => rw [hl] at hn; exact absurd rfl hn
      | some x =>
        have hu := hi hp un x hl
        intro c hc
        refine Classical.byContradiction fun hb => hb (hu c ?_)
        have h1 : [c] <:+: host := by
          obtain ⟨x, y, rfl⟩ := List.append_of_mem hc
          exact ⟨x, y, by simp⟩
        have hc3 : c = 9 ∨ c = 10 ∨ c = 13 := by
          have hb : isTabOrNewline c = true := by simpa using hb
          simpa only [isTabOrNewline, Bool.or_eq_true, beq_iff_eq, or_assoc] using hb
        refine (decodes_infix ?_ (by simp) hun h1).subset (by simp)
        intro y hy
        obtain rfl : y = c := by simpa using hy
        rcases hc3 with rfl | rfl | rfl <;> decide

theorem upToColon_plain {h t : Bytes} (hh : ∀ c ∈ h, c ≠ 58 ∧ c ≠ 91 ∧ c ≠ 93) (ht : t = [] ∨ ∃ x, t = 58 :: x) :
    UpToColon false (h ++ t) h := by
  induction h with
  | nil =>
    rcases ht with rfl | ⟨x, rfl⟩
    · exact .nil
    · exact .colon
  | cons c h ih =>
    have := hh c (by simp)
    exact .char this.2.1 this.2.2 (fun h => absurd h this.1) (ih fun x hx => hh x (by simp [hx]))

theorem upToColon_inside {h t r : Bytes} (hh : ∀ c ∈ h, c ≠ 91 ∧ c ≠ 93) (ht : UpToColon false t r) :
    UpToColon true (h ++ 93 :: t) (h ++ 93 :: r) := by
  induction h with
  | nil => exact .close ht
  | cons c h ih =>
    have := hh c (by simp)
    exact .char this.1 this.2 (fun _ => rfl) (ih fun x hx => hh x (by simp [hx]))

theorem upToColon_unique {b : Bool} {s h h' : Bytes} (h1 : UpToColon b s h) (h2 : UpToColon b s h') : h = h' := by
  induction h1 generalizing h' with
  | nil => cases h2; rfl
  | colon =>
    cases h2 with
    | colon => rfl
    | char _ _ h => exact absurd (h rfl) (by simp)
  | «open» _ ih =>
    cases h2 with
    | «open» h => rw [ih h]
    | char h => exact absurd rfl h
  | close _ ih =>
    cases h2 with
    | close h => rw [ih h]
    | char _ h => exact absurd rfl h
  | char n1 n2 n3 _ ih =>
    cases h2 with
    | colon => exact absurd (n3 rfl) (by simp)
    | «open» => exact absurd rfl n1
    | close => exact absurd rfl n2
    | char _ _ _ h => rw [ih h]

/-- The URL without surrounding white space, cut into scheme, userinfo with `@`, host, port with `:`, and path. -/
structure CutUp (idna : Idna) (rules : List Bytes) (e : URLParams) (r : ExtractResult) (t cred host port : Bytes) : Prop where
  trim : IsTrim true true whiteSpace e.url t
  scheme : SchemeOf t r.scheme
  text : t = r.scheme ++ (cred ++ (host ++ port ++ r.path))
  judged : JudgedHost idna rules e r host
  creds : (cred = [] ∧ r.userInfo = []) ∨ cred = r.userInfo ++ [64]
  userInfo : ∀ c ∈ r.userInfo, isUserInfoStop c = false
  kept : ∀ c ∈ host ++ port, keptByte c = true
  ports : (port = [] ∧ r.port = []) ∨ (port = 58 :: r.port ∧ IsPort r.port)
  path : r.path = [] ∨ ∃ c x, r.path = c :: x ∧ isPathStart c = true
  upTo : UpToColon false (host ++ port) host
  brackets : (∀ c ∈ host, c ≠ 58) ∨ ∃ x, host = 91 :: x

theorem cutUp {idna : Idna} {rules : List Bytes} {e : URLParams} {r : ExtractResult}
    (hx : extract idna (buildTrie rules) e = .ok (r, none))
    (hr : ∀ rule ∈ rules, ∀ c ∈ rule, isTabOrNewline c = false)
    (hi : e.convertURLToPunyCode = true → ∀ un x, idna.lookupASCII un = some x → ∀ c ∈ un, isTabOrNewline c = false) :
    ∃ t cred host port, CutUp idna rules e r t cred host port := by
  obtain ⟨sch, ui, a, part, hA, hat, hf⟩ := (C52_extract idna rules e r none).1 hx
  obtain ⟨a', hA'⟩ := result_authority idna (buildTrie rules) e hx
  obtain ⟨rfl, rfl, rfl⟩ := Authority_unique hA hA'
  obtain ⟨t, rest, ht, hs, he, zone, more, hz, hu⟩ := hA
  have hcred : ∃ cred, rest = cred ++ a ∧ ((cred = [] ∧ r.userInfo = []) ∨ cred = r.userInfo ++ [64]) ∧
      (∀ c ∈ r.userInfo, isUserInfoStop c = false) ∧ ∃ y, CutAt isUserInfoStop a y more ∧ 64 ∉ y := by
    rcases hu with ⟨h1, h2, rfl⟩ | ⟨y, rfl, h1, rfl⟩
    · exact ⟨[], rfl, .inl ⟨rfl, h2⟩, by rw [h2]; simp, zone, hz, h1⟩
    · refine ⟨r.userInfo ++ [64], by rw [hz.1]; simp, .inr rfl, fun c hc => hz.2.1 c (by simp [hc]), y,
        ⟨rfl, fun c hc => hz.2.1 c (by simp [hc]), hz.2.2⟩, h1⟩
  obtain ⟨cred, rfl, hc1, hc2, y, hy, h64⟩ := hcred
  have hJ : ∀ htext, part.text = htext → JudgedHost idna rules e r htext := fun htext h => ⟨a, part, hA', hat, h, hf⟩
  have hfin : ∃ host port, a = host ++ port ++ r.path ∧ part.text = host ∧ (∀ c ∈ host ++ port, keptByte c = true) ∧
      ((port = [] ∧ r.port = []) ∨ (port = 58 :: r.port ∧ IsPort r.port)) ∧
      (r.path = [] ∨ ∃ c x, r.path = c :: x ∧ isPathStart c = true) ∧ UpToColon false (host ++ port) host ∧
      ((∀ c ∈ host, c ≠ 58) ∨ ∃ x, host = 91 :: x) := by
    have hpp : ∀ after, AfterHost after r.port r.path → ∃ port, after = port ++ r.path ∧
        ((port = [] ∧ r.port = []) ∨ (port = 58 :: r.port ∧ IsPort r.port)) := by
      rintro after ⟨-, ⟨h1, h2⟩ | ⟨h1, h2⟩⟩
      · exact ⟨[], by rw [h2]; rfl, .inl ⟨rfl, h1⟩⟩
      · exact ⟨58 :: r.port, h2, .inr ⟨rfl, h1⟩⟩
    have hpb : ∀ {port}, ((port = [] ∧ r.port = []) ∨ (port = 58 :: r.port ∧ IsPort r.port)) → ∀ c ∈ port,
        keptByte c = true ∧ isUserInfoStop c = false := by
      rintro port (⟨rfl, -⟩ | ⟨rfl, h⟩) c hc
      · simp at hc
      · rcases List.mem_cons.1 hc with rfl | hc
        · decide
        · exact ⟨(port_kept h c hc).1, (port_kept h c hc).2.1⟩
    have hp58 : ∀ {port}, ((port = [] ∧ r.port = []) ∨ (port = 58 :: r.port ∧ IsPort r.port)) →
        port = [] ∨ ∃ x, port = 58 :: x := by
      rintro port (⟨rfl, -⟩ | ⟨rfl, h⟩)
      · exact .inl rfl
      · exact .inr ⟨_, rfl⟩
    have key : (∃ inner after, part = .literal inner after ∧ IsIPv6 IsIPv4 inner ∧ AfterHost after r.port r.path) ∨
        ∃ host after, part = .name host after ∧ AfterHost after r.port r.path := by
      generalize hE : (none : Option Err) = E at hf
      generalize hS : r.scheme = S at hf
      generalize hU : r.userInfo = U at hf
      cases hf with
      | brackets => cases hE
      | notIPv6 => cases hE
      | trailing => cases hE
      | ipv6Port => cases hE
      | ipv6 h1 h2 => exact .inl ⟨_, _, rfl, h1, h2⟩
      | namePort => cases hE
      | escape => cases hE
      | idna => cases hE
      | host h1 => exact .inr ⟨_, _, rfl, h1⟩
    rcases key with ⟨inner, after, rfl, h6, haf⟩ | ⟨host, after, rfl, haf⟩
    · obtain ⟨port, rfl, hport⟩ := hpp after haf
      have hb := isIPv6_no_brackets h6
      have ha := ((scanSplit_literal_iff hb).1 (hostAt_iff.1 hat)).1
      refine ⟨91 :: inner ++ [93], port, by rw [ha]; simp, rfl, ?_, hport, haf.1, ?_, .inr ⟨_, rfl⟩⟩
      · intro c hc
        simp only [List.cons_append, List.mem_append, List.mem_cons, List.append_assoc, List.nil_append] at hc
        rcases hc with rfl | hc | rfl | hc
        · decide
        · exact ipv6_bytes_all kept_hex (by decide) kept_sep h6 c hc
        · decide
        · exact (hpb hport c hc).1
      · have h1 : UpToColon false port [] := by
          have := upToColon_plain (h := []) (t := port) (by simp) (hp58 hport)
          exact this
        have := UpToColon.open (inside := false) (upToColon_inside (h := inner)
          (fun c hc => ⟨fun h => hb.1 (h ▸ hc), fun h => hb.2 (h ▸ hc)⟩) h1)
        simpa using this
    · obtain ⟨port, rfl, hport⟩ := hpp after haf
      obtain ⟨rfl, hpl, -⟩ := scanSplit_name_iff.1 (hostAt_iff.1 hat)
      have hn := name_kept hx hA' hat hr hi
      have hyy : y = host ++ port := by
        obtain ⟨h1, -⟩ := cutAt_iff.1 hy
        obtain ⟨h2, -⟩ := cutAt_iff.1 (show CutAt isUserInfoStop (host ++ (port ++ r.path)) (host ++ port) r.path from
          ⟨by simp, fun c hc => by
            rcases List.mem_append.1 hc with hc | hc
            · have := hpl c hc
              simp [isUserInfoStop, isHostEnd] at this ⊢
              exact ⟨⟨this.1.1, this.2.1⟩, this.2.2⟩
            · exact (hpb hport c hc).2, by
            rcases haf.1 with h | ⟨c, x, h, hc⟩
            · exact .inl h
            · exact .inr ⟨c, x, h, by simp [isUserInfoStop, hc]⟩⟩)
        exact h1.trans h2.symm
      have hpl58 : ∀ c ∈ host, c ≠ 58 ∧ c ≠ 91 ∧ c ≠ 93 := by
        intro c hc
        have := hpl c hc
        refine ⟨?_, this.2⟩
        rintro rfl
        exact absurd this.1 (by decide)
      refine ⟨host, port, by simp, rfl, ?_, hport, haf.1, upToColon_plain hpl58 (hp58 hport), .inl fun c hc => (hpl58 c hc).1⟩
      intro c hc
      rcases List.mem_append.1 hc with hc | hc
      · refine keptByte_iff.2 ⟨?_, ?_, hn c hc⟩
        · have := (hpl c hc).1
          simp [isHostEnd] at this
          exact this.1
        · rintro rfl
          exact h64 (by rw [hyy]; simp [hc])
      · exact (hpb hport c hc).1
  obtain ⟨host, port, rfl, h2, h3, h4, h5, h6, h7⟩ := hfin
  exact ⟨t, cred, host, port, ht, hs, he, hJ _ h2, hc1, hc2, h3, h4, h5, h6, h7⟩

/-! ## C76 -/

theorem special_letters {name : Bytes} (h : name.map lowerByte ∈ specialSchemes) :
    name ≠ [] ∧ ∀ c ∈ name, isLetter c = true := by
  have h1 : ∀ s ∈ specialSchemes, s ≠ [] ∧ ∀ c ∈ s, 97 ≤ c.toNat ∧ c.toNat ≤ 122 := by decide
  obtain ⟨h2, h3⟩ := h1 _ h
  refine ⟨fun h => h2 (by simp [h]), fun c hc => ?_⟩
  exact forall_byte (P := fun c => 97 ≤ (lowerByte c).toNat ∧ (lowerByte c).toNat ≤ 122 → isLetter c = true)
    (by decide +kernel) c (h3 _ (List.mem_map_of_mem hc))

theorem letter_byte (c : UInt8) : isLetter c = true →
    isSchemeChar c = true ∧ isHostEnd c = false ∧ c ≠ 58 ∧ c ≠ 64 ∧ c ≠ 91 ∧ isSlash c = false :=
  forall_byte (P := fun c => isLetter c = true →
    isSchemeChar c = true ∧ isHostEnd c = false ∧ c ≠ 58 ∧ c ≠ 64 ∧ c ≠ 91 ∧ isSlash c = false) (by decide +kernel) c

theorem cut_unique {stop : UInt8 → Bool} {s l r l' r' : Bytes} (h : CutAt stop s l r) (h' : CutAt stop s l' r') :
    l = l' ∧ r = r' := by
  obtain ⟨h1, h2⟩ := cutAt_iff.1 h
  obtain ⟨h3, h4⟩ := cutAt_iff.1 h'
  exact ⟨h1.trans h3.symm, h2.trans h4.symm⟩

/-- A browser finds the host after the credentials. -/
theorem browser_rest {cred host port path auth more hostPort host' : Bytes}
    (hc : cred = [] ∨ ∃ x, cred = x ++ [64]) (hcs : ∀ c ∈ cred, isPathStart c = false)
    (hk : ∀ c ∈ host ++ port, keptByte c = true) (hp : path = [] ∨ ∃ c x, path = c :: x ∧ isPathStart c = true)
    (hu : UpToColon false (host ++ port) host)
    (h1 : CutAt isPathStart (cred ++ (host ++ port ++ path)) auth more)
    (h2 : (64 ∉ auth ∧ hostPort = auth) ∨ ∃ cred, auth = cred ++ 64 :: hostPort ∧ 64 ∉ hostPort)
    (h3 : UpToColon false hostPort host') : host' = host := by
  have h64 : 64 ∉ host ++ port := fun h => (keptByte_iff.1 (hk _ h)).2.1 rfl
  obtain ⟨rfl, rfl⟩ := cut_unique h1 (show CutAt isPathStart _ (cred ++ (host ++ port)) path from
    ⟨by simp, fun c hc => by
      rcases List.mem_append.1 hc with hc | hc
      · exact hcs c hc
      · exact (keptByte_iff.1 (hk c hc)).1, hp⟩)
  have : hostPort = host ++ port := by
    rcases hc with rfl | ⟨x, rfl⟩
    · rcases h2 with ⟨-, h⟩ | ⟨y, h, -⟩
      · simpa using h
      · exact absurd (by rw [List.nil_append] at h; rw [h]; simp) h64
    · rcases h2 with ⟨h, -⟩ | ⟨y, h, h'⟩
      · exact absurd (by simp) h
      · have e1 : splitLastByte 64 (x ++ [64] ++ (host ++ port)) = some (x, host ++ port) :=
          splitLastByte_some.2 ⟨by simp, h64⟩
        have e2 := splitLastByte_some.2 ⟨h, h'⟩
        rw [e1] at e2
        simp only [Option.some.injEq, Prod.mk.injEq] at e2
        exact e2.2.symm
  subst this
  exact upToColon_unique h3 hu

/-- C76: if Extract accepts a URL that a browser takes for one with a special scheme (other than `file`), the host that
Extract judges is the host that the browser sees; the only exception is a URL that is the name of the scheme, a colon, a
port and perhaps a path, where Extract takes the name of the scheme for the host.  Surrounding white space must be such that
both remove it, no rule may have a tab or a newline in it, and with punycode conversion the IDNA library must reject them. -/
theorem C76_same_host (idna : Idna) (rules : List Bytes) (e : URLParams) {r : ExtractResult}
    (hx : extract idna (buildTrie rules) e = .ok (r, none))
    (hr : ∀ rule ∈ rules, ∀ c ∈ rule, isTabOrNewline c = false)
    (hi : e.convertURLToPunyCode = true → ∀ un x, idna.lookupASCII un = some x → ∀ c ∈ un, isTabOrNewline c = false)
    {t name host : Bytes} (hb : BrowserHost e.url t name host) (hw : IsTrim true true whiteSpace e.url t) :
    JudgedHost idna rules e r host ∨
      (r.scheme = [] ∧ r.userInfo = [] ∧ t = name ++ 58 :: r.port ++ r.path ∧ IsPort r.port ∧
        JudgedHost idna rules e r name) := by
  obtain ⟨t', cred, host0, port, H⟩ := cutUp hx hr hi
  obtain rfl : t' = t := (isTrim_iff.1 H.trim).trans (isTrim_iff.1 hw).symm
  obtain ⟨-, sl, rest, auth, more, hostPort, hf, hspec, hsl, hrest, hcut, hlast, hup⟩ := hb
  obtain ⟨hne, hlet⟩ := special_letters hspec
  -- the text without tabs and newlines
  have hkept : (host0 ++ port).filter (fun c => !isTabOrNewline c) = host0 ++ port :=
    List.filter_eq_self.2 fun c hc => by simp [(keptByte_iff.1 (H.kept c hc)).2.2]
  have hpath : ∃ path', r.path.filter (fun c => !isTabOrNewline c) = path' ∧
      (path' = [] ∨ ∃ c x, path' = c :: x ∧ isPathStart c = true) ∧
      ∀ c x, path' = c :: x → ∃ y, r.path = c :: y := by
    refine ⟨_, rfl, ?_, ?_⟩
    · rcases H.path with h | ⟨c, x, h, hc⟩
      · rw [h]; exact .inl rfl
      · have : isTabOrNewline c = false :=
          forall_byte (P := fun c => isPathStart c = true → isTabOrNewline c = false) (by decide +kernel) c hc
        rw [h, List.filter_cons, if_pos (by simp [this])]
        exact .inr ⟨c, _, rfl, hc⟩
    · rcases H.path with h | ⟨c, x, h, hc⟩
      · rw [h]; intro c x hx; simp at hx
      · have : isTabOrNewline c = false :=
          forall_byte (P := fun c => isPathStart c = true → isTabOrNewline c = false) (by decide +kernel) c hc
        rw [h, List.filter_cons, if_pos (by simp [this])]
        intro c' x' hx'
        rw [List.cons.injEq] at hx'
        exact ⟨x, by rw [hx'.1]⟩
  obtain ⟨path', hpe, hp', hph⟩ := hpath
  rw [H.text, List.filter_append, List.filter_append, List.filter_append, hkept, hpe] at hf
  generalize hU : r.userInfo.filter (fun c => !isTabOrNewline c) = U at hf
  have hUs : ∀ c ∈ U, isUserInfoStop c = false := by
    rw [← hU]
    exact fun c hc => H.userInfo c (List.mem_filter.1 hc).1
  have hstop : ∀ c : UInt8, isUserInfoStop c = false → isPathStart c = false ∧ isSlash c = false := fun c =>
    forall_byte (P := fun c => isUserInfoStop c = false → isPathStart c = false ∧ isSlash c = false) (by decide +kernel) c
  have hpslash : ∀ c : UInt8, isPathStart c = false → isSlash c = false := fun c =>
    forall_byte (P := fun c => isPathStart c = false → isSlash c = false) (by decide +kernel) c
  have hcred : ∃ cred', cred.filter (fun c => !isTabOrNewline c) = cred' ∧ (cred' = [] ∨ ∃ x, cred' = x ++ [64]) ∧
      (∀ c ∈ cred', isPathStart c = false) ∧ (cred' = [] → cred = [] ∧ r.userInfo = []) := by
    refine ⟨_, rfl, ?_⟩
    rcases H.creds with ⟨h, h'⟩ | h
    · rw [h]; exact ⟨.inl rfl, by simp, fun _ => ⟨rfl, h'⟩⟩
    · rw [h, List.filter_append, hU]
      refine ⟨.inr ⟨U, by rw [show [64].filter (fun c => !isTabOrNewline c) = [64] by decide]⟩, ?_, fun h => ?_⟩
      · intro c hc
        rcases List.mem_append.1 hc with hc | hc
        · exact (hstop c (hUs c hc)).1
        · have : c = 64 := by simpa using (List.mem_filter.1 hc).1
          subst this; decide
      · have := congrArg List.length h
        simp [isTabOrNewline] at this
  obtain ⟨cred', hce, hc1, hc2, hc3⟩ := hcred
  rw [hce] at hf
  have hsame : ∀ rest, rest = cred' ++ (host0 ++ port ++ path') → CutAt isPathStart rest auth more →
      JudgedHost idna rules e r host := by
    rintro rest rfl hcut
    rw [browser_rest hc1 hc2 H.kept hp' H.upTo hcut hlast hup]
    exact H.judged
  have hcutName : CutAt (fun c => !isSchemeChar c) (name ++ 58 :: sl ++ rest) name (58 :: sl ++ rest) :=
    ⟨by simp, fun c hc => by simp [(letter_byte c (hlet c hc)).1], .inr ⟨58, sl ++ rest, rfl, by decide⟩⟩
  rcases H.scheme with ⟨hs, -⟩ | ⟨hs, -, hmax⟩
  · -- no scheme
    rw [hs] at hf
    rw [List.filter_nil, List.nil_append] at hf
    rcases hc1 with rfl | ⟨x, rfl⟩
    · right
      obtain ⟨rfl, hui⟩ := hc3 rfl
      rw [List.nil_append] at hf
      have hb : ∀ c ∈ host0, c ≠ 58 := by
        rcases H.brackets with h | ⟨x, rfl⟩
        · exact h
        · cases name with
          | nil => exact absurd rfl hne
          | cons c y =>
            simp only [List.cons_append, List.cons.injEq] at hf
            exact absurd hf.1.symm (letter_byte c (hlet c (by simp))).2.2.2.2.1
      have k1 : CutAt isHostEnd (host0 ++ port ++ path') host0 (port ++ path') := by
        refine ⟨by simp, fun c hc => ?_, ?_⟩
        · have := (keptByte_iff.1 (H.kept c (by simp [hc]))).1
          simp [isHostEnd, this, hb c hc]
        · rcases H.ports with ⟨h, -⟩ | ⟨h, -⟩
          · rw [h]
            rcases hp' with rfl | ⟨c, x, rfl, hc⟩
            · exact .inl rfl
            · exact .inr ⟨c, x, rfl, by simp [isHostEnd, hc]⟩
          · rw [h]; exact .inr ⟨58, _, rfl, by decide⟩
      have k2 : CutAt isHostEnd (host0 ++ port ++ path') name (58 :: sl ++ rest) := by
        refine ⟨by rw [hf]; simp, fun c hc => (letter_byte c (hlet c hc)).2.1, .inr ⟨58, _, rfl, by decide⟩⟩
      obtain ⟨rfl, h2⟩ := cut_unique k1 k2
      rcases H.ports with ⟨rfl, -⟩ | ⟨rfl, hport⟩
      · rcases hp' with rfl | ⟨c, x, rfl, hc⟩
        · simp at h2
        · simp only [List.nil_append, List.cons_append, List.cons.injEq] at h2
          rw [h2.1] at hc
          exact absurd hc (by decide)
      · exact ⟨hs, hui, by rw [H.text, hs]; simp, hport, H.judged⟩
    · left
      -- the name of the scheme is part of the userinfo
      have hx : ∀ c ∈ x, isPathStart c = false := fun c hc => hc2 c (by simp [hc])
      let stop : UInt8 → Bool := fun c => c == 58 || c == 64
      have hxc : CutAt stop x _ _ := cutAt_iff.2 ⟨rfl, rfl⟩
      generalize hp0 : x.takeWhile (fun c => !stop c) = p0 at hxc
      generalize hq0 : x.dropWhile (fun c => !stop c) = q0 at hxc
      obtain ⟨rfl, h1, h2⟩ := hxc
      have k2 : CutAt stop (p0 ++ q0 ++ [64] ++ (host0 ++ port ++ path')) name (58 :: sl ++ rest) := by
        refine ⟨by rw [hf]; simp, fun c hc => ?_, .inr ⟨58, _, rfl, by decide⟩⟩
        have := letter_byte c (hlet c hc)
        simp [stop, this.2.2.1, this.2.2.2.1]
      have k1 : CutAt stop (p0 ++ q0 ++ [64] ++ (host0 ++ port ++ path')) p0 (q0 ++ 64 :: (host0 ++ port ++ path')) := by
        refine ⟨by simp, h1, .inr ?_⟩
        rcases h2 with rfl | ⟨c, y, rfl, hc⟩
        · exact ⟨64, _, rfl, by decide⟩
        · exact ⟨c, _, rfl, hc⟩
      obtain ⟨rfl, h3⟩ := cut_unique k1 k2
      rcases h2 with rfl | ⟨c, q1, rfl, hc⟩
      · simp at h3
      · simp only [List.cons_append, List.cons.injEq] at h3
        obtain ⟨rfl, h3⟩ := h3
        have hq1 : ∀ c ∈ q1, isPathStart c = false := fun c hc => hx c (by simp [hc])
        have hsl0 : sl = [] := by
          cases sl with
          | nil => rfl
          | cons c sl =>
            have hc := hsl c (by simp)
            cases q1 with
            | nil =>
              simp only [List.nil_append, List.cons_append, List.cons.injEq] at h3
              rw [← h3.1] at hc
              exact absurd hc (by decide)
            | cons y q1 =>
              simp only [List.cons_append, List.cons.injEq] at h3
              rw [← h3.1, hpslash y (hq1 y (by simp))] at hc
              cases hc
        subst hsl0
        rw [List.nil_append] at h3
        have hcut' : CutAt isPathStart (q1 ++ [64] ++ (host0 ++ port ++ path')) auth more := by
          have : rest = q1 ++ [64] ++ (host0 ++ port ++ path') := by rw [← h3]; simp
          rw [← this]; exact hcut
        rw [browser_rest (.inr ⟨q1, rfl⟩) (fun c hc => by
          rcases List.mem_append.1 hc with hc | hc
          · exact hq1 c hc
          · obtain rfl : c = 64 := by simpa using hc
            decide) H.kept hp' H.upTo hcut' hlast hup]
        exact H.judged
  · -- the scheme of Extract
    left
    obtain ⟨nm, colon, sl', hse, hnm, hlen, hsl'⟩ := hs
    have hscheme : r.scheme.filter (fun c => !isTabOrNewline c) = r.scheme := by
      refine List.filter_eq_self.2 fun c hc => ?_
      have hsc : ∀ c : UInt8, isSchemeChar c = true ∨ isLetter c = true ∨ isSlash c = true ∨ c = 58 → (!isTabOrNewline c) = true :=
        fun c => forall_byte (P := fun c => isSchemeChar c = true ∨ isLetter c = true ∨ isSlash c = true ∨ c = 58 →
          (!isTabOrNewline c) = true) (by decide +kernel) c
      refine hsc c ?_
      rw [hse] at hc
      simp only [List.mem_append] at hc
      rcases hc with (hc | hc) | hc
      · rcases hnm with ⟨rfl, -⟩ | ⟨⟨x, y, rfl, hx, hy⟩, -⟩
        · simp at hc
        · rcases List.mem_cons.1 hc with rfl | hc
          · exact .inr (.inl hx)
          · exact .inl (hy c hc)
      · rcases hnm with ⟨-, rfl⟩ | ⟨-, rfl | rfl⟩
        · simp at hc
        · simp at hc
        · exact .inr (.inr (.inr (by simpa using hc)))
      · exact .inr (.inr (.inl (hsl' c hc)))
    rw [hscheme, hse] at hf
    have hslcut : ∃ s0 s1, sl' = s0 :: s1 ∧ isSlash s0 = true := by
      cases sl' with
      | nil => simp at hlen
      | cons s0 s1 => exact ⟨s0, s1, rfl, hsl' s0 (by simp)⟩
    obtain ⟨s0, s1, hs01, hs0⟩ := hslcut
    have hs0n : isSchemeChar s0 = false := isSlash_not_schemeChar hs0
    rcases hnm with ⟨rfl, rfl⟩ | ⟨⟨x, y, rfl, hx, hy⟩, hcol⟩
    · cases name with
      | nil => exact absurd rfl hne
      | cons c z =>
        rw [hs01] at hf
        simp only [List.nil_append, List.cons_append, List.cons.injEq] at hf
        have := (letter_byte c (hlet c (by simp))).2.2.2.2.2
        rw [← hf.1, hs0] at this
        cases this
    · have hxy : ∀ c ∈ x :: y, isSchemeChar c = true := by
        intro c hc
        rcases List.mem_cons.1 hc with rfl | hc
        · exact (letter_byte _ hx).1
        · exact hy c hc
      rcases hcol with rfl | rfl
      · have k1 : CutAt (fun c => !isSchemeChar c) (name ++ 58 :: sl ++ rest) (x :: y)
            (sl' ++ (cred' ++ (host0 ++ port ++ path'))) :=
          ⟨by rw [← hf]; simp, fun c hc => by simp [hxy c hc], .inr ⟨s0, _, by rw [hs01]; rfl, by simp [hs0n]⟩⟩
        obtain ⟨-, h2⟩ := cut_unique k1 hcutName
        rw [hs01] at h2
        simp only [List.cons_append, List.cons.injEq] at h2
        rw [h2.1] at hs0
        exact absurd hs0 (by decide)
      · have k1 : CutAt (fun c => !isSchemeChar c) (name ++ 58 :: sl ++ rest) (x :: y)
            (58 :: (sl' ++ (cred' ++ (host0 ++ port ++ path')))) :=
          ⟨by rw [← hf]; simp, fun c hc => by simp [hxy c hc], .inr ⟨58, _, rfl, by decide⟩⟩
        obtain ⟨-, h2⟩ := cut_unique k1 hcutName
        simp only [List.cons_append, List.cons.injEq, true_and] at h2
        -- what follows the slashes does not begin with one
        have hR : ∀ c z, cred' ++ (host0 ++ port ++ path') = c :: z → isSlash c = false := by
          intro c z hz
          rcases hc1 with rfl | ⟨w, rfl⟩
          · rw [List.nil_append] at hz
            cases hhp : host0 ++ port with
            | cons a b =>
              rw [hhp] at hz
              simp only [List.cons_append, List.cons.injEq] at hz
              rw [← hz.1]
              exact hpslash a (keptByte_iff.1 (H.kept a (by rw [hhp]; simp))).1
            | nil =>
              rw [hhp, List.nil_append] at hz
              obtain ⟨v, hv⟩ := hph c z hz
              refine Classical.byContradiction fun hcs => ?_
              have hcs : isSlash c = true := by simpa using hcs
              obtain ⟨rfl, -⟩ := hc3 rfl
              have hle := hmax (r.scheme ++ [c]) ⟨x :: y, [58], sl' ++ [c], by rw [hse]; simp,
                .inr ⟨⟨x, y, rfl, hx, hy⟩, .inr rfl⟩, by simp; omega, fun a ha => by
                  rcases List.mem_append.1 ha with ha | ha
                  · exact hsl' a ha
                  · obtain rfl : a = c := by simpa using ha
                    exact hcs⟩ ⟨v, by rw [H.text, hhp, hv]; simp⟩
              simp at hle
              omega
          · cases w with
            | nil =>
              simp only [List.nil_append, List.cons_append, List.cons.injEq] at hz
              rw [← hz.1]; decide
            | cons a b =>
              simp only [List.cons_append, List.cons.injEq] at hz
              rw [← hz.1]
              exact hpslash a (hc2 a (by simp))
        have k2 : CutAt (fun c => !isSlash c) (sl ++ rest) sl rest := by
          refine ⟨rfl, fun c hc => by simp [hsl c hc], ?_⟩
          cases rest with
          | nil => exact .inl rfl
          | cons c z => exact .inr ⟨c, z, rfl, by simp [hrest c z rfl]⟩
        have k3 : CutAt (fun c => !isSlash c) (sl ++ rest) sl' (cred' ++ (host0 ++ port ++ path')) := by
          refine ⟨h2.symm, fun c hc => by simp [hsl' c hc], ?_⟩
          generalize hR' : cred' ++ (host0 ++ port ++ path') = R at hR
          cases R with
          | nil => exact .inl rfl
          | cons c z => exact .inr ⟨c, z, rfl, by simp [hR c z rfl]⟩
        exact hsame rest (cut_unique k2 k3).2 hcut

/-- C76, the exception: there the browser takes the port for the host, so that the two hosts are never the same. -/
theorem C76_exception {url t name host port path : Bytes} (hb : BrowserHost url t name host)
    (ht : t = name ++ 58 :: port ++ path) (hp : IsPort port)
    (hpath : path = [] ∨ ∃ c x, path = c :: x ∧ isPathStart c = true) : host = port ∧ host ≠ name := by
  obtain ⟨-, sl, rest, auth, more, hostPort, hf, hspec, hsl, hrest, hcut, hlast, hup⟩ := hb
  obtain ⟨hne, hlet⟩ := special_letters hspec
  have hk := port_kept hp
  have hplain : ∀ c ∈ port, c ≠ 58 ∧ c ≠ 91 ∧ c ≠ 93 :=
    port_bytes_all (forall_byte (by decide +kernel)) (by decide) (by decide) hp
  have hnl : ∀ c ∈ port, isLetter c = false :=
    port_bytes_all (forall_byte (by decide +kernel)) (by decide) (by decide) hp
  obtain ⟨p0, p1, hp01⟩ : ∃ p0 p1, port = p0 :: p1 := by
    cases port with
    | nil => rcases hp with hp | ⟨q, hq, -⟩ | ⟨q, hq, -⟩
             · exact absurd rfl hp.1
             · cases hq
             · cases hq
    | cons a b => exact ⟨a, b, rfl⟩
  have hfn : (name ++ 58 :: port).filter (fun c => !isTabOrNewline c) = name ++ 58 :: port := by
    refine List.filter_eq_self.2 fun c hc => ?_
    simp only [List.mem_append, List.mem_cons] at hc
    rcases hc with hc | rfl | hc
    · exact forall_byte (P := fun c => isLetter c = true → (!isTabOrNewline c) = true) (by decide +kernel) c (hlet c hc)
    · decide
    · simp [(keptByte_iff.1 (hk c hc).1).2.2]
  rw [ht, List.filter_append, hfn] at hf
  have h1 : port ++ path.filter (fun c => !isTabOrNewline c) = sl ++ rest := by
    have := hf
    simp only [List.append_assoc, List.cons_append] at this
    simpa using List.append_cancel_left this
  have hsl0 : sl = [] := by
    cases sl with
    | nil => rfl
    | cons c sl =>
      rw [hp01] at h1
      simp only [List.cons_append, List.cons.injEq] at h1
      have h2 := hsl c (by simp)
      rw [← h1.1, (hk p0 (by rw [hp01]; simp)).2.2.2] at h2
      cases h2
  rw [hsl0, List.nil_append] at h1
  rw [← h1] at hcut
  have hp' : path.filter (fun c => !isTabOrNewline c) = [] ∨
      ∃ c x, path.filter (fun c => !isTabOrNewline c) = c :: x ∧ isPathStart c = true := by
    rcases hpath with rfl | ⟨c, x, rfl, hc⟩
    · exact .inl rfl
    · have : isTabOrNewline c = false :=
        forall_byte (P := fun c => isPathStart c = true → isTabOrNewline c = false) (by decide +kernel) c hc
      rw [List.filter_cons, if_pos (by simp [this])]
      exact .inr ⟨c, _, rfl, hc⟩
  have hup' : UpToColon false (port ++ []) port := upToColon_plain hplain (.inl rfl)
  have : host = port := browser_rest (cred := []) (port := []) (.inl rfl) (by simp)
    (fun c hc => (hk c (by simpa using hc)).1) hp' hup' (by simpa using hcut) hlast hup
  refine ⟨this, ?_⟩
  rw [this, hp01]
  rintro rfl
  have := hlet p0 (by simp)
  rw [hnl p0 (by rw [hp01]; simp)] at this
  cases this

/-- A browser removes tabs and newlines, treats backslashes as slashes and takes any number of them; Extract sees the same
host.  For `http:80` the host is `80` in a browser and `http` in Extract. -/
theorem C76_example :
    BrowserHost (b! " hTTp:/\\\\u\t:p@v@a.co.uk:80\\x@y.com ") (b! "hTTp:/\\\\u\t:p@v@a.co.uk:80\\x@y.com") (b! "hTTp")
      (b! "a.co.uk") ∧
    extract idId exTrie { url := b! " hTTp:/\\\\u\t:p@v@a.co.uk:80\\x@y.com " } =
      .ok ({ scheme := b! "hTTp:/\\\\", userInfo := b! "u\t:p@v", domain := b! "a", suffix := b! "co.uk",
             registeredDomain := b! "a.co.uk", port := b! "80", path := b! "\\x@y.com", hostType := .hostName }, none) ∧
    BrowserHost (b! "http:80") (b! "http:80") (b! "http") (b! "80") ∧
    extract idId exTrie { url := b! "http:80" } =
      .ok ({ domain := b! "http", port := b! "80", hostType := .hostName }, none) ∧
    BrowserHost (b! "wss:u@[::1]:5") (b! "wss:u@[::1]:5") (b! "wss") (b! "[::1]") ∧
    extract idId exTrie { url := b! "wss:u@[::1]:5" } =
      .ok ({ userInfo := b! "wss:u", domain := b! "::1", registeredDomain := b! "::1", port := b! "5", hostType := .iPv6 },
        none) := by
  have trim : ∀ {t : Bytes}, (∀ r ∈ c0OrSpace, ¬ encode r <+: t) → (∀ r ∈ c0OrSpace, ¬ encode r <:+ t) →
      IsTrim true true c0OrSpace t t := fun h1 h2 =>
    ⟨[], [], by simp, ⟨[], by simp, rfl⟩, ⟨[], by simp, rfl⟩, by simp, by simp, fun _ => h1, fun _ => h2⟩
  refine ⟨⟨⟨[32], [32], rfl, ⟨[32], by decide, rfl⟩, ⟨[32], by decide, rfl⟩, by simp, by simp, fun _ => by decide +kernel,
    fun _ => by decide +kernel⟩, b! "/\\\\", b! "u:p@v@a.co.uk:80\\x@y.com", b! "u:p@v@a.co.uk:80", b! "\\x@y.com",
    b! "a.co.uk:80", by decide +kernel, by decide +kernel, by decide +kernel, ?_, ⟨rfl, by decide +kernel, .inr ⟨92, _, rfl, by decide⟩⟩,
    .inr ⟨b! "u:p@v", rfl, by decide⟩, upToColon_plain (h := b! "a.co.uk") (t := b! ":80") (by decide) (.inr ⟨_, rfl⟩)⟩,
    by decide +kernel,
    ⟨trim (by decide +kernel) (by decide +kernel), [], b! "80", b! "80", [], b! "80", by decide +kernel, by decide +kernel,
      by simp, ?_, ⟨rfl, by decide, .inl rfl⟩, .inl ⟨by decide, rfl⟩,
      upToColon_plain (h := b! "80") (t := []) (by decide) (.inl rfl)⟩,
    by decide +kernel,
    ⟨trim (by decide +kernel) (by decide +kernel), [], b! "u@[::1]:5", b! "u@[::1]:5", [], b! "[::1]:5", by decide +kernel,
      by decide +kernel, by simp, ?_, ⟨rfl, by decide, .inl rfl⟩, .inr ⟨b! "u", rfl, by decide⟩,
      .open (upToColon_inside (h := b! "::1") (t := b! ":5") (r := []) (by decide) .colon)⟩,
    by decide +kernel⟩
  all_goals
    intro c x h
    cases h
    decide

end Fasttld.Props
