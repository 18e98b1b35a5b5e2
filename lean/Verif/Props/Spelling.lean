import Verif.Proofs.FallbackSpelling
import Verif.Props.FallbackExact

/-!
# C58: names in Unicode and in Punycode are divided in the same way

`processLine` takes every rule twice, as `idna.ToASCII` converts it and as it is written, if that is different
(psl.go:38-60).  Here the conversion is that of RFC 3492, applied to each label.
-/

set_option linter.unusedSimpArgs false

namespace Fasttld.Props
open Fasttld Fasttld.Spec Trie _root_.Fasttld.Inv

variable {idna : Idna} {priv : Bool} {ts lines : List Bytes}

/-- C58: the conversion of RFC 3492 can be undone, for every text. -/
theorem C58_roundtrip (cs : List Nat) : Punycode.decode (Punycode.encode cs) = some cs := Punycode.decode_encode' cs

/-- C58: so different labels remain different. -/
theorem C58_apart {l l' : Bytes} (h : InUnicode l) (h' : InUnicode l') (he : Punycode.label l = Punycode.label l') : l = l' :=
  Punycode.label_inj h.1 h'.1 h.2 h'.2 he

/-- C58: with rules in Unicode, whose exceptions are in ASCII, a host in Unicode and the same host in Punycode are both
accepted as host names or both not, and are then divided in the same way. -/
theorem C58_spelling (hp : ToPunycode idna.toASCII (ts.filter (fun t => decide (IsRuleLine t))))
    (hu : UnicodeRules (ts.filter (fun t => decide (IsRuleLine t)))) (e e' : URLParams)
    (hig : e'.ignoreSubDomains = e.ignoreSubDomains)
    {sch ui host after port path n sch' ui' host' after' port' path' n' : Bytes}
    (hA : Authority e.url sch ui (host ++ after)) (hpl : IsPlainHost host) (haf : AfterHost after port path)
    (ht : HostTextOf idna e.convertURLToPunyCode host n)
    (hA' : Authority e'.url sch' ui' (host' ++ after')) (hpl' : IsPlainHost host') (haf' : AfterHost after' port' path')
    (ht' : HostTextOf idna e'.convertURLToPunyCode host' n') (hs : SameHost n n')
    {r r' : ExtractResult} {err err' : Option Err} (h : extract idna (buildTrie (rulesOf idna.toASCII ts)) e = .ok (r, err))
    (h' : extract idna (buildTrie (rulesOf idna.toASCII ts)) e' = .ok (r', err')) :
    ((err = none ∧ r.hostType = .hostName) ↔ (err' = none ∧ r'.hostType = .hostName)) ∧
      (err = none → r.hostType = .hostName → SameParts r r') := by
  rw [extract_plain idna _ e hA hpl haf, hostText_iff.2 ht] at h
  rw [extract_plain idna _ e' hA' hpl' haf', hostText_iff.2 ht', hig] at h'
  simp only [Except.ok.injEq, Prod.mk.injEq] at h h'
  obtain ⟨rfl, rfl⟩ := h
  obtain ⟨rfl, rfl⟩ := h'
  have key := hostResult_puny (Punycode.byLabel hp) hu hs (ig := e.ignoreSubDomains)
    (hostResult_iff.2 (Prod.eta _).symm) (hostResult_iff.2 (Prod.eta _).symm)
  refine ⟨key.1, fun h1 h2 => ?_⟩
  have := key.2 h1 h2
  exact ⟨this.1, this.2, this.3, this.4, this.5⟩

theorem mem_joinLabels {c : UInt8} : ∀ {rest : List (Nat × Bytes)} {first : Bytes}, c ∈ joinLabels first rest →
    c ∈ first ∨ ∃ p ∈ rest, c ∈ encode p.1 ∨ c ∈ p.2
  | [], _, h => .inl h
  | (s, l) :: rest, first, h => by
    rw [joinLabels] at h
    simp only [List.mem_append] at h
    rcases h with (h | h) | h
    · exact .inl h
    · exact .inr ⟨(s, l), by simp, .inl h⟩
    · rcases mem_joinLabels h with h | ⟨p, hp, h⟩
      · exact .inr ⟨(s, l), by simp, .inr h⟩
      · exact .inr ⟨p, by simp [hp], h⟩

theorem sameHost_decodes {n n' : Bytes} (h : SameHost n n') : Decodes n n := by
  obtain ⟨first, rest, tail, hs, hg, -⟩ := h
  have hsep : ∀ r ∈ separators, ∀ c ∈ encode r, c ≠ 37 ∧ c ≠ 43 := by decide
  have hlab : ∀ l ∈ fromRight first rest, ∀ c ∈ l, c ≠ 37 ∧ c ≠ 43 := by
    intro l hl c hc
    have := (hg l hl).1
    exact ⟨fun e => this.noEscape (e ▸ hc), fun e => this.not_mem (c := 43) (by decide) (by decide +kernel) (by decide) (e ▸ hc)⟩
  rw [← queryUnescape_iff]
  refine queryUnescape_plain fun c hc => ?_
  rw [hs.text, List.mem_append] at hc
  rcases hc with hc | hc
  · rcases mem_joinLabels hc with hc | ⟨p, hp, hc | hc⟩
    · exact hlab first (fromRight_mem.2 (.inl rfl)) c hc
    · exact hsep _ (hs.free.2 p hp).1 c hc
    · exact hlab p.2 (fromRight_mem.2 (.inr ⟨p, hp, rfl⟩)) c hc
  · obtain ⟨cs, h1, h2⟩ := hs.tail
    rw [h2] at hc
    obtain ⟨r, hr, hc⟩ := List.mem_flatMap.1 hc
    exact hsep r (h1 r hr) c hc

/-- C58: so `ConvertURLToPunyCode` only changes the spelling of the parts, if the conversion that it uses is this one
too, and gives no error. -/
theorem C58_flag (hp : ToPunycode idna.toASCII (ts.filter (fun t => decide (IsRuleLine t))))
    (hu : UnicodeRules (ts.filter (fun t => decide (IsRuleLine t)))) (e : URLParams) (hc : e.convertURLToPunyCode = false)
    {sch ui host after port path n' : Bytes}
    (hA : Authority e.url sch ui (host ++ after)) (hpl : IsPlainHost host) (haf : AfterHost after port path)
    (h1 : idna.toUnicodeErr host = none) (h2 : idna.lookupASCII host = some n') (hs : SameHost host n')
    {r r' : ExtractResult} {err err' : Option Err} (h : extract idna (buildTrie (rulesOf idna.toASCII ts)) e = .ok (r, err))
    (h' : extract idna (buildTrie (rulesOf idna.toASCII ts)) { e with convertURLToPunyCode := true } = .ok (r', err')) :
    ((err = none ∧ r.hostType = .hostName) ↔ (err' = none ∧ r'.hostType = .hostName)) ∧
      (err = none → r.hostType = .hostName → SameParts r r') :=
  C58_spelling hp hu e { e with convertURLToPunyCode := true } rfl hA hpl haf
    ⟨host, sameHost_decodes hs, .inl ⟨hc, h1, rfl⟩⟩ hA hpl haf ⟨host, sameHost_decodes hs, .inr ⟨rfl, by rw [h2]; rfl⟩⟩ hs h h'

/-! ## The built-in list -/

/-- C58: the rules of the built-in list are in Unicode, and its exceptions in ASCII. -/
theorem C58_builtIn_rules (hb : BuiltIn priv lines) : UnicodeRules (lines.filter (fun t => decide (IsRuleLine t))) := by
  rw [builtIn_iff.1 hb, ← rules_builtIn]
  exact unicodeRules_builtIn priv

/-- C58: the conditions of C54 and C57 on the conversion are met by that of RFC 3492. -/
theorem C58_conditions (hb : BuiltIn priv lines) (hp : ToPunycode idna.toASCII (lines.filter (fun t => decide (IsRuleLine t)))) :
    ByLabel idna.toASCII Punycode.label (lines.filter (fun t => decide (IsRuleLine t))) ∧
      Faithful Punycode.label (lines.filter (fun t => decide (IsRuleLine t))) := by
  refine ⟨Punycode.byLabel hp, Punycode.faithful fun r hr ls hls l hl => ?_⟩
  have h := (C58_builtIn_rules hb).label r hr ls hls l hl
  refine ⟨h.1, h.2, ?_⟩
  rw [builtIn_iff.1 hb, ← rules_builtIn] at hr
  exact other_good priv r hr ls hls l hl

/-- C58: so with the built-in list all hosts in Unicode are divided like the same hosts in Punycode. -/
theorem C58_builtIn (hb : BuiltIn priv lines) (hp : ToPunycode idna.toASCII (lines.filter (fun t => decide (IsRuleLine t))))
    (e e' : URLParams) (hig : e'.ignoreSubDomains = e.ignoreSubDomains)
    {sch ui host after port path n sch' ui' host' after' port' path' n' : Bytes}
    (hA : Authority e.url sch ui (host ++ after)) (hpl : IsPlainHost host) (haf : AfterHost after port path)
    (ht : HostTextOf idna e.convertURLToPunyCode host n)
    (hA' : Authority e'.url sch' ui' (host' ++ after')) (hpl' : IsPlainHost host') (haf' : AfterHost after' port' path')
    (ht' : HostTextOf idna e'.convertURLToPunyCode host' n') (hs : SameHost n n')
    {r r' : ExtractResult} {err err' : Option Err} (h : extract idna (trieOfText idna priv hardcodedPSL) e = .ok (r, err))
    (h' : extract idna (trieOfText idna priv hardcodedPSL) e' = .ok (r', err')) :
    ((err = none ∧ r.hostType = .hostName) ↔ (err' = none ∧ r'.hostType = .hostName)) ∧
      (err = none → r.hostType = .hostName → SameParts r r') := by
  rw [builtIn_trie idna hb] at h h'
  exact C58_spelling hp (C58_builtIn_rules hb) e e' hig hA hpl haf ht hA' hpl' haf' ht' hs h h'

/-! ## Examples -/

/-- A library for internationalized names that converts label by label to Punycode. -/
def punyIdna : Idna :=
  { toASCII := fun r => some (List.intercalate [46] ((splitByte 46 r).map Punycode.label))
    lookupASCII := fun r => some (List.intercalate [46] ((splitByte 46 r).map Punycode.label))
    toUnicodeErr := fun _ => none }

theorem puny_holds (rules : List Bytes) : ToPunycode punyIdna.toASCII rules := by
  rintro r - ls ⟨h1, h2, rfl⟩
  show some _ = _
  rw [splitByte_unique 46 h1 h2]

/-- C58: exceptions must be in ASCII.  The conversion takes `!` into the label, which does not begin with it any more. -/
theorem C58_counterexample_exception :
    extract punyIdna (buildTrie (rulesOf punyIdna.toASCII [b! "*.ck", b! "!公司.ck"])) { url := b! "a.公司.ck" } =
      .ok ({ subDomain := b! "a", domain := b! "公司", suffix := b! "ck", registeredDomain := b! "公司.ck", hostType := .hostName }, none) ∧
    extract punyIdna (buildTrie (rulesOf punyIdna.toASCII [b! "*.ck", b! "!公司.ck"])) { url := b! "a.xn--55qx5d.ck" } =
      .ok ({ subDomain := [], domain := b! "a", suffix := b! "xn--55qx5d.ck", registeredDomain := b! "a.xn--55qx5d.ck",
             hostType := .hostName }, none) := by
  exact ⟨by decide +kernel, by decide +kernel⟩

/-- C58: all labels must be in the same spelling.  Rules are put into the trie in Unicode and in Punycode, but not in a
mixture of both. -/
theorem C58_counterexample_mixed :
    extract punyIdna (buildTrie (rulesOf punyIdna.toASCII [b! "香港", b! "個人.香港"])) { url := b! "a.個人.香港" } =
      .ok ({ domain := b! "a", suffix := b! "個人.香港", registeredDomain := b! "a.個人.香港", hostType := .hostName }, none) ∧
    extract punyIdna (buildTrie (rulesOf punyIdna.toASCII [b! "香港", b! "個人.香港"])) { url := b! "a.個人.xn--j6w193g" } =
      .ok ({ subDomain := b! "a", domain := b! "個人", suffix := b! "xn--j6w193g", registeredDomain := b! "個人.xn--j6w193g",
             hostType := .hostName }, none) := by
  exact ⟨by decide +kernel, by decide +kernel⟩

-- samples
example : Punycode.label (b! "公司") = b! "xn--55qx5d" ∧ Punycode.label (b! "bücher") = b! "xn--bcher-kva" ∧
    Punycode.label (b! "香港") = b! "xn--j6w193g" ∧ Punycode.label (b! "example") = b! "example" := by decide +kernel
-- the conditions hold for a host of the built-in list
example : SameHost (b! "www.公司.香港.") (b! "www.xn--55qx5d.xn--j6w193g.") := by
  refine ⟨b! "www", [(46, b! "公司"), (46, b! "香港")], b! ".", ⟨by decide, by decide, ⟨[46], by decide, by decide⟩, ?_⟩, ?_, by decide +kernel⟩
  · intro f s h
    have := congrArg List.getLast? h
    simp at this
  · have hg : ∀ l ∈ fromRight (b! "www") [(46, b! "公司"), (46, b! "香港")], GoodLabel l ∧ ¬ b! "xn--" <+: l := by decide +kernel
    have ht : ∀ l ∈ fromRight (b! "www") [(46, b! "公司"), (46, b! "香港")], Punycode.IsText l := by
      intro l hl
      simp only [fromRight, List.map_cons, List.map_nil, List.reverse_cons, List.reverse_nil, List.nil_append, List.cons_append,
        List.mem_cons, List.not_mem_nil, or_false] at hl
      rcases hl with rfl | rfl | rfl
      · exact ⟨[0x9999, 0x6e2f], by decide, by decide⟩
      · exact ⟨[0x516c, 0x53f8], by decide, by decide⟩
      · exact ⟨[119, 119, 119], by decide, by decide⟩
    exact fun l hl => ⟨(hg l hl).1, ht l hl, (hg l hl).2⟩
-- and the parts are those that the theorem gives
example : extract punyIdna (buildTrie (rulesOf punyIdna.toASCII [b! "香港", b! "公司.香港"])) { url := b! "www.公司.香港." } =
      .ok ({ domain := b! "www", suffix := b! "公司.香港", registeredDomain := b! "www.公司.香港", hostType := .hostName }, none) ∧
    extract punyIdna (buildTrie (rulesOf punyIdna.toASCII [b! "香港", b! "公司.香港"])) { url := b! "www.公司.香港", convertURLToPunyCode := true } =
      .ok ({ domain := b! "www", suffix := b! "xn--55qx5d.xn--j6w193g", registeredDomain := b! "www.xn--55qx5d.xn--j6w193g",
             hostType := .hostName }, none) := by
  exact ⟨by decide +kernel, by decide +kernel⟩
example : UnicodeRules [b! "*.ck", b! "!www.ck", b! "ck"] := by
  have key : ∀ r ∈ [b! "*.ck", b! "!www.ck", b! "ck"], (∀ b ∈ r, b < 128) ∧ ¬ b! "xn--" <:+: r := by decide +kernel
  have asc : ∀ {l : Bytes}, (∀ b ∈ l, b < 128) → Punycode.IsText l := by
    intro l h
    induction l with
    | nil => exact isText_nil
    | cons c l ih =>
      have hc := UInt8.lt_iff_toNat_lt.1 (h c (by simp))
      simp only [UInt8.reduceToNat] at hc
      have := isText_cons (r := c.toNat) (.inl (by omega)) (ih fun b hb => h b (by simp [hb]))
      rwa [Punycode.encode_small hc, UInt8.ofNat_toNat] at this
  refine ⟨fun r hr ls hls l hl => ?_, fun r hr ls hls l hl => ?_⟩
  · have hin := label_infix (rev_mem hls hl)
    exact ⟨asc fun b hb => (key r hr).1 b (hin.subset hb), fun h => (key r hr).2 (h.isInfix.trans hin)⟩
  · have hin := label_infix (rev_mem hls hl)
    exact ⟨fun b hb => (key r hr).1 b (hin.subset (by simp [hb])),
      fun h => (key r hr).2 (h.isInfix.trans (List.IsInfix.trans ⟨[33], [], by simp⟩ hin))⟩

end Fasttld.Props
