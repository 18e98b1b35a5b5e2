import Verif.Proofs.FallbackTop
import Verif.Props.FallbackExact
import Verif.Props.Lists

/-!
# C61: what holds for all URLs with the built-in list
-/

set_option linter.unusedSimpArgs false

namespace Fasttld.Props
open Fasttld Fasttld.Spec Trie _root_.Fasttld.Inv

/-! ## Rules under one label -/

/-- The value of a label, as it is looked up: decoded, empty if an escape in it is malformed. -/
def ValueOf (l v : Bytes) : Prop := Decodes l v ∨ (BadEscape l ∧ v = [])

theorem valueOf_iff {l v : Bytes} : ValueOf l v ↔ unescapeOrEmpty l = v := by
  have := labelValues_iff (ls := [l]) (ds := [v])
  simp only [LabelValues, and_true, List.map_cons, List.map_nil, List.cons.injEq] at this
  rw [ValueOf, this]
  exact eq_comm

/-- The rules with other top-level labels can be left out. -/
theorem extract_under (idna : Idna) {rules : List Bytes} (hstar : ¬ PrefixAt rules [star]) (e : URLParams)
    {sch ui host after port path n first tail l v : Bytes} {rest : List (Nat × Bytes)}
    (hA : Authority e.url sch ui (host ++ after)) (hp : IsPlainHost host) (haf : AfterHost after port path)
    (hn : HostTextOf idna e.convertURLToPunyCode host n) (hl : HostLabels n first rest tail)
    (hll : (first :: rest.map Prod.snd).getLast? = some l) (hv : ValueOf l v) :
    extract idna (buildTrie rules) e = extract idna (buildTrie (under rules v)) e := by
  rw [extract_plain idna _ e hA hp haf, extract_plain idna _ e hA hp haf, hostText_iff.2 hn]
  have e1 : ∃ ls, fromRight first rest = l :: ls := by
    unfold fromRight
    obtain ⟨ys, hys⟩ := List.getLast?_eq_some_iff.1 hll
    exact ⟨ys.reverse, by rw [hys]; simp⟩
  obtain ⟨ls, e1⟩ := e1
  obtain ⟨ts, t1, t2, t3⟩ := hl.split
  have key : ∀ u, hostF (buildTrie rules) e.ignoreSubDomains n u = hostF (buildTrie (under rules v)) e.ignoreSubDomains n u := by
    intro u
    unfold hostF
    simp only [t1, t2, t3, e1]
    rw [walkL_local (rules' := under rules v) ?_ ?_ fun h => absurd h hstar]
    · rw [valueOf_iff.1 hv]
      intro p
      rw [ruleAt_under]; simp
    · intro p
      constructor
      · intro hr; exact absurd ⟨_, ⟨p, rfl⟩, hr⟩ hstar
      · intro hr; exact absurd ⟨_, ⟨p, rfl⟩, (ruleAt_under.1 hr).1⟩ hstar
  simp only [key]

theorem shape_of_labels {n first tail : Bytes} {rest : List SepLabel} (h : HostLabels n first rest tail) : HostShape n first rest tail := by
  refine ⟨h.text, h.free, h.tail, ?_⟩
  rintro f s rfl
  apply h.last
  rw [List.map_append, ← List.cons_append, List.map_cons, List.map_nil, List.getLast?_concat]

/-- C61, for any list without rules that have a wildcard at the top: for hosts whose last label is, in the list, a rule or
the parent of a wildcard if it occurs at all, no label is empty (where U+FF61 does not occur), a label more in front
changes only SubDomain, and RegisteredDomain is divided in the same way again. -/
theorem C61_label (idna : Idna) (rules : List Bytes) (hstar : ¬ PrefixAt rules [star]) (e : URLParams) {r : ExtractResult}
    (h : extract idna (buildTrie rules) e = .ok (r, none)) (ht : r.hostType = .hostName) :
    ∃ host after n first rest tail, Authority e.url r.scheme r.userInfo (host ++ after) ∧ IsPlainHost host ∧
      AfterHost after r.port r.path ∧ HostTextOf idna e.convertURLToPunyCode host n ∧ HostLabels n first rest tail ∧
      ∀ l v, (first :: rest.map Prod.snd).getLast? = some l → ValueOf l v → TopRuleFor rules v →
        (¬ encode 0xFF61 <:+: n → first ≠ [] ∧ ∀ p ∈ rest, p.2 ≠ []) ∧
        (∀ (e' : URLParams) (sch ui host' after' port path x : Bytes), ∀ s ∈ separators,
          Authority e'.url sch ui (host' ++ after') → IsPlainHost host' → AfterHost after' port path →
          HostTextOf idna e'.convertURLToPunyCode host' (x ++ encode s ++ n) →
          x ≠ [] → FreeOf separators x → HostCharsOK x → ¬ IsIPv4 (x ++ encode s ++ n) →
          ∃ r', extract idna (buildTrie rules) e' = .ok (r', none) ∧ r'.hostType = .hostName ∧
            r'.domain = r.domain ∧ r'.suffix = r.suffix ∧ r'.registeredDomain = r.registeredDomain ∧
            (e.ignoreSubDomains = false → e'.ignoreSubDomains = false → (∀ a ∈ separators, ¬ encode a <+: n) →
              r'.subDomain = if r.subDomain = [] then x else x ++ encode s ++ r.subDomain)) ∧
        (r.suffix ≠ [] → PrefixAt rules [v] ∧
          ∃ more, HostLabels r.registeredDomain r.domain more [] ∧ (r.domain :: more.map Prod.snd).getLast? = some l) ∧
        (r.suffix ≠ [] → ¬ encode 45 <+: r.domain → ¬ IsIPv4 r.registeredDomain →
          ∀ (e' : URLParams) (sch ui host' after' port path : Bytes),
          Authority e'.url sch ui (host' ++ after') → IsPlainHost host' → AfterHost after' port path →
          HostTextOf idna e'.convertURLToPunyCode host' r.registeredDomain →
          ∃ r', extract idna (buildTrie rules) e' = .ok (r', none) ∧ r'.hostType = .hostName ∧
            r'.domain = r.domain ∧ r'.suffix = r.suffix ∧ r'.registeredDomain = r.registeredDomain ∧ r'.subDomain = [] ∧
            r'.scheme = sch ∧ r'.userInfo = ui ∧ r'.port = port ∧ r'.path = path) := by
  obtain ⟨host, after, n, first, rest, tail, o, hA, hp, haf, hn, hl, -, -⟩ := name_labels_result idna _ e h ht
  refine ⟨host, after, n, first, rest, tail, hA, hp, haf, hn, hl, fun l v hll hv htop => ?_⟩
  have h' := h
  rw [extract_under idna hstar e hA hp haf hn hl hll hv] at h'
  have htr := topRules_under htop
  -- the host is the same in all statements
  have huniq : ∀ {host2 after2 n2 : Bytes}, Authority e.url r.scheme r.userInfo (host2 ++ after2) → IsPlainHost host2 →
      AfterHost after2 r.port r.path → HostTextOf idna e.convertURLToPunyCode host2 n2 → n2 = n := by
    intro host2 after2 n2 k1 k2 k3 k4
    obtain ⟨-, -, he⟩ := Authority_unique k1 hA
    obtain ⟨rfl, -⟩ := host_unique k2 (afterHost_head k3) hp (afterHost_head haf) he
    have := hostText_iff.2 k4
    rw [hostText_iff.2 hn] at this
    simpa using this.symm
  have hreg : r.suffix ≠ [] → PrefixAt rules [v] ∧
      ∃ more, HostLabels r.registeredDomain r.domain more [] ∧ (r.domain :: more.map Prod.snd).getLast? = some l := by
    intro hs
    obtain ⟨host2, after2, n2, first2, rest2, tail2, ds, m, seen, cut, mark, H⟩ := accepted h' ht
    obtain rfl := huniq H.authority H.plain H.after H.text
    obtain ⟨rfl, rfl, rfl⟩ := H.shape.unique (shape_of_labels hl)
    have hanch : Anchored (under rules v) := fun t p hr _ => htr t (hr.prefix ⟨p, rfl⟩)
    obtain ⟨sub, hpt, -⟩ := H.parts
    have hne := H.domain
    generalize r.domain = dom at hpt hne ⊢
    generalize r.suffix = suf at hpt hs
    generalize r.registeredDomain = reg at hpt ⊢
    cases hpt with
    | noSuffix => exact absurd rfl hs
    | @suffix front s l0 more back _ _ _ _ e1 e2 e3 hsd =>
      obtain rfl := hanch.mark H.follows H.marks H.values.length
      obtain rfl := List.eq_nil_of_length_eq_zero e2
      rw [List.append_nil] at e1
      constructor
      · have hlen := H.values.length
        cases H.marks with
        | «at» g1 g2 g3 =>
          have hval := labelValues_iff.1 H.values
          have hds : ds.head? = some v := by
            rw [hval, List.head?_map]
            have : (fromRight first2 rest2).head? = some l := by
              unfold fromRight; rw [List.head?_reverse]; exact hll
            rw [this]
            simp [valueOf_iff.1 hv]
          cases ds with
          | nil => simp at hds
          | cons d ds =>
            obtain rfl : d = v := by simpa using hds
            simp only [Nat.zero_add, List.take_succ_cons, List.take_zero] at g2
            rcases g2 with g2 | ⟨l, hl, g2⟩
            · exact ((ruleAt_under.1 g2).1).prefixAt
            · obtain rfl : d = l := by simpa using hl
              exact (prefixAt_under.1 g2).1.prefix ⟨_, rfl⟩
      · have hfr : FreeOf separators dom := by
          rcases hsd with ⟨-, rfl, -⟩ | ⟨f, s2, x, rfl, rfl, -⟩
          · exact H.shape.free.1
          · exact (H.shape.free.2 (s2, dom) (by rw [e1]; simp)).2
        have hlast : (dom :: ((s, l0) :: more).map Prod.snd).getLast? = some l := by
          rw [← hll, e1, List.map_append, ← List.cons_append, List.getLast?_append, List.map_cons, List.getLast?_cons_cons]
          cases h0 : (l0 :: more.map Prod.snd).getLast? with
          | none => simp at h0
          | some y => rfl
        refine ⟨(s, l0) :: more, ⟨(List.append_nil _).symm, ⟨hfr, fun p hp => H.shape.free.2 p (by rw [e1]; exact List.mem_append_right _ hp)⟩, ⟨[], by simp, rfl⟩, ?_⟩, hlast⟩
        rw [hlast, ← hll]
        exact hl.last
    | suffixOnly => exact absurd rfl hne
  refine ⟨fun hff => ?_, ?_, hreg, ?_⟩
  · obtain ⟨host2, after2, n2, first2, rest2, tail2, k1, k2, k3, k4, k5, k6⟩ := C22_topRules idna htr e r h' ht
    obtain rfl := huniq k1 k2 k3 k4
    obtain ⟨rfl, rfl, rfl⟩ := k5.unique (shape_of_labels hl)
    exact k6 hff
  · intro e' sch ui host' after' port path x s hs k1 k2 k3 k4 k5 k6 k7 k8
    obtain ⟨host2, after2, n2, g1, g2, g3, g4, g5⟩ := C26_subdomain_partial idna _ e h' ht (.inr htr)
    obtain rfl := huniq g1 g2 g3 g4
    obtain ⟨r', j1, j2⟩ := g5 e' sch ui host' after' port path x s hs k1 k2 k3 k4 k5 k6 k7 k8
    refine ⟨r', ?_, j2⟩
    have hl' : HostLabels (x ++ encode s ++ n2) x ((s, first) :: rest) tail := by
      refine ⟨?_, ⟨k6, ?_⟩, hl.tail, ?_⟩
      · rw [hl.text]; simp [joinLabels]
      · intro p hp
        rcases List.mem_cons.1 hp with rfl | hp
        · exact ⟨hs, hl.free.1⟩
        · exact hl.free.2 p hp
      · simpa [List.getLast?_cons_cons] using hl.last
    rw [extract_under idna hstar e' k1 k2 k3 k4 hl' (by simpa [List.getLast?_cons_cons] using hll) hv]
    exact j1
  · intro hs hd h4 e' sch ui host' after' port path k1 k2 k3 k4
    obtain ⟨-, more, g1, g2⟩ := hreg hs
    obtain ⟨r', j1, j2⟩ := C27_registered_partial idna _ e h' ht hs htr hd h4 e' k1 k2 k3 k4
    refine ⟨r', ?_, j2⟩
    rw [extract_under idna hstar e' k1 k2 k3 k4 g1 g2 hv]
    exact j1

/-! ## The built-in list -/

variable {idna : Idna} {f : Bytes → Bytes} {priv : Bool} {lines : List Bytes}

theorem tops_builtIn (priv : Bool) : AllOK lineTop (builtInParts priv) := by
  cases priv with
  | false => exact topPublic
  | true => exact allOK_append topPublic topPrivate

theorem ends_of_top {r o : Bytes} {u : List Bytes} (hu : revLabels r = o :: u) : ∃ t, r = t ++ o := by
  rw [← join_revLabels r, hu]
  cases u with
  | nil => exact ⟨[], by simp [intercalate_singleton]⟩
  | cons x u =>
    obtain ⟨s, t, e1, e2, -⟩ := revLabels_prefix (q := [o]) (by simpa using hu) (by simp) (by simp)
    refine ⟨t ++ [46], ?_⟩
    have hs := join_revLabels s
    rw [e2] at hs
    have hs : s = o := by simpa [intercalate_singleton] using hs.symm
    rw [← hu, join_revLabels, e1, hs]; simp

/-- C61: no top-level label of the built-in list is a number. -/
theorem C61_no_octet (hb : BuiltIn priv lines) (hf : ByLabel idna.toASCII f (lines.filter (fun t => decide (IsRuleLine t))))
    {o : Bytes} (ho : IsOctet o) : ¬ PrefixAt (rulesOf idna.toASCII lines) [o] := by
  have hf := byLabel_used hb hf
  rw [builtIn_rules _ hb]
  intro h
  obtain ⟨r, hr, hp⟩ := (prefix_iff hf).1 h
  have hno : ¬ b! "xn--" <+: o := by
    rintro ⟨t, rfl⟩
    exact absurd (ho.digits 120 (by simp)) (by decide)
  have hl : ∃ u, revLabels r = o :: u := by
    rcases hp with ⟨u, e⟩ | hp
    · exact ⟨u, e.symm⟩
    · obtain ⟨p0, ⟨u, e1⟩, e2⟩ := prefix_map hp
      obtain ⟨l, rfl, e3⟩ := List.map_eq_singleton_iff.1 e2.symm
      rw [map_eq hf hno e3] at e1
      exact ⟨u, e1.symm⟩
  obtain ⟨u, hu⟩ := hl
  obtain ⟨t, ht⟩ := ends_of_top hu
  obtain ⟨n, h1, h2, rfl⟩ := mem_rulesIn.1 hr
  obtain ⟨b, hb⟩ : ∃ b, o.getLast? = some b := by
    cases h : o.getLast? with
    | none => exact absurd (List.getLast?_eq_none_iff.1 h) ho.ne_nil
    | some b => exact ⟨b, rfl⟩
  have := lineTop_sound (allOK_sound (tops_builtIn priv) n h1) h2 b (by rw [ht, List.getLast?_append, hb]; rfl)
  rw [ho.digits b (List.mem_of_getLast? hb)] at this
  simp at this

/-- C61: with the built-in list the whole of every IPv4 address is returned.  With punycode conversion this is the converted
host. -/
theorem C61_addresses (hb : BuiltIn priv lines) (hf : ByLabel idna.toASCII f (lines.filter (fun t => decide (IsRuleLine t))))
    (e : URLParams) {sch ui host q t after port path : Bytes}
    (hA : Authority e.url sch ui (host ++ after)) (hp : IsPlainHost host) (haf : AfterHost after port path)
    (hn : HostTextOf idna e.convertURLToPunyCode host (q ++ t)) (hq : IsQuad q) (ht : MadeOf separators t) :
    extract idna (trieOfText idna priv hardcodedPSL) e =
      .ok ({ scheme := sch, userInfo := ui, domain := q, registeredDomain := q, port := port, path := path,
             hostType := .iPv4 }, none) := by
  rw [builtIn_trie idna hb, extract_plain idna _ e hA hp haf, hostText_iff.2 hn]
  obtain ⟨o, h1, -, h3⟩ := hostF_of_ipv4 (buildTrie (rulesOf idna.toASCII lines)) e.ignoreSubDomains hq ht rfl
  have h3 := h3 fun d z hd _ _ => by
    cases hg : (buildTrie (rulesOf idna.toASCII lines)).get d with
    | none => rfl
    | some v =>
      have := buildTrie_has (rulesOf idna.toASCII lines) [d]
      rw [has_cons] at this
      simp only [List.cons_ne_nil, false_or, has_nil] at this
      exact absurd (this.1 ⟨v, hg, by simp⟩) (C61_no_octet hb hf hd)
  simp only [h1, h3, withFront]

/-- The same for a host that is an address as it is written, without punycode conversion. -/
theorem C61_addresses_written (hb : BuiltIn priv lines) (hf : ByLabel idna.toASCII f (lines.filter (fun t => decide (IsRuleLine t))))
    (e : URLParams) (hpu : e.convertURLToPunyCode = false) {sch ui q t after port path : Bytes}
    (hA : Authority e.url sch ui (q ++ t ++ after)) (haf : AfterHost after port path) (hq : IsQuad q) (ht : MadeOf separators t)
    (hi : idna.toUnicodeErr (q ++ t) = none) :
    extract idna (trieOfText idna priv hardcodedPSL) e =
      .ok ({ scheme := sch, userInfo := ui, domain := q, registeredDomain := q, port := port, path := path,
             hostType := .iPv4 }, none) := by
  rw [builtIn_trie idna hb]
  refine C15_noOctetTop idna (.inr fun o x ho h => ?_) e sch ui q t after port path hA haf hq ht hpu hi
  exact C61_no_octet hb hf ho (h.prefix ⟨[x], rfl⟩)

/-- The rules under `za` are in ASCII, so they do not depend on the conversion. -/
theorem za_rules (hb : BuiltIn priv lines) (hf : ByLabel idna.toASCII f (lines.filter (fun t => decide (IsRuleLine t)))) {p : List Bytes} :
    RuleAt (rulesOf idna.toASCII lines) (b! "za" :: p) ↔ ∃ r ∈ rulesIn (builtInParts priv), revLabels r = b! "za" :: p := by
  have hf := byLabel_used hb hf
  rw [builtIn_rules _ hb, rule_iff hf]
  constructor
  · rintro ⟨r, hr, e | e⟩
    · exact ⟨r, hr, e.symm⟩
    · obtain ⟨l, u, e1, e2, e3⟩ := List.map_eq_cons_iff.1 e.symm
      obtain rfl := map_eq hf (by decide) e2
      refine ⟨r, hr, ?_⟩
      rw [e, List.map_congr_left (g := id), List.map_id]
      intro l hl
      refine hf.ascii l fun b hb => ?_
      obtain ⟨t, ht⟩ := ends_of_top e1
      obtain ⟨n, h1, h2, rfl⟩ := mem_rulesIn.1 hr
      refine lineTop_za (allOK_sound (tops_builtIn priv) n h1) h2 ht b ?_
      rw [← join_revLabels (unpack n)]
      exact (intercalate_mem [46] (l := l) (by simpa using hl)).subset hb
  · rintro ⟨r, hr, e⟩
    exact ⟨r, hr, .inl e.symm⟩

theorem za_same (hb : BuiltIn priv lines) (hf : ByLabel idna.toASCII f (lines.filter (fun t => decide (IsRuleLine t)))) :
    SameBelow (rulesOf idna.toASCII lines) (rulesOf apartIdna.toASCII lines) (b! "za") := fun p => by
  rw [za_rules hb hf, za_rules hb (apart_byLabel _)]

/-- Under `za` the conversion does not matter. -/
theorem extract_za (hb : BuiltIn priv lines) (hf : ByLabel idna.toASCII f (lines.filter (fun t => decide (IsRuleLine t))))
    (e : URLParams) {sch ui host after port path n first tail l : Bytes} {rest : List (Nat × Bytes)}
    (hA : Authority e.url sch ui (host ++ after)) (hp : IsPlainHost host) (haf : AfterHost after port path)
    (hn : HostTextOf idna e.convertURLToPunyCode host n) (hl : HostLabels n first rest tail)
    (hll : (first :: rest.map Prod.snd).getLast? = some l) (hd : Decodes l (b! "za")) :
    extract idna (buildTrie (rulesOf idna.toASCII lines)) e = extract idna (buildTrie (rulesOf apartIdna.toASCII lines)) e := by
  refine C53_local idna e hA hp haf hn hl hll hd (za_same hb hf) (fun p => ?_) (fun h => absurd h (C54_no_top_star hb hf))
  constructor
  · intro hr; exact absurd ⟨_, ⟨p, rfl⟩, hr⟩ (C54_no_top_star hb hf)
  · intro hr; exact absurd ⟨_, ⟨p, rfl⟩, hr⟩ (C54_no_top_star hb (apart_byLabel _))

/-- C61: with the built-in list SubDomain and Domain hold no invalid characters but the three that are missed, for any URL. -/
theorem C61_chars (hb : BuiltIn priv lines) (hf : ByLabel idna.toASCII f (lines.filter (fun t => decide (IsRuleLine t))))
    (e : URLParams) {r : ExtractResult}
    (h : extract idna (trieOfText idna priv hardcodedPSL) e = .ok (r, none)) (ht : r.hostType = .hostName) :
    ∀ c ∈ invalidChars, c ∉ missedChars → ¬ encode c <:+: r.subDomain ∧ ¬ encode c <:+: r.domain := by
  rw [builtIn_trie idna hb] at h
  obtain ⟨host, after, n, first, rest, tail, o, hA, hp, haf, hn, hl, -, -⟩ := name_labels_result idna _ e h ht
  obtain ⟨l, hll⟩ : ∃ l, (first :: rest.map Prod.snd).getLast? = some l := by
    rw [List.getLast?_eq_some_getLast (by simp)]; exact ⟨_, rfl⟩
  have hv : ValueOf l (unescapeOrEmpty l) := valueOf_iff.2 rfl
  by_cases hz : unescapeOrEmpty l = b! "za"
  · rw [hz] at hv
    rcases hv with hd | ⟨-, hv⟩
    · rw [extract_za hb hf e hA hp haf hn hl hll hd] at h
      exact C21_wellFormed idna (C57_wellFormed hb (apart_byLabel _) (apart_faithful hb)) e h ht
    · exact absurd hv (by decide)
  · rw [extract_under idna (C54_no_top_star hb hf) e hA hp haf hn hl hll hv] at h
    exact C21_no_invalid_chars_partial idna _ e h ht (.inr ((topComplete_build _).2 (topRules_under (C54_top hb hf hz))))

/-- C54: with the built-in list the parts can be put together to the host, with or without punycode conversion, unless the
last label of the host is `za`.  With punycode conversion this is the converted host. -/
theorem C54_assembled (hb : BuiltIn priv lines) (hf : ByLabel idna.toASCII f (lines.filter (fun t => decide (IsRuleLine t))))
    (e : URLParams) (hig : e.ignoreSubDomains = false) {r : ExtractResult}
    (h : extract idna (trieOfText idna priv hardcodedPSL) e = .ok (r, none)) (ht : r.hostType = .hostName) :
    ∃ host after n first rest tail, Authority e.url r.scheme r.userInfo (host ++ after) ∧ IsPlainHost host ∧
      AfterHost after r.port r.path ∧ HostTextOf idna e.convertURLToPunyCode host n ∧ HostLabels n first rest tail ∧
      ∀ l, (first :: rest.map Prod.snd).getLast? = some l → ¬ Decodes l (b! "za") →
        ∃ seps, Assembled n r.subDomain r.domain r.suffix seps ∧ MadeOf separators seps := by
  rw [builtIn_trie idna hb] at h
  obtain ⟨host, after, n, first, rest, tail, o, hA, hp, haf, hn, hl, -, -⟩ := name_labels_result idna _ e h ht
  refine ⟨host, after, n, first, rest, tail, hA, hp, haf, hn, hl, fun l hll hza => ?_⟩
  have hv : ValueOf l (unescapeOrEmpty l) := valueOf_iff.2 rfl
  have hne : unescapeOrEmpty l ≠ b! "za" := by
    intro he
    rw [he] at hv
    rcases hv with hv | ⟨-, hv⟩
    · exact hza hv
    · exact absurd hv (by decide)
  rw [extract_under idna (C54_no_top_star hb hf) e hA hp haf hn hl hll hv] at h
  obtain ⟨host2, after2, n2, o2, k1, k2, k3, k4, h1, h2⟩ := name_result idna _ e h ht
  obtain ⟨-, -, he⟩ := Authority_unique k1 hA
  obtain ⟨rfl, -⟩ := host_unique k2 (afterHost_head k3) hp (afterHost_head haf) he
  rw [hostText_iff.2 hn] at k4
  injection k4 with k4
  subst k4
  rw [hig] at h2
  obtain ⟨seps, h3, -, h5⟩ := name_assembled h1 h2
  exact ⟨seps, h3, h5 (.inr ((topComplete_build _).2 (topRules_under (C54_top hb hf hne))))⟩

/-- C61: with the built-in list, for every host whose last label is not `za`: no label is empty (where U+FF61 does not
occur), a label more in front changes only SubDomain, and RegisteredDomain is divided in the same way again, unless
Domain begins with `-`. -/
theorem C61_names (hb : BuiltIn priv lines) (hf : ByLabel idna.toASCII f (lines.filter (fun t => decide (IsRuleLine t))))
    (e : URLParams) {r : ExtractResult}
    (h : extract idna (trieOfText idna priv hardcodedPSL) e = .ok (r, none)) (ht : r.hostType = .hostName) :
    ∃ host after n first rest tail, Authority e.url r.scheme r.userInfo (host ++ after) ∧ IsPlainHost host ∧
      AfterHost after r.port r.path ∧ HostTextOf idna e.convertURLToPunyCode host n ∧ HostLabels n first rest tail ∧
      ∀ l, (first :: rest.map Prod.snd).getLast? = some l → ¬ Decodes l (b! "za") →
        (¬ encode 0xFF61 <:+: n → first ≠ [] ∧ ∀ p ∈ rest, p.2 ≠ []) ∧
        (∀ (e' : URLParams) (sch ui host' after' port path x : Bytes), ∀ s ∈ separators,
          Authority e'.url sch ui (host' ++ after') → IsPlainHost host' → AfterHost after' port path →
          HostTextOf idna e'.convertURLToPunyCode host' (x ++ encode s ++ n) →
          x ≠ [] → FreeOf separators x → HostCharsOK x → ¬ IsIPv4 (x ++ encode s ++ n) →
          ∃ r', extract idna (trieOfText idna priv hardcodedPSL) e' = .ok (r', none) ∧ r'.hostType = .hostName ∧
            r'.domain = r.domain ∧ r'.suffix = r.suffix ∧ r'.registeredDomain = r.registeredDomain ∧
            (e.ignoreSubDomains = false → e'.ignoreSubDomains = false → (∀ a ∈ separators, ¬ encode a <+: n) →
              r'.subDomain = if r.subDomain = [] then x else x ++ encode s ++ r.subDomain)) ∧
        (r.suffix ≠ [] → ¬ encode 45 <+: r.domain → ∀ (e' : URLParams) (sch ui host' after' port path : Bytes),
          Authority e'.url sch ui (host' ++ after') → IsPlainHost host' → AfterHost after' port path →
          HostTextOf idna e'.convertURLToPunyCode host' r.registeredDomain →
          ∃ r', extract idna (trieOfText idna priv hardcodedPSL) e' = .ok (r', none) ∧ r'.hostType = .hostName ∧
            r'.domain = r.domain ∧ r'.suffix = r.suffix ∧ r'.registeredDomain = r.registeredDomain ∧ r'.subDomain = [] ∧
            r'.scheme = sch ∧ r'.userInfo = ui ∧ r'.port = port ∧ r'.path = path) := by
  rw [builtIn_trie idna hb] at h ⊢
  obtain ⟨host, after, n, first, rest, tail, h1, h2, h3, h4, h5, h6⟩ := C61_label idna _ (C54_no_top_star hb hf) e h ht
  refine ⟨host, after, n, first, rest, tail, h1, h2, h3, h4, h5, fun l hl hza => ?_⟩
  have hv : ValueOf l (unescapeOrEmpty l) := valueOf_iff.2 rfl
  have hne : unescapeOrEmpty l ≠ b! "za" := by
    intro he
    rw [he] at hv
    rcases hv with hv | ⟨-, hv⟩
    · exact hza hv
    · exact absurd hv (by decide)
  obtain ⟨k1, k2, k3, k4⟩ := h6 l _ hl hv (C54_top hb hf hne)
  refine ⟨k1, k2, fun hs hd => k4 hs hd ?_⟩
  -- the last label would be a number
  rintro ⟨q, t, ⟨a, b, c, d, r1, r2, r3, ha, hb', hc, hd, g1, g2, g3, rfl⟩, ht, he⟩
  obtain ⟨hp, more, j1, j2⟩ := k3 hs
  rw [he] at j1
  obtain ⟨q1, q2⟩ := quad_labels ha hb' hc hd g1 g2 g3 ht
  obtain ⟨e1, e2, -⟩ := (shape_of_labels j1).unique q1
  obtain rfl : d = l := by rw [e2] at j2; simpa using j2
  have hval := q2 _ (labelValues_iff.2 rfl)
  have : unescapeOrEmpty d = d := by
    have := congrArg List.head? hval
    simpa [fromRight] using this
  rw [this] at hp
  exact C61_no_octet hb hf hd hp

theorem nom_rules (hb : BuiltIn priv lines) (hf : ByLabel idna.toASCII f (lines.filter (fun t => decide (IsRuleLine t)))) :
    RuleAt (rulesOf idna.toASCII lines) [b! "za", b! "nom"] ∧ (∀ x, ¬ PrefixAt (rulesOf idna.toASCII lines) [b! "za", b! "nom", x]) ∧
    ¬ PrefixAt (rulesOf idna.toASCII lines) [b! "nom"] := by
  have hf := byLabel_used hb hf
  rw [builtIn_rules _ hb]
  refine ⟨?_, ?_, ?_⟩
  · exact rule_here hf (s := b! "nom.za") (public_rule priv (by decide +kernel) (by decide) (by decide) hasNomZa (by simp [fallbackPublicParts]))
  · exact not_open hf (p := [b! "za", b! "nom"]) (by simp) (by decide)
      (closed_rule priv (s := b! "nom.za") (by decide) (by decide +kernel) (by decide +kernel))
  · exact not_prefix hf (p := [b! "nom"]) (by simp) (by decide)
      (absent_rule priv (s := b! "nom") (by decide) (by decide +kernel))
      (closed_rule priv (s := b! "nom") (by decide) (by decide +kernel) (by decide +kernel))

/-- C61: for hosts under `za` all three fail: `.za` is accepted, `a..za` is not, and `example.nom`, which is RegisteredDomain
for `example.nom.za`, has no suffix. -/
theorem C61_za (hb : BuiltIn priv lines) (hf : ByLabel idna.toASCII f (lines.filter (fun t => decide (IsRuleLine t))))
    (hu : ∀ s ∈ [b! ".za", b! "a..za", b! "example.nom.za", b! "example.nom"], idna.toUnicodeErr s = none) :
    extract idna (trieOfText idna priv hardcodedPSL) { url := b! ".za" } = .ok ({ domain := b! "za", hostType := .hostName }, none) ∧
    extract idna (trieOfText idna priv hardcodedPSL) { url := b! "a..za" } = .ok ({}, some .consecutiveSeparators) ∧
    extract idna (trieOfText idna priv hardcodedPSL) { url := b! "example.nom.za" } =
      .ok ({ domain := b! "example", suffix := b! "nom", registeredDomain := b! "example.nom", hostType := .hostName }, none) ∧
    extract idna (trieOfText idna priv hardcodedPSL) { url := b! "example.nom" } =
      .ok ({ subDomain := b! "example", domain := b! "nom", hostType := .hostName }, none) := by
  obtain ⟨h1, h2, h3, -⟩ := za_not_rule hb hf
  obtain ⟨n1, n2, n3⟩ := nom_rules hb hf
  have h5 := C54_no_top_star hb hf
  have hza : PrefixAt (rulesOf idna.toASCII lines) [b! "za"] := ⟨_, ⟨[b! "co"], rfl⟩, h3⟩
  rw [builtIn_trie idna hb]
  have dec : ∀ s, s ∈ [b! ".za", b! "a..za", b! "a", [], b! "example.nom.za", b! "example.nom", b! "za", b! "nom", b! "example"] → Decodes s s := by
    intro s hs
    rw [← queryUnescape_iff]
    revert s
    decide +kernel
  have not4 : ∀ s, s ∈ [b! "example.nom.za", b! "example.nom"] → ¬ IsIPv4 s := by
    intro s hs
    obtain ⟨b, hb, hi⟩ := isIPv4_eq s
    rw [← hi]
    have : ∀ s, s ∈ [b! "example.nom.za", b! "example.nom"] → isIPv4 s = .ok false := by decide +kernel
    rw [this s hs] at hb
    cases hb
    simp
  refine ⟨?_, ?_, ?_, ?_⟩
  · obtain ⟨i1, i2, i3, -⟩ := za_not_rule hb (apart_byLabel (lines.filter (fun t => decide (IsRuleLine t))))
    have := (extracts_dot idna (C57_wellFormed hb (apart_byLabel _) (apart_faithful hb))
      (fun h => C54_no_top_star hb (apart_byLabel _) h.prefixAt) (t := b! "za") (hu _ (by simp)) ⟨_, ⟨[b! "co"], rfl⟩, i3⟩ i1 i2).2.2.2.2
    rw [extract_za hb hf { url := b! ".za" } (sch := []) (ui := []) (host := b! ".za") (after := []) (port := []) (path := []) (n := b! ".za")
      (first := []) (rest := [(46, b! "za")]) (tail := []) (l := b! "za") (authority_iff.2 (by decide +kernel))
      (by unfold IsPlainHost; decide) ⟨.inl rfl, .inl ⟨rfl, rfl⟩⟩ ⟨b! ".za", dec _ (by simp), .inl ⟨rfl, hu _ (by simp), rfl⟩⟩ ?_ rfl (dec _ (by simp))]
    · exact (extracts_iff ..).2 this
    · refine ⟨by decide +kernel, ?_, madeOf_nil _, by decide⟩
      unfold FreeOf
      decide +kernel
  · rw [C52_extract]
    refine ⟨[], [], b! "a..za", .name (b! "a..za") [], authority_iff.2 (by decide +kernel), ?_, ?_⟩
    · exact .name (host := b! "a..za") (after := []) (by unfold IsPlainHost; decide) (by simp)
    · refine .host (n := b! "a..za") (r := {}) ⟨.inl rfl, .inl ⟨rfl, rfl⟩⟩ ⟨_, dec _ (by simp), .inl ⟨rfl, hu _ (by simp), rfl⟩⟩ ?_
      refine ⟨b! "a", [(46, []), (46, b! "za")], [], [b! "za", [], b! "a"], none, ?_, ?_, ?_, .consecutive⟩
      · refine ⟨by decide +kernel, ?_, madeOf_nil _, ?_⟩
        · unfold FreeOf; decide +kernel
        · intro f s h
          have := congrArg List.getLast? h
          simp at this
      · exact ⟨.inl (dec _ (by simp)), .inl (dec _ (by simp)), .inl (dec _ (by simp)), trivial⟩
      · refine .stuck (m := 1) ⟨by decide, .inr (by simpa using hza), ?_, ?_⟩ (.inr ⟨b! "co", .inr (by simpa using h3.prefixAt)⟩) rfl (by decide)
        · intro j hj
          obtain rfl : j = 0 := by omega
          rintro (h | h)
          · simp at h
          · exact h5 h
        · intro j hj _
          obtain rfl : j = 0 := by omega
          decide
  · rw [C52_extract]
    refine ⟨[], [], b! "example.nom.za", .name (b! "example.nom.za") [], authority_iff.2 (by decide +kernel), ?_, ?_⟩
    · exact .name (host := b! "example.nom.za") (after := []) (by unfold IsPlainHost; decide) (by simp)
    · refine .host (n := b! "example.nom.za") (r := { domain := b! "example", suffix := b! "nom", registeredDomain := b! "example.nom", hostType := .hostName }) ⟨.inl rfl, .inl ⟨rfl, rfl⟩⟩ ⟨_, dec _ (by simp), .inl ⟨rfl, hu _ (by simp), rfl⟩⟩ ?_
      refine ⟨b! "example", [(46, b! "nom"), (46, b! "za")], [], [b! "za", b! "nom", b! "example"],
        some ⟨2, 1, 2, some 1⟩, ?_, ?_, ?_, ?_⟩
      · refine ⟨by decide +kernel, ?_, madeOf_nil _, ?_⟩
        · unfold FreeOf; decide +kernel
        · intro f s h
          have := congrArg List.getLast? h
          simp at this
      · exact ⟨.inl (dec _ (by simp)), .inl (dec _ (by simp)), .inl (dec _ (by simp)), trivial⟩
      · refine .ends ⟨by decide, .inr ⟨_, List.prefix_rfl, n1⟩, ?_, ?_⟩ (.all (.inr ?_)) (.at (by decide) (.inl n1) ?_)
        · intro j hj
          match j, hj with
          | 0, _ => rintro (h | h); · simp at h
                    exact h5 h
          | 1, _ => rintro (h | h); · simp at h
                    exact h2 h
        · intro j hj _
          match j, hj with
          | 0, _ => decide
          | 1, _ => decide
        · rintro (h | ⟨x, h | h⟩)
          · simp at h
          · simp at h
          · exact n2 x h
        · intro j hj
          obtain rfl : j = 0 := by omega
          rintro (h | ⟨l, e, h⟩)
          · exact h1 h
          · obtain rfl : b! "za" = l := by simpa using e
            exact h2 h
      · refine .name (t := b! "example") (not4 _ (by simp)) ?_ ?_ ?_ (by decide)
        · exact .suffix rfl (by decide)
        · rw [← hasInvalidChars_false_iff]; decide +kernel
        · exact .suffix (front := []) (s := 46) (l := b! "nom") (more := []) (back := [(46, b! "za")]) rfl rfl rfl
            (.inl ⟨rfl, rfl, rfl⟩)
  · rw [C52_extract]
    refine ⟨[], [], b! "example.nom", .name (b! "example.nom") [], authority_iff.2 (by decide +kernel), ?_, ?_⟩
    · exact .name (host := b! "example.nom") (after := []) (by unfold IsPlainHost; decide) (by simp)
    · refine .host (n := b! "example.nom") (r := { subDomain := b! "example", domain := b! "nom", hostType := .hostName }) ⟨.inl rfl, .inl ⟨rfl, rfl⟩⟩ ⟨_, dec _ (by simp), .inl ⟨rfl, hu _ (by simp), rfl⟩⟩ ?_
      refine ⟨b! "example", [(46, b! "nom")], [], [b! "nom", b! "example"], some ⟨0, 0, 0, none⟩, ?_, ?_, ?_, ?_⟩
      · refine ⟨by decide +kernel, ?_, madeOf_nil _, ?_⟩
        · unfold FreeOf; decide +kernel
        · intro f s h
          have := congrArg List.getLast? h
          simp at this
      · exact ⟨.inl (dec _ (by simp)), .inl (dec _ (by simp)), trivial⟩
      · refine .ends ⟨by decide, .inl rfl, by simp, by simp⟩ (.unknown (l := b! "nom") (.inl rfl) rfl (by decide) ?_ ?_) (.none (by simp))
        · rintro (h | h)
          · simp at h
          · exact h5 h
        · rintro (h | h)
          · simp at h
          · exact n3 h
      · refine .name (t := b! "example.nom") (not4 _ (by simp)) ?_ ?_ ?_ (by decide)
        · exact .noSuffix rfl
        · rw [← hasInvalidChars_false_iff]; decide +kernel
        · exact .noSuffix (.inr ⟨[], 46, b! "nom", rfl, rfl, rfl⟩)

-- an address; the result for a host name that C61_names speaks of is the last one of C61_za
example (hb : BuiltIn priv lines) : extract apartIdna (trieOfText apartIdna priv hardcodedPSL) { url := b! "ftp://1.2.3.4./x" } =
    .ok ({ scheme := b! "ftp://", domain := b! "1.2.3.4", registeredDomain := b! "1.2.3.4", path := b! "/x", hostType := .iPv4 }, none) := by
  have oct : ∀ n, n ≤ 255 → IsOctet (decimal n) := fun n hn => ⟨n, hn, rfl⟩
  refine C61_addresses_written hb (apart_byLabel _) { url := b! "ftp://1.2.3.4./x" } rfl (sch := b! "ftp://") (ui := []) (q := b! "1.2.3.4") (t := b! ".")
    (after := b! "/x") (authority_iff.2 (by decide +kernel)) ⟨.inr ⟨47, b! "x", rfl, rfl⟩, .inl ⟨rfl, rfl⟩⟩ ?_ ⟨[46], by decide, by decide⟩ rfl
  exact ⟨_, _, _, _, 46, 46, 46, oct 1 (by decide), oct 2 (by decide), oct 3 (by decide), oct 4 (by decide), by decide, by decide, by decide,
    by decide +kernel⟩
-- with punycode conversion, an address that the URL holds with an escape
example (hb : BuiltIn priv lines) :
    extract apartIdna (trieOfText apartIdna priv hardcodedPSL) { url := b! "1%2e2.3.4", convertURLToPunyCode := true } =
    .ok ({ domain := b! "1.2.3.4", registeredDomain := b! "1.2.3.4", hostType := .iPv4 }, none) := by
  have oct : ∀ n, n ≤ 255 → IsOctet (decimal n) := fun n hn => ⟨n, hn, rfl⟩
  refine C61_addresses hb (apart_byLabel _) { url := b! "1%2e2.3.4", convertURLToPunyCode := true } (sch := []) (ui := [])
    (host := b! "1%2e2.3.4") (q := b! "1.2.3.4") (t := []) (after := []) (authority_iff.2 (by decide +kernel)) (by unfold IsPlainHost; decide)
    ⟨.inl rfl, .inl ⟨rfl, rfl⟩⟩ (hostText_iff.1 (by decide +kernel)) ?_ (madeOf_nil _)
  exact ⟨_, _, _, _, 46, 46, 46, oct 1 (by decide), oct 2 (by decide), oct 3 (by decide), oct 4 (by decide), by decide, by decide, by decide,
    by decide +kernel⟩
example (hb : BuiltIn priv lines) : extract apartIdna (trieOfText apartIdna priv hardcodedPSL) { url := b! "example.nom" } =
    .ok ({ subDomain := b! "example", domain := b! "nom", hostType := .hostName }, none) ∧ ¬ Decodes (b! "nom") (b! "za") := by
  refine ⟨(C61_za hb (apart_byLabel _) (fun _ _ => rfl)).2.2.2, ?_⟩
  rw [← queryUnescape_iff]
  decide +kernel

end Fasttld.Props
