import Verif.Props.Lists
import Verif.Props.Relate

/-!
# C23: exactly which spellings are accepted
-/

set_option linter.unusedSimpArgs false

namespace Fasttld.Props
open Fasttld Fasttld.Spec Trie

/-- No separator other than U+FF61 begins the text or is next to another one. -/
def SeparatedOnce (t : Bytes) : Prop :=
  (∀ a ∈ strictSeparators, ¬ encode a <+: t) ∧ ∀ a ∈ strictSeparators, ∀ b ∈ strictSeparators, ¬ encode a ++ encode b <:+: t

/-- The same labels, with other separators between them. -/
structure Respelled (rest rest' : List SepLabel) : Prop where
  labels : rest'.map Prod.snd = rest.map Prod.snd
  seps : ∀ p ∈ rest', p.1 ∈ separators

theorem Respelled.length {rest rest' : List SepLabel} (h : Respelled rest rest') : rest'.length = rest.length := by
  simpa using congrArg List.length h.labels

theorem Respelled.fromRight {rest rest' : List SepLabel} (h : Respelled rest rest') (first : Bytes) :
    fromRight first rest' = fromRight first rest := by
  unfold Spec.fromRight; rw [h.labels]

theorem Respelled.append {a b rest' : List SepLabel} (h : Respelled (a ++ b) rest') :
    ∃ a' b', rest' = a' ++ b' ∧ Respelled a a' ∧ Respelled b b' := by
  have h1 := h.labels
  rw [List.map_append] at h1
  obtain ⟨a', b', rfl, h2, h3⟩ := List.map_eq_append_iff.1 h1
  exact ⟨a', b', rfl, ⟨h2, fun p hp => h.seps p (by simp [hp])⟩, ⟨h3, fun p hp => h.seps p (by simp [hp])⟩⟩

theorem Respelled.cons {p : SepLabel} {b rest' : List SepLabel} (h : Respelled (p :: b) rest') :
    ∃ s b', rest' = (s, p.2) :: b' ∧ s ∈ separators ∧ Respelled b b' := by
  have h1 := h.labels
  cases rest' with
  | nil => simp at h1
  | cons q b' =>
    simp at h1
    refine ⟨q.1, b', by rw [← h1.1], h.seps q (by simp), ⟨h1.2, fun p hp => h.seps p (by simp [hp])⟩⟩

theorem Respelled.same {first : Bytes} {rest rest' : List SepLabel} (h : Respelled rest rest')
    (hf : FreeOf separators first) (hr : ∀ p ∈ rest, p.1 ∈ separators ∧ FreeOf separators p.2) :
    SameLabels (joinLabels first rest) (joinLabels first rest') := by
  refine ⟨first, rest, rest', ⟨rfl, hf, hr⟩, ⟨rfl, hf, fun p hp => ⟨h.seps p hp, ?_⟩⟩, h.labels.symm⟩
  have : p.2 ∈ rest.map Prod.snd := by rw [← h.labels]; exact List.mem_map_of_mem hp
  obtain ⟨q, hq, hqe⟩ := List.mem_map.1 this
  rw [← hqe]; exact (hr q hq).2

theorem sameLabels_free {l : Bytes} (h : FreeOf separators l) : SameLabels l l :=
  ⟨l, [], [], ⟨rfl, h, by simp⟩, ⟨rfl, h, by simp⟩, rfl⟩

/-- The parts of the name in the other spelling. -/
theorem parts_respelled {first : Bytes} {rest rest' : List SepLabel} (h : Respelled rest rest')
    (hf : FreeOf separators first) (hr : ∀ p ∈ rest, p.1 ∈ separators ∧ FreeOf separators p.2) {mark : Option Nat} {cut : Nat}
    {sub dom suf reg : Bytes} (hp : Parts first rest mark cut sub dom suf reg) :
    ∃ sub' suf' reg', Parts first rest' mark cut sub' dom suf' reg' ∧ SameLabels sub sub' ∧ SameLabels suf suf' ∧
      SameLabels reg reg' := by
  have hnil : SameLabels [] [] := sameLabels_free (freeOf_nil goodSet_separators)
  have hsd : ∀ {front front' : List SepLabel} {sub dom : Bytes}, Respelled front front' →
      (∀ p ∈ front, p.1 ∈ separators ∧ FreeOf separators p.2) → SubAndDomain first front sub dom →
      ∃ sub', SubAndDomain first front' sub' dom ∧ SameLabels sub sub' ∧ FreeOf separators dom := by
    rintro front front' sub dom hs hfr (⟨rfl, rfl, rfl⟩ | ⟨f, s, l, rfl, rfl, rfl⟩)
    · have : front' = [] := List.length_eq_zero_iff.1 (by rw [hs.length]; rfl)
      exact ⟨[], .inl ⟨this, rfl, rfl⟩, hnil, hf⟩
    · obtain ⟨f', b', rfl, h1, h2⟩ := hs.append
      obtain ⟨s', b'', rfl, -, h3⟩ := h2.cons
      have : b'' = [] := List.length_eq_zero_iff.1 (by rw [h3.length]; rfl)
      subst this
      exact ⟨_, .inr ⟨f', s', dom, rfl, rfl, rfl⟩, h1.same hf (fun p hp => hfr p (by simp [hp])), (hfr (s, dom) (by simp)).2⟩
  cases hp with
  | noSuffix g =>
    obtain ⟨sub', g1, g2, -⟩ := hsd h hr g
    exact ⟨sub', [], [], .noSuffix g1, g2, hnil, hnil⟩
  | @suffix front s l more back e cut sub dom e1 e2 e3 g =>
    subst e1
    obtain ⟨x, back', rfl, h1, h2⟩ := h.append
    obtain ⟨front', y, rfl, h3, h4⟩ := h1.append
    obtain ⟨s', more', rfl, hs', h5⟩ := h4.cons
    obtain ⟨sub', g1, g2, g3⟩ := hsd h3 (fun p hp => hr p (by simp [hp])) g
    refine ⟨sub', joinLabels l more', joinLabels dom ((s', l) :: more'), .suffix rfl (by rw [h2.length, e2])
      (by rw [h5.length]; exact e3) g1, g2, ?_, ?_⟩
    · exact h5.same (hr (s, l) (by simp)).2 (fun p hp => hr p (by simp [hp]))
    · refine Respelled.same ⟨by simp [h5.labels], ?_⟩ g3 ?_
      · intro p hp
        rcases List.mem_cons.1 hp with rfl | hp
        · exact hs'
        · exact h5.seps p hp
      · intro p hp
        exact hr p (by
          rcases List.mem_cons.1 hp with rfl | hp
          · simp
          · simp [hp])
  | @suffixOnly front back e cut e1 e2 e3 =>
    subst e1
    obtain ⟨front', back', rfl, h1, h2⟩ := h.append
    exact ⟨[], joinLabels first front', [], .suffixOnly rfl (by rw [h2.length, e2])
      (by simp only [List.length_append, h1.length, h2.length] at e3 ⊢; exact e3), hnil,
      h1.same hf (fun p hp => hr p (by simp [hp])), hnil⟩

theorem runes_head_prefix {a : Nat} (ha : a ∈ strictSeparators) {s : Bytes} (h : (runes s).head? = some a) : encode a <+: s := by
  obtain ⟨h1, h2⟩ := goodSet_separators a (strict_sub ha)
  unfold runes at h
  cases ht : toks s with
  | nil => rw [ht] at h; simp at h
  | cons t B =>
    rw [ht] at h; simp at h
    exact (prefix_encode_iff h1 h2 s).2 ⟨B, t, ht, h⟩

theorem runes_pair_infix {a b : Nat} (ha : a ∈ strictSeparators) (hb : b ∈ strictSeparators) {s : Bytes}
    (h : [a, b] <:+: runes s) : encode a ++ encode b <:+: s := by
  obtain ⟨X, Y, h⟩ := h
  unfold runes at h
  obtain ⟨A, B, h1, h2, -⟩ := List.map_eq_append_iff.1 h.symm
  obtain ⟨A', C, rfl, -, h4⟩ := List.map_eq_append_iff.1 h2
  match C, h4 with
  | [t, u], h4 =>
    simp at h4
    obtain ⟨rfl, rfl⟩ := h4
    have e1 := isTok_inSet goodSet_separators (isTok_of_mem (s := s) (t := t) (by simp [h1])) (strict_sub ha)
    have e2 := isTok_inSet goodSet_separators (isTok_of_mem (s := s) (t := u) (by simp [h1])) (strict_sub hb)
    refine ⟨flat A', flat B, ?_⟩
    rw [← flat_toks s, h1]
    simp only [flat_append, flat_cons, flat_nil, List.append_assoc, List.append_nil]
    rw [show t.2 = encode t.1 from congrArg Prod.snd e1, show u.2 = encode u.1 from congrArg Prod.snd e2]

theorem checked_unique {n first : Bytes} {rest : List SepLabel} {w : Walked} {t t' : Bytes} (h : Checked n first rest w t)
    (h' : Checked n first rest w t') : t = t' := by
  cases h with
  | noSuffix h1 =>
    cases h' with
    | noSuffix => rfl
    | suffix h2 => rw [h1] at h2; cases h2
    | suffixOnly h2 => rw [h1] at h2; cases h2
  | suffix h1 h3 =>
    cases h' with
    | noSuffix h2 => rw [h1] at h2; cases h2
    | suffix => rfl
    | suffixOnly _ h2 => omega
  | suffixOnly h1 h3 =>
    cases h' with
    | noSuffix h2 => rw [h1] at h2; cases h2
    | suffix _ h2 => omega
    | suffixOnly => rfl

/-- Whether the name in the other spelling passes the check of characters. -/
theorem chars_respelled {first : Bytes} {rest rest' : List SepLabel} (h : Respelled rest rest')
    (hr : ∀ p ∈ rest, p.1 ∈ separators) (k : Nat) (hc : HostCharsOK (textTo first rest k)) :
    HostCharsOK (textTo first rest' k) ↔ SeparatedOnce (textTo first rest' k) := by
  constructor
  · exact fun h => ⟨h.2.2.1, h.2.2.2.1⟩
  · rintro ⟨k1, k2⟩
    have hrel : SepRel (runes (textTo first rest k)) (runes (textTo first rest' k)) := by
      unfold textTo
      rw [joinLabels_eq, joinLabels_eq]
      apply sepRel_joinR
      · unfold SameLabs
        rw [List.map_reverse, List.map_reverse, List.map_take, List.map_take, h.labels, h.length]
      · intro p hp
        exact hr p (List.mem_of_mem_take (by simpa using hp))
      · intro p hp
        exact h.seps p (List.mem_of_mem_take (by simpa using hp))
    have hc' := (hostCharsOK_iff _).1 hc
    obtain ⟨h1, -, h3, -, h5⟩ := hc'
    have g5 : ∀ c ∈ runes (textTo first rest' k), ¬ (c ∈ invalidChars ∧ c ∉ missedChars) := by
      rintro c hx ⟨hi, hm⟩
      rcases hrel.mem hx with hx | hx
      · exact h5 c hx ⟨hi, hm⟩
      · exact sep_not_invalid hx hi
    have g1 : (runes (textTo first rest' k)).head? ≠ some 45 := by
      intro hx
      rcases hrel.head hx with hx | ⟨hx, -⟩
      · exact h1 hx
      · exact sep_ne_dash hx rfl
    have g3 : (runes (textTo first rest' k)).getLast? ≠ some 45 := by
      intro hx
      rcases hrel.getLast hx with hx | hx
      · exact h3 hx
      · exact sep_ne_dash hx rfl
    refine (hostCharsOK_iff _).2 ⟨g1, ?_, g3, ?_, g5⟩
    · exact fun a ha hx => k1 a ha (runes_head_prefix ha hx)
    · exact fun a ha b hb hx => k2 a ha b hb (runes_pair_infix ha hb hx)

/-- C23, exactly: if a host name is accepted, then there is a number of labels at its end such that another spelling of the
same labels is accepted, with the same labels in the parts, if and only if, before those labels, no separator other than U+FF61
begins it or is next to another one.  Otherwise the error is that of invalid characters. -/
theorem C23_exact (idna : Idna) (rules : List Bytes) (e : URLParams) {r : ExtractResult}
    (h : extract idna (buildTrie rules) e = .ok (r, none)) (ht : r.hostType = .hostName) :
    ∃ host after n first rest tail k, Authority e.url r.scheme r.userInfo (host ++ after) ∧ IsPlainHost host ∧
      AfterHost after r.port r.path ∧ HostTextOf idna e.convertURLToPunyCode host n ∧ HostShape n first rest tail ∧
      ∀ (e' : URLParams) (sch ui host' after' port path n' : Bytes) (rest' : List SepLabel) (tail' : Bytes),
        e'.ignoreSubDomains = e.ignoreSubDomains →
        Authority e'.url sch ui (host' ++ after') → IsPlainHost host' → AfterHost after' port path →
        HostTextOf idna e'.convertURLToPunyCode host' n' → HostShape n' first rest' tail' → Respelled rest rest' →
        (SeparatedOnce (textTo first rest' k) →
          ∃ r', extract idna (buildTrie rules) e' = .ok (r', none) ∧ r'.hostType = .hostName ∧
            SameLabels r.subDomain r'.subDomain ∧ r'.domain = r.domain ∧ SameLabels r.suffix r'.suffix ∧
            SameLabels r.registeredDomain r'.registeredDomain) ∧
        (¬ SeparatedOnce (textTo first rest' k) →
          extract idna (buildTrie rules) e' =
            .ok ({ scheme := sch, userInfo := ui, port := port, path := path }, some .invalidCharacters)) := by
  obtain ⟨host, after, n, first, rest, tail, ds, m, seen, cut, mark, H⟩ := accepted h ht
  obtain ⟨t, hch, hok⟩ := H.checked
  obtain ⟨sub, hp, hsub⟩ := H.parts
  -- the domain is not empty, so the suffix is not the whole host
  have hcut : ∀ x, mark = some x → cut ≤ rest.length := by
    intro x hx
    refine Classical.byContradiction fun hc => H.domain ?_
    subst hx
    generalize r.domain = dom at hp ⊢
    generalize r.suffix = suf at hp
    generalize r.registeredDomain = reg at hp
    cases hp with
    | suffix e1 e2 e3 g => exfalso; apply hc; rw [e1]; simp; omega
    | suffixOnly => rfl
  obtain ⟨k, hk⟩ : ∃ k, ∀ rest' n', rest'.length = rest.length → Checked n' first rest' ⟨m, seen, cut, mark⟩ (textTo first rest' k) := by
    cases mark with
    | none => exact ⟨seen, fun rest' n' _ => .noSuffix rfl⟩
    | some x => exact ⟨m, fun rest' n' hl => .suffix rfl (by rw [hl]; exact hcut x rfl)⟩
  have htk : t = textTo first rest k := checked_unique hch (hk rest n rfl)
  subst htk
  refine ⟨host, after, n, first, rest, tail, k, H.authority, H.plain, H.after, H.text, H.shape, ?_⟩
  intro e' sch ui host' after' port path n' rest' tail' hig hA' hp' haf' hn' hsh' hre
  have hfree := H.shape.free
  have h4 : ¬ IsIPv4 n' := by
    rintro ⟨q, t', ⟨a, b, c, d, r1, r2, r3, ha, hb, hc, hd, e1, e2, e3, rfl⟩, ht', rfl⟩
    obtain ⟨hs, -⟩ := quad_labels ha hb hc hd e1 e2 e3 ht'
    obtain ⟨rfl, rfl, rfl⟩ := hsh'.unique hs
    have hl := hre.labels
    obtain ⟨x, y, z, hxyz⟩ : ∃ x y z, rest = [x, y, z] := by
      have hlen := hre.length
      match rest, hlen with
      | [x, y, z], _ => exact ⟨x, y, z, rfl⟩
    · rw [hxyz] at hl hfree
      simp at hl
      obtain ⟨rfl, rfl, rfl⟩ := hl
      refine H.not4 ⟨first ++ encode x.1 ++ x.2 ++ encode y.1 ++ y.2 ++ encode z.1 ++ z.2, tail,
        ⟨first, x.2, y.2, z.2, x.1, y.1, z.1, ha, hb, hc, hd, (hfree.2 x (by simp)).1, (hfree.2 y (by simp)).1,
          (hfree.2 z (by simp)).1, rfl⟩, H.shape.tail, ?_⟩
      rw [H.shape.text, hxyz]; simp [joinLabels]
  have hat : HostAt (host' ++ after') (.name host' after') := .name hp' (afterHost_head haf')
  have hrd : Reading rules (fromRight first rest') ds (some ⟨m, seen, cut, mark⟩) := by
    rw [hre.fromRight]; exact .ends H.follows H.stops H.marks
  have hlv : LabelValues (fromRight first rest') ds := by rw [hre.fromRight]; exact H.values
  have hiff := chars_respelled hre (fun p hp => (hfree.2 p hp).1) k hok
  constructor
  · intro hso
    obtain ⟨sub', suf', reg', g1, g2, g3, g4⟩ := parts_respelled hre hfree.1 hfree.2 hp
    refine ⟨_, (extracts_iff ..).2 ⟨sch, ui, _, _, hA', hat, .host haf' hn'
      ⟨first, rest', tail', ds, _, hsh', hlv, hrd, .name h4 (hk rest' n' hre.length) (hiff.2 hso) g1 H.domain⟩⟩,
      rfl, ?_, rfl, g3, g4⟩
    simp only [hsub, hig]
    split
    · exact sameLabels_free (freeOf_nil goodSet_separators)
    · exact g2
  · intro hso
    exact (extracts_iff ..).2 ⟨sch, ui, _, _, hA', hat, .host haf' hn'
      ⟨first, rest', tail', ds, _, hsh', hlv, hrd, .invalid h4 (hk rest' n' hre.length) (fun hx => hso (hiff.1 hx))⟩⟩

/-- No label is empty, except perhaps the last one. -/
def NoEmptyInside (first : Bytes) (part : List SepLabel) : Prop :=
  (part ≠ [] → first ≠ []) ∧ ∀ a p q b, part = a ++ p :: q :: b → p.2 ≠ []

/-- All spellings satisfy the condition if and only if no label is empty, except perhaps the last one before the `k` labels
at the end. -/
theorem C23_all_spellings {first : Bytes} {rest : List SepLabel} (hf : FreeOf separators first)
    (hr : ∀ p ∈ rest, p.1 ∈ separators ∧ FreeOf separators p.2) (k : Nat) :
    (∀ rest', Respelled rest rest' → SeparatedOnce (textTo first rest' k)) ↔
      NoEmptyInside first (rest.take (rest.length - k)) := by
  constructor
  · intro H
    have hre : Respelled rest (rest.map (fun p => (0x2E, p.2))) := by
      refine ⟨by rw [List.map_map]; rfl, fun p hp => ?_⟩
      obtain ⟨q, -, rfl⟩ := List.mem_map.1 hp
      exact (by decide : 0x2E ∈ separators)
    obtain ⟨h1, h2⟩ := H _ hre
    unfold textTo at h1 h2
    rw [List.length_map, ← List.map_take] at h1 h2
    generalize rest.take (rest.length - k) = part at h1 h2
    refine ⟨fun hne hnil => ?_, ?_⟩
    · cases part with
      | nil => exact hne rfl
      | cons p part =>
        apply h1 0x2E (by decide)
        rw [hnil]
        exact ⟨joinLabels p.2 (part.map (fun p => (0x2E, p.2))), by simp [joinLabels]⟩
    · rintro a p q b rfl hnil
      apply h2 0x2E (by decide) 0x2E (by decide)
      rw [List.map_append, List.map_cons, List.map_cons, joinLabels_append, hnil]
      exact ⟨joinLabels first (a.map (fun p => (0x2E, p.2))), joinLabels q.2 (b.map (fun p => (0x2E, p.2))), by
        simp [joinLabels]⟩
  · intro hno rest' hre
    have hrel : Respelled (rest.take (rest.length - k)) (rest'.take (rest'.length - k)) := by
      refine ⟨by rw [List.map_take, List.map_take, hre.labels, hre.length], fun p hp => hre.seps p (List.mem_of_mem_take hp)⟩
    have hfr : ∀ p ∈ rest'.take (rest'.length - k), p.1 ∈ separators ∧ FreeOf separators p.2 := by
      intro p hp
      have hm : p.2 ∈ rest.map Prod.snd := by
        rw [← hre.labels]; exact List.mem_map_of_mem (List.mem_of_mem_take hp)
      obtain ⟨q, hq, hqe⟩ := List.mem_map.1 hm
      exact ⟨hrel.seps p hp, hqe ▸ (hr q hq).2⟩
    have hno' : NoEmptyInside first (rest'.take (rest'.length - k)) := by
      refine ⟨fun hne => hno.1 (fun hnil => hne ?_), ?_⟩
      · rw [hnil] at hrel
        exact List.length_eq_zero_iff.1 (by rw [hrel.length]; rfl)
      · intro a p q b hab hnil
        have hl := hrel.labels
        rw [hab] at hl
        simp only [List.map_append, List.map_cons] at hl
        obtain ⟨a', c, h1, h2, h3⟩ := List.map_eq_append_iff.1 hl.symm
        match c, h3 with
        | [p'], h3 => simp at h3
        | p' :: q' :: b', h3 =>
          simp at h3
          exact hno.2 a' p' q' b' h1 (h3.1.trans hnil)
    suffices ho : SepOnce (runes (textTo first rest' k)) from
      ⟨fun a ha hx => by
          obtain ⟨h1, h2⟩ := goodSet_separators a (strict_sub ha)
          obtain ⟨B, t, ht, hta⟩ := (prefix_encode_iff h1 h2 _).1 hx
          apply ho.1 a (strict_sub ha)
          unfold runes; rw [ht]; simp [hta],
        fun a ha b hb hx => by
          obtain ⟨X, Y, hx⟩ := hx
          apply ho.2 a (strict_sub ha) b (strict_sub hb)
          rw [← hx, show X ++ (encode a ++ encode b) ++ Y = X ++ encode a ++ ([] ++ encode b ++ Y) by simp,
            runes_append_sep _ _ (strict_sub ha), runes_append_sep _ _ (strict_sub hb)]
          exact ⟨runes X, runes Y, by simp [runes]⟩⟩
    unfold textTo
    generalize rest'.take (rest'.length - k) = part at hno' hfr
    rcases List.eq_nil_or_concat part with rfl | ⟨init, ⟨s, l⟩, rfl⟩
    · have hfree := runes_free hf
      exact ⟨fun a ha hc => hfree a (List.mem_of_head? hc) ha, fun a ha b hb hc => hfree a (hc.subset (by simp)) ha⟩
    · simp only [List.concat_eq_append] at hno' hfr ⊢
      have hinit : ∀ p ∈ init, p.2 ≠ [] := by
        intro p hp
        obtain ⟨a, b, rfl⟩ := List.append_of_mem hp
        cases b with
        | nil => exact hno'.2 a p (s, l) [] (by simp)
        | cons q b => exact hno'.2 a p q (b ++ [(s, l)]) (by simp)
      have hfirst : first ≠ [] := hno'.1 (by simp)
      have hg : GoodR first init.reverse := ⟨hf, fun p hp => hfr p (by simp at hp; simp [hp])⟩
      have hs := (hfr (s, l) (by simp)).1
      by_cases hl : l = []
      · subst hl
        have h0 := sepOnce_joinR hg hfirst (fun p hp => hinit p (by simpa using hp))
        rw [← joinLabels_eq] at h0
        rw [joinLabels_append]
        simp only [joinLabels]
        rw [runes_append_sep _ _ hs]
        have hlast : ∀ a ∈ separators, (runes (joinLabels first init)).getLast? ≠ some a := by
          intro a ha hc
          rcases List.eq_nil_or_concat init with rfl | ⟨i, ⟨s', l'⟩, rfl⟩
          · exact runes_free hf a (List.mem_of_getLast? hc) ha
          · simp only [List.concat_eq_append] at hc hinit hfr
            rw [joinLabels_append] at hc
            simp only [joinLabels] at hc
            rw [runes_append_sep _ _ (hfr (s', l') (by simp)).1, List.getLast?_append, List.getLast?_cons] at hc
            simp at hc
            cases hz : (runes l').getLast? with
            | none =>
              rw [List.getLast?_eq_none_iff] at hz
              exact runes_ne_nil (hinit (s', l') (by simp)) hz
            | some z =>
              rw [hz] at hc; simp at hc
              exact runes_free (hfr (s', l') (by simp)).2 z (List.mem_of_getLast? hz) (hc ▸ ha)
        have hnil : runes [] = [] := by simp [runes]
        rw [hnil]
        refine ⟨?_, ?_⟩
        · intro a ha hc
          apply h0.1 a ha
          cases hx : runes (joinLabels first init) with
          | nil =>
            exfalso
            refine runes_ne_nil ?_ hx
            intro hc
            have := infix_textTo_first (first := first) (rest := init) 0
            unfold textTo at this
            simp [hc] at this
            exact hfirst this
          | cons x X => rw [hx] at hc; exact hc
        · intro a ha b hb hc
          rw [pair_infix_append] at hc
          rcases hc with hc | hc | hc
          · exact h0.2 a ha b hb hc
          · have := hc.length_le; simp at this
          · exact hlast a ha hc.1
      · have := sepOnce_joinR (rt := (init ++ [(s, l)]).reverse) ⟨hf, fun p hp => hfr p (List.mem_reverse.1 hp)⟩ hfirst (fun p hp => by
          simp at hp
          rcases hp with rfl | hp
          · exact hl
          · exact hinit p hp)
        rw [← joinLabels_eq] at this
        exact this

-- U+FF61 at the start: accepted as it is and next to U+FF61, not next to another separator; at the end of the labels that are
-- checked an empty label is an empty domain
example : ∀ x ∈ [(b! "｡a.com", true), (b! ".a.com", false), (b! "a｡｡b.com", true), (b! "a｡.b.com", true), (b! "a..b.com", false),
      (b! "a。．b.com", false), (b! "｡a｡com｡｡", true)],
    ((extract idId (buildTrie [b! "com"]) { url := x.1 }).toOption.map (fun y => decide (y.2 = none))) = some x.2 := by
  decide +kernel

end Fasttld.Props
