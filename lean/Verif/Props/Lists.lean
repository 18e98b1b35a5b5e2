import Verif.Proofs.Lists
import Verif.Props.Mishandled
import Verif.Props.Relate
import Verif.Proofs.ExactDecide

/-!
# C03, C15, C21, C22, C26: for which lists they hold for all URLs
-/

set_option linter.unusedSimpArgs false

namespace Fasttld.Props
open Spec

/-! ## C03 -/

/-- C03 for one list: the host of every URL that is accepted as a host name is put together from the parts of the result. -/
def Reassembles (idna : Idna) (rules : List Bytes) : Prop :=
  ∀ (e : URLParams) (r : ExtractResult), e.convertURLToPunyCode = false → e.ignoreSubDomains = false →
    extract idna (buildTrie rules) e = .ok (r, none) → r.hostType = .hostName →
    ∃ host after tail, Authority e.url r.scheme r.userInfo (host ++ after) ∧ IsPlainHost host ∧
      AfterHost after r.port r.path ∧ Assembled host r.subDomain r.domain r.suffix tail ∧ MadeOf separators tail

/-- An anchored list is enough, whatever the IDNA library does. -/
theorem C03_anchored (idna : Idna) {rules : List Bytes} (ha : Anchored rules) : Reassembles idna rules := by
  intro e r hpu hig h ht
  obtain ⟨host, after, n, first, rest, tail, ds, m, seen, cut, mark, H⟩ := accepted h ht
  obtain ⟨un, -, ⟨-, -, rfl⟩ | ⟨hc, -⟩⟩ := H.text
  · refine ⟨n, after, tail, H.authority, H.plain, H.after, ?_, H.shape.tail⟩
    obtain ⟨sub, hp, hs⟩ := H.parts
    rw [hig, if_neg (by simp)] at hs
    rw [hs]
    have hsep : ∀ p ∈ rest, p.1 ∈ separators := fun p hp => (H.shape.free.2 p hp).1
    generalize hd : r.domain = dom at hp
    generalize r.suffix = suf at hp ⊢
    generalize r.registeredDomain = reg at hp
    have hne := H.domain
    rw [hd] at hne
    cases hp with
    | noSuffix h =>
      obtain ⟨z, h1, h2⟩ := subAndDomain_text h hsep
      exact ⟨z, [], by rw [H.shape.text, h1]; simp, h2, .inl ⟨rfl, rfl⟩⟩
    | @suffix front s l more back _ _ _ _ e1 e2 e3 h =>
      obtain rfl := ha.mark H.follows H.marks H.values.length
      obtain rfl := List.eq_nil_of_length_eq_zero e2
      obtain ⟨z, h1, h2⟩ := subAndDomain_text h fun p hp => hsep p (by rw [e1]; simp [hp])
      refine ⟨z, encode s ++ joinLabels l more, ?_, h2, .inr ⟨joinLabels_ne ?_ more, s, hsep (s, l) (by rw [e1]; simp), rfl⟩⟩
      · rw [H.shape.text, e1, List.append_nil, joinLabels_append, h1]; simp
      · rintro rfl
        refine cut_label_ne H.follows H.stops (j := more.length) (by omega) ?_ ?_
        · rw [fromRight_length, e1]; simp; omega
        · rw [e1, List.append_nil]; exact fromRight_get
    | suffixOnly => exact absurd rfl hne
  · rw [hpu] at hc; simp at hc

/-- What is put together from parts that end before the right end is not the whole host. -/
theorem not_assembled {first : Bytes} {rest : List SepLabel} (hg : GoodName first rest) {e cut : Nat} {sub dom suf reg tail : Bytes}
    (hp : Parts first rest (some e) cut sub dom suf reg) (hd : dom ≠ []) (h : Assembled (joinLabels first rest) sub dom suf tail)
    (ht : MadeOf separators tail) : e = 0 := by
  cases hp with
  | @suffix front s l more back _ _ _ _ e1 e2 e3 hs =>
    subst e1
    have hgl : GoodLabel l := (hg.rest (s, l) (by simp)).2
    have hgm : ∀ p ∈ more, p.1 ∈ separators ∧ GoodLabel p.2 := fun p hp => hg.rest p (by simp [hp])
    obtain ⟨z, b, h1, h2, h3⟩ := h
    obtain ⟨s', hs', rfl⟩ : ∃ s' ∈ separators, b = encode s' ++ joinLabels l more := by
      rcases h3 with ⟨-, h3⟩ | ⟨-, h3⟩
      · exact absurd h3 (joinLabels_ne hgl.ne more)
      · exact h3
    have hsh : HostShape (joinLabels first (front ++ (s, l) :: more ++ back)) first (front ++ (s, l) :: more ++ back) [] := by
      refine ⟨by simp, ⟨hg.first.free, fun p hp => ⟨(hg.rest p hp).1, (hg.rest p hp).2.free⟩⟩, ⟨[], by simp, rfl⟩, ?_⟩
      intro f s e
      exact (hg.rest (s, []) (by rw [e]; simp)).2.ne rfl
    -- the labels of the text that is put together
    have key : ∀ (f' : Bytes) (front' : List SepLabel), z ++ dom = joinLabels f' front' → FreeOf separators f' →
        (∀ p ∈ front', p.1 ∈ separators ∧ FreeOf separators p.2) → f' = first ∧ front'.length = front.length + back.length := by
      intro f' front' hz hf1 hf2
      have hsh' : HostShape (joinLabels first (front ++ (s, l) :: more ++ back)) f' (front' ++ (s', l) :: more) tail := by
        refine ⟨?_, ⟨hf1, ?_⟩, ht, ?_⟩
        · rw [h1, hz, joinLabels_append]; simp
        · intro p hp
          simp only [List.mem_append, List.mem_cons] at hp
          rcases hp with hp | rfl | hp
          · exact hf2 p hp
          · exact ⟨hs', hgl.free⟩
          · exact ⟨(hgm p hp).1, (hgm p hp).2.free⟩
        · intro f s0 e
          rcases List.eq_nil_or_concat more with rfl | ⟨m', p, rfl⟩
          · have := List.append_inj_right' e rfl
            simp at this
            exact hgl.ne this.2
          · rw [List.concat_eq_append, ← List.cons_append, ← List.append_assoc] at e
            have := List.append_inj_right' e rfl
            simp at this
            exact (hgm p (by simp)).2.ne (by rw [this])
      obtain ⟨k1, k2, -⟩ := hsh'.unique hsh
      refine ⟨k1, ?_⟩
      have := congrArg List.length k2
      simp at this; omega
    have hfr : ∀ p ∈ front, p.1 ∈ separators ∧ FreeOf separators p.2 :=
      fun p hp => ⟨(hg.rest p (by simp [hp])).1, (hg.rest p (by simp [hp])).2.free⟩
    suffices back.length = 0 from e2.symm.trans this
    rcases hs with ⟨rfl, rfl, rfl⟩ | ⟨f, s2, x, rfl, rfl, rfl⟩
    · rcases h2 with ⟨rfl, -⟩ | ⟨s1, hs1, rfl⟩
      · have := (key dom [] (by simp [joinLabels]) hg.first.free (by simp)).2
        simpa using this.symm
      · have := (key [] [(s1, dom)] (by simp [joinLabels]) (freeOf_nil goodSet_separators) (by simp [hs1, hg.first.free])).1
        exact absurd this.symm hd
    · rcases h2 with ⟨-, h2⟩ | ⟨s1, hs1, rfl⟩
      · exact absurd h2 (joinLabels_ne hg.first.ne f)
      · have := (key first (f ++ [(s1, dom)]) (by rw [joinLabels_append]; simp [joinLabels]) hg.first.free (by
          intro p hp
          simp only [List.mem_append, List.mem_singleton] at hp
          rcases hp with hp | rfl
          · exact hfr p (by simp [hp])
          · exact ⟨hs1, (hfr (s2, dom) (by simp)).2⟩)).2
        simpa using this
  | suffixOnly => exact absurd rfl hd

/-- C03, exactly: for a well-formed list, with an IDNA library that accepts its labels, the host is always put together
from the parts of the result if and only if the list is anchored. -/
theorem C03_exact (idna : Idna) {rules : List Bytes} (hw : WellFormed rules) (hi : AcceptsNames idna rules) :
    Reassembles idna rules ↔ Anchored rules := by
  refine ⟨fun H t p hr hre => ?_, C03_anchored idna⟩
  refine Classical.byContradiction fun hno => ?_
  simp only [not_or] at hno
  obtain ⟨f, hf, ha⟩ := newLabel_exists rules
  have hgood : ∀ x ∈ t :: p, GoodLabel x ∧ LabelOf rules x := by
    intro x hx
    refine ⟨?_, _, hr, .inl hx⟩
    obtain ⟨a, b, e⟩ := List.append_of_mem hx
    rw [e] at hr hre
    rcases prefixAt_cases (hr.prefix (p := a ++ [x]) ⟨b, by simp⟩) with h | ⟨y, h⟩
    · rcases hw.leftmost _ _ h with h' | rfl | ⟨m, rfl, -⟩
      · exact h'
      · exact absurd h (hre a star b rfl)
      · exact absurd (hw.exception _ _ h) (hre a _ b rfl)
    · exact hw.good_of_prefix h x (by simp)
  have hgl : ∀ l ∈ f :: f :: (t :: p).reverse, GoodLabel l ∧ (LabelOf rules l ∨ OnlyA l) := by
    intro l hl
    simp only [List.mem_cons, List.mem_reverse] at hl
    rcases hl with rfl | rfl | hl
    · exact ⟨hf.good, .inr ha⟩
    · exact ⟨hf.good, .inr ha⟩
    · exact ⟨(hgood l (by simpa using hl)).1, .inl (hgood l (by simpa using hl)).2⟩
  have hname : (f :: f :: (t :: p).reverse).reverse = (t :: p) ++ [f, f] := by simp
  obtain ⟨m, seen, cut, mark, h1, h2, h3⟩ := good_read (rules := rules) (name := (f :: f :: (t :: p).reverse).reverse)
    (fun x hx => (hgl x (List.mem_reverse.1 hx)).1) (by simp)
  have hcm := stops_seen h2
  -- the labels of the rule are followed
  have hfol : Follows rules ((t :: p) ++ [f, f]) ((t :: p) ++ [f, f]) (t :: p).length := by
    refine ⟨by simp, .inr (by simpa using hr.prefixAt), fun j hj => ?_, fun j hj _ hc => ?_⟩
    · rw [List.take_append_of_le_length (by omega), hw.known_star]
      exact reached_iff.1 hre j hj
    · rw [List.getElem?_append_left hj] at hc
      exact (hgood [] (List.mem_of_getElem? hc)).1.ne rfl
  have hm : m = (t :: p).length := by
    refine Nat.le_antisymm ?_ ?_
    · refine Classical.byContradiction fun hc => ?_
      have hk := h1.known
      rw [hname] at hk
      have hmem : f ∈ ((t :: p) ++ [f, f]).take m := by
        rw [List.take_append, List.mem_append]
        right
        obtain ⟨i, hi⟩ : ∃ i, m - (t :: p).length = i + 1 := ⟨m - (t :: p).length - 1, by omega⟩
        rw [hi]; simp
      rcases hk with hk | hk
      · rw [hk] at hmem; simp at hmem
      · exact hf.not_prefix (.inl hmem) hk
    · rw [hname] at h2
      exact follows_le rfl hfol (.inl ⟨_, _, h2⟩)
  have h4 : ¬ IsIPv4 (List.intercalate [46] (f :: f :: (t :: p).reverse)) := by
    rw [dotted_join]
    cases hfe : f with
    | nil => exact absurd hfe hf.good.ne
    | cons c t =>
      have hc : c = 97 := ha.2 c (by rw [hfe]; simp)
      subst hc
      exact not_ipv4_letter (by decide)
  obtain ⟨sub, dom, suf, reg, hp, hx⟩ := extracts_dotted idna (fun l hl => (hgl l hl).1) (hi _ hgl) h4 h1 h2 h3
    (.inr (by simp only [List.length_cons, List.length_reverse] at hm ⊢; omega))
  have hgn := goodName_dotted (first := f) (ls := f :: (t :: p).reverse) (fun l hl => (hgl l hl).1)
  have hex := (extracts_iff ..).2 hx
  obtain ⟨host, after, tail, k1, k2, k3, k4, k5⟩ := H _ _ rfl rfl hex rfl
  simp only at k1 k3 k4
  rw [dotted_join] at k1
  obtain ⟨-, -, he⟩ := Authority_unique k1 (hostCharsOK_authority hgn.chars)
  have hafter : after = [] := by
    cases after with
    | nil => rfl
    | cons c t =>
      have h1 := (hostCharsOK_plain hgn.chars c (by rw [← he]; simp)).1
      exact absurd (afterHost_head k3 c t rfl) (by simp [h1])
  rw [hafter, List.append_nil] at he
  rw [he] at k4
  have hdom : dom ≠ [] := by
    have := (C05_success idna _ _ hex).2
    exact this
  rw [hname] at h3
  cases h3 with
  | none h3 =>
    apply h3 p.length (by rw [hm]; simp)
    simp only [List.cons_append, List.take_succ_cons, List.take_left']
    exact .inl hr
  | @«at» k g1 g2 g3 =>
    have := not_assembled hgn hp hdom k4 k5
    subst this
    simp at g2
    rcases g2 with g2 | ⟨l, hl, g2⟩
    · exact hno.1 g2
    · simp at hl; subst hl; exact hno.2 g2

/-! ## C21 -/

/-- C21, up to the three characters, holds for every well-formed list and all URLs: labels that are not checked are labels
of the list. -/
theorem C21_wellFormed (idna : Idna) {rules : List Bytes} (hw : WellFormed rules) (e : URLParams) {r : ExtractResult}
    (h : extract idna (buildTrie rules) e = .ok (r, none)) (ht : r.hostType = .hostName) :
    ∀ c ∈ invalidChars, c ∉ missedChars → ¬ encode c <:+: r.subDomain ∧ ¬ encode c <:+: r.domain := by
  intro c hc hm
  by_cases hs : r.suffix = []
  · obtain ⟨host, after, n, first, rest, tail, ds, m, seen, cut, mark, H⟩ := accepted h ht
    have hseen := stops_seen H.stops
    obtain ⟨sub, hp, hsub⟩ := H.parts
    have hnil : ¬ encode c <:+: ([] : Bytes) := by
      intro hi
      have := hi.length_le
      simp at this
      exact encode_ne_nil c this
    have hsep : ∀ p ∈ rest, p.1 ∈ separators := fun p hp => (H.shape.free.2 p hp).1
    -- every label is checked or good
    obtain ⟨t, hch, hok⟩ := H.checked
    have hlab : mark = none → ¬ encode c <:+: first ∧ ∀ p ∈ rest, ¬ encode c <:+: p.2 := by
      rintro rfl
      cases hch with
      | noSuffix =>
        have hno := hok.2.2.2.2 c hc hm
        refine ⟨fun hi => hno (hi.trans (infix_textTo_first _)), fun p hp hi => ?_⟩
        obtain ⟨s, l⟩ := p
        obtain ⟨a, b, rfl⟩ := List.append_of_mem hp
        rcases Nat.lt_or_ge b.length seen with hlt | hge
        · obtain ⟨d, hd1, hd2⟩ := values_get H.values (fromRight_get (first := first) (a := a) (s := s) (l := l) (b := b))
          have hg := follows_good hw H.follows (j := b.length) (by omega) hd1
          rcases hd2 with hd2 | rfl
          · exact decodes_chars hd2 hg hc hm hi
          · exact hg.ne rfl
        · exact hno (hi.trans (infix_textTo hge))
      | suffix hx => simp at hx
      | suffixOnly hx => simp at hx
    have hfin : mark = none → ∀ {sub dom}, SubAndDomain first rest sub dom → ¬ encode c <:+: sub ∧ ¬ encode c <:+: dom := by
      intro hn sub dom hsd
      obtain ⟨h1, h2⟩ := hlab hn
      rcases hsd with ⟨-, rfl, rfl⟩ | ⟨f, s, l, rfl, rfl, rfl⟩
      · exact ⟨hnil, h1⟩
      · exact ⟨infix_labels hc (fun p hp => hsep p (by simp [hp])) h1 (fun p hp => h2 p (by simp [hp])), h2 (s, dom) (by simp)⟩
    rw [hsub]
    have hne := H.domain
    generalize r.domain = dom at hp hne ⊢
    generalize r.suffix = suf at hp hs
    generalize r.registeredDomain = reg at hp
    cases hp with
    | noSuffix h =>
      have := hfin rfl h
      refine ⟨?_, this.2⟩
      split
      · exact hnil
      · exact this.1
    | @suffix front s l more back _ _ _ _ e1 e2 e3 h =>
      exfalso
      refine cut_label_ne H.follows H.stops (j := (more ++ back).length) (by simp; omega) ?_ ?_
      · rw [fromRight_length, e1]; simp; omega
      · obtain rfl : l = [] := by
          refine Classical.byContradiction fun hc => joinLabels_ne hc more hs
        rw [e1, List.append_assoc]; exact fromRight_get
    | suffixOnly => exact absurd rfl hne
  · exact C21_no_invalid_chars_partial idna _ e h ht (.inl hs) c hc hm

/-! ## C22 -/

/-- C22 for one list: in a URL that is accepted as a host name, if U+FF61 does not occur in the host, no label is empty. -/
def NoEmptyLabels (idna : Idna) (rules : List Bytes) : Prop :=
  ∀ (e : URLParams) (r : ExtractResult), extract idna (buildTrie rules) e = .ok (r, none) → r.hostType = .hostName →
    ∃ host after n first rest tail, Authority e.url r.scheme r.userInfo (host ++ after) ∧ IsPlainHost host ∧
      AfterHost after r.port r.path ∧ HostTextOf idna e.convertURLToPunyCode host n ∧ HostShape n first rest tail ∧
      (¬ encode 0xFF61 <:+: n → first ≠ [] ∧ ∀ p ∈ rest, p.2 ≠ [])

theorem C22_topRules (idna : Idna) {rules : List Bytes} (htop : TopRules rules) : NoEmptyLabels idna rules := by
  intro e r h ht
  obtain ⟨host, after, n, first, rest, tail, ds, m, seen, cut, mark, H⟩ := accepted h ht
  refine ⟨host, after, n, first, rest, tail, H.authority, H.plain, H.after, H.text, H.shape, fun hff => ?_⟩
  have hst : ∀ a ∈ separators, a ≠ 0xFF61 → a ∈ strictSeparators := by decide
  have hsep : ∀ p ∈ rest, p.1 ∈ strictSeparators := by
    rintro ⟨s, l⟩ hp
    refine hst s (H.shape.free.2 _ hp).1 ?_
    rintro rfl
    apply hff
    obtain ⟨a, b, rfl⟩ := List.append_of_mem hp
    rw [H.shape.text, joinLabels_append]
    exact ⟨joinLabels first a, joinLabels l b ++ tail, by simp⟩
  have hseen := stops_seen H.stops
  obtain ⟨sub, hp, -⟩ := H.parts
  obtain ⟨t, hch, hok⟩ := H.checked
  have hne := H.domain
  generalize r.domain = dom at hp hne
  generalize r.suffix = suf at hp
  generalize r.registeredDomain = reg at hp
  -- the domain is the last label of its text
  have hlast : ∀ front, SubAndDomain first front sub dom → (first :: front.map Prod.snd).getLast? = some dom := by
    rintro front (⟨rfl, rfl, -⟩ | ⟨f, s, l, rfl, rfl, -⟩)
    · rfl
    · rw [List.map_append, ← List.cons_append, List.map_cons, List.map_nil, List.getLast?_concat]
  cases hp with
  | noSuffix hsd =>
    have hm0 : m = 0 := by
      refine Classical.byContradiction fun hc => ?_
      cases H.marks with
      | none hn =>
        apply hn 0 (by omega)
        have hk : Known rules (ds.take 1) := H.follows.known.prefix (by
          rw [show ds.take 1 = (ds.take m).take 1 by rw [List.take_take]; congr 1; omega]
          exact List.take_prefix _ _)
        have hlen := H.values.length
        rw [fromRight_length] at hlen
        cases ds with
        | nil => simp at hlen
        | cons d ds =>
          simp only [List.take_succ_cons, List.take_zero] at hk
          rcases hk with hk | hk
          · simp at hk
          · rcases htop d hk with h1 | h1
            · exact .inl h1
            · exact .inr ⟨d, rfl, h1⟩
    cases hch with
    | noSuffix =>
      simp only [show seen = 0 by omega, textTo, Nat.sub_zero, List.take_length] at hok
      exact checked_ne hsep hok (by rw [hlast _ hsd]; simpa using hne)
    | suffix hx => simp at hx
    | suffixOnly hx => simp at hx
  | @suffix front s l more back k _ _ _ e1 e2 e3 hsd =>
    have hrl : rest.length = front.length + (more.length + 1) + back.length := by rw [e1]; simp; omega
    cases hch with
    | noSuffix hx => simp at hx
    | suffixOnly _ hx => simp only at hx; omega
    | suffix _ hx =>
      simp only at hx hok
      -- labels of the checked text, labels to the right of it
      have hright : ∀ j, j < m → (fromRight first rest)[j]? ≠ some [] := fun j hj =>
        H.follows.nonempty j hj (by rw [fromRight_length]; omega)
      have hsplit : ∃ a b, rest = a ++ b ∧ b.length = m := ⟨rest.take (rest.length - m), rest.drop (rest.length - m), by simp, by simp; omega⟩
      obtain ⟨a, b, hab, hb⟩ := hsplit
      have htext : textTo first rest m = joinLabels first a := by
        unfold textTo
        rw [hab]
        congr 1
        rw [List.take_append_of_le_length (by simp; omega), List.take_of_length_le (by simp; omega)]
      rw [htext] at hok
      have hbne : ∀ p ∈ b, p.2 ≠ [] := by
        rintro ⟨s', x⟩ hx rfl
        obtain ⟨b1, b2, rfl⟩ := List.append_of_mem hx
        refine hright b2.length (by rw [← hb]; simp; omega) ?_
        rw [hab, ← List.append_assoc]; exact fromRight_get
      have halast : (first :: a.map Prod.snd).getLast? ≠ some [] := by
        -- the label to the left of those that were followed
        have hget : (first :: a.map Prod.snd).getLast? = (fromRight first rest)[m]? := by
          rw [hab]
          unfold fromRight
          rw [List.map_append, ← List.cons_append, List.reverse_append, List.getElem?_append_right (by simp; omega),
            List.length_reverse, List.length_map, hb, Nat.sub_self, ← List.head?_eq_getElem?, List.head?_reverse]
        rw [hget]
        rcases Nat.lt_or_ge m cut with hmc | hmc
        · exact cut_label_ne H.follows H.stops hmc (by rw [fromRight_length]; omega)
        · -- the domain
          obtain rfl : cut = m := by omega
          have : front = a := by
            have := hab.symm.trans e1
            rw [List.append_assoc] at this
            exact (List.append_inj this (by rw [hab] at hrl; simp at hrl; omega)).1.symm
          subst this
          rw [← hget, hlast _ hsd]
          simpa using hne
      obtain ⟨g1, g2⟩ := checked_ne (fun p hp => hsep p (by rw [hab]; simp [hp])) hok halast
      refine ⟨g1, fun p hp => ?_⟩
      rw [hab, List.mem_append] at hp
      rcases hp with hp | hp
      · exact g2 p hp
      · exact hbne p hp
  | suffixOnly => exact absurd rfl hne

/-- A dot before a top-level label that is no rule. -/
theorem extracts_dot (idna : Idna) {rules : List Bytes} (hw : WellFormed rules) (hb : ¬ RuleAt rules [star]) {t : Bytes}
    (hi : idna.toUnicodeErr (46 :: t) = none) (hp : PrefixAt rules [t]) (h1 : ¬ RuleAt rules [t]) (h2 : ¬ PrefixAt rules [t, star]) :
    GoodLabel t ∧ Authority (46 :: t) [] [] (46 :: t) ∧ IsPlainHost (46 :: t) ∧ HostShape (46 :: t) [] [(46, t)] [] ∧
    Extracts idna rules { url := 46 :: t } { hostType := .hostName, domain := t } none := by
  obtain ⟨x, hx⟩ := (prefixAt_cases hp).resolve_left h1
  have hg : GoodLabel t := hw.good_of_prefix hx t (by simp)
  have hpl : IsPlainHost (46 :: t) := by
    intro c hc
    rcases List.mem_cons.1 hc with rfl | hc
    · decide
    · exact hostCharsOK_plain hg.chars c hc
  have hmem : ∀ c : UInt8, c < 128 → c ≠ 46 → c.toNat ∈ invalidChars → c.toNat ∉ missedChars → c ∉ 46 :: t := by
    intro c h0 h1 h2 h3 hc
    rcases List.mem_cons.1 hc with hc | hc
    · exact h1 hc
    · exact hg.not_mem h0 h2 h3 hc
  have h64 : (64 : UInt8) ∉ 46 :: t := hmem 64 (by decide) (by decide) (by decide +kernel) (by decide)
  have htrim : IsTrim true true whiteSpace (46 :: t) (46 :: t) := by
    have hw : ∀ r ∈ whiteSpace, r ∈ invalidChars ∧ r ∉ missedChars := by decide +kernel
    have hno : ∀ r ∈ whiteSpace, ¬ encode r <:+: 46 :: t := by
      intro r hr
      have h46 : (46 : UInt8) :: t = joinLabels [] [(46, t)] := by simp [joinLabels, show encode 46 = [46] by decide]
      rw [h46]
      refine infix_labels (hw r hr).1 (by simp [separators]) ?_ ?_
      · intro hi; have := hi.length_le; simp at this; exact encode_ne_nil r this
      · rintro p hp
        simp at hp; subst hp
        exact hg.chars.2.2.2.2 r (hw r hr).1 (hw r hr).2
    exact ⟨[], [], by simp, ⟨[], by simp, rfl⟩, ⟨[], by simp, rfl⟩, fun _ => rfl, fun _ => rfl,
      fun _ r hr hp => hno r hr hp.isInfix, fun _ r hr hp => hno r hr hp.isInfix⟩
  have hA := authority_self hpl h64 htrim
  have hsh : HostShape (46 :: t) [] [(46, t)] [] := by
    refine ⟨by simp [joinLabels, show encode 46 = [46] by decide], ⟨freeOf_nil goodSet_separators, by intro p hp; simp at hp; subst hp; exact ⟨by simp [separators], hg.free⟩⟩,
      ⟨[], by simp, rfl⟩, ?_⟩
    intro f s e
    cases f with
    | nil => simp at e; exact hg.ne e.2
    | cons y f => have := congrArg List.length e; simp at this
  refine ⟨hg, hA, hpl, hsh, [], [], _, .name (46 :: t) [], hA, ?_, ?_⟩
  · have := HostAt.name (host := 46 :: t) (after := []) hpl (by simp)
    simpa using this
  · have hres : HostResult rules false (46 :: t) { hostType := .hostName, domain := t } none := by
      refine ⟨[], [(46, t)], [], [t, []], some ⟨1, 1, 1, none⟩, hsh, ⟨.inl hg.decodes, .inl .nil, trivial⟩, ?_, ?_⟩
      · refine .ends (m := 1) ⟨by simp [fromRight], .inr (by simpa using hp), ?_, ?_⟩ (.unknown (l := []) ?_ ?_ ?_ ?_ ?_) (.none ?_)
        · intro j hj hk
          obtain rfl : j = 0 := by omega
          simp only [List.take_zero, List.nil_append] at hk
          exact hb (hw.star_last (a := []) ((known_prefix (by simp)).1 hk))
        · intro j hj _ hc
          obtain rfl : j = 0 := by omega
          simp [fromRight] at hc
          exact hg.ne hc
        · exact .inr ⟨x, .inr (by simpa using hx)⟩
        · rfl
        · simp [fromRight]
        · simp only [List.take_succ_cons, List.take_zero]
          rintro (hk | hk)
          · simp at hk
          · exact h2 hk
        · simp only [List.take_succ_cons, List.take_zero]
          rintro (hk | hk)
          · simp at hk
          · rcases prefixAt_cases hk with hk | ⟨y, hk⟩
            · rcases hw.leftmost [t] [] hk with h | h | ⟨m, h, -⟩
              · exact h.ne rfl
              · simp [star] at h
              · simp at h
            · exact (hw.good_of_prefix hk [] (by simp)).ne rfl
        · intro j hj
          obtain rfl : j = 0 := by omega
          simp only [List.take_succ_cons, List.take_zero]
          rintro (hk | ⟨l, hl, hk⟩)
          · exact h1 hk
          · simp at hl; subst hl; exact h2 hk
      · have := Judged.name (ignoreSub := false) (n := 46 :: t) (first := []) (rest := [(46, t)]) (w := ⟨1, 1, 1, none⟩)
          (t := []) (sub := []) (dom := t) (suf := []) (reg := []) (not_ipv4_letter (by decide))
          (by have := Checked.noSuffix (n := 46 :: t) (first := []) (rest := [(46, t)]) (w := ⟨1, 1, 1, none⟩) rfl
              simpa [textTo, joinLabels] using this)
          (by decide +kernel) (.noSuffix (.inr ⟨[], 46, t, rfl, rfl, rfl⟩)) hg.ne
        simpa using this
    have h37 : (37 : UInt8) ∉ 46 :: t := by simp [hg.noEscape]
    have h43 := hmem 43 (by decide) (by decide) (by decide +kernel) (by decide)
    have hdec : Decodes (46 :: t) (46 :: t) := by
      rw [← queryUnescape_iff]
      exact queryUnescape_plain fun c hc => ⟨fun e => h37 (e ▸ hc), fun e => h43 (e ▸ hc)⟩
    exact Finished.host (idna := idna) (rules := rules) (e := { url := 46 :: t }) (sch := []) (ui := [])
      (host := 46 :: t) (after := []) (port := []) (path := []) (n := 46 :: t) ⟨.inl rfl, .inl ⟨rfl, rfl⟩⟩ ⟨_, hdec, .inl ⟨rfl, hi, rfl⟩⟩ hres

/-- C22, exactly: for a well-formed list without the rule `*`, with an IDNA library that accepts its top-level labels with a
dot before them, empty labels never get through (where U+FF61 does not occur) if and only if every top-level label of the
list is a rule or the parent of a wildcard. -/
theorem C22_exact (idna : Idna) {rules : List Bytes} (hw : WellFormed rules) (hb : ¬ RuleAt rules [star])
    (hi : ∀ t, PrefixAt rules [t] → idna.toUnicodeErr (46 :: t) = none) : NoEmptyLabels idna rules ↔ TopRules rules := by
  refine ⟨fun H t hp => ?_, C22_topRules idna⟩
  refine Classical.byContradiction fun hno => ?_
  simp only [not_or] at hno
  obtain ⟨hg, hA, hpl, hsh, hx⟩ := extracts_dot idna hw hb (hi t hp) hp hno.1 hno.2
  obtain ⟨host, after, n, first, rest, tail, k1, k2, k3, k4, k5, k6⟩ := H _ _ ((extracts_iff ..).2 hx) rfl
  simp only at k1 k3 k4
  obtain ⟨-, -, he⟩ := Authority_unique k1 hA
  have hafter : after = [] := by
    cases after with
    | nil => rfl
    | cons c t =>
      have h1 := (hpl c (by rw [← he]; simp)).1
      exact absurd (afterHost_head k3 c t rfl) (by simp [h1])
  rw [hafter, List.append_nil] at he
  obtain ⟨un, -, ⟨-, -, rfl⟩ | ⟨hc, -⟩⟩ := k4
  · rw [he] at k5 k6
    obtain ⟨rfl, -, -⟩ := k5.unique hsh
    refine (k6 ?_).1 rfl
    rintro ⟨a, b, e⟩
    have e61 : encode 0xFF61 = [0xEF, 0xBD, 0xA1] := by decide
    cases a with
    | nil => rw [e61] at e; simp at e
    | cons c a =>
      simp at e
      exact hg.free 0xFF61 (by simp [separators]) ⟨a, b, by simpa using e.2⟩
  · simp at hc

/-! ## C15 -/

/-- C15 for one list: if the host is a dotted quad that the IDNA library does not reject, with any number of separators
after it, the whole address is Domain and RegisteredDomain. -/
def QuadsWhole (idna : Idna) (rules : List Bytes) : Prop :=
  ∀ (e : URLParams) (sch ui q t after port path : Bytes), Authority e.url sch ui (q ++ t ++ after) →
    AfterHost after port path → IsQuad q → MadeOf separators t → e.convertURLToPunyCode = false →
    idna.toUnicodeErr (q ++ t) = none →
    extract idna (buildTrie rules) e = .ok ({ scheme := sch, userInfo := ui, domain := q, registeredDomain := q, port := port,
                                              path := path, hostType := .iPv4 }, none)

/-- An octet is a label as it can occur in a host name. -/
theorem octet_good {o : Bytes} (h : IsOctet o) : GoodLabel o := by
  have hno : ∀ c, (encode c).any (fun b => !isDigit b) = true → ¬ encode c <:+: o := by
    intro c hc hi
    obtain ⟨b, hb, hb'⟩ := List.any_eq_true.1 hc
    have := h.digits b (hi.subset hb)
    simp [this] at hb'
  have hsep : ∀ a ∈ strictSeparators, (encode a).any (fun b => !isDigit b) = true := by decide +kernel
  have hinv : ∀ a ∈ invalidChars, a ∉ missedChars → (encode a).any (fun b => !isDigit b) = true := by decide +kernel
  refine ⟨h.ne_nil, digits_free h.digits, ⟨fun hp => hno 45 (by decide) hp.isInfix, fun hp => hno 45 (by decide) hp.isInfix,
    fun a ha hp => hno a (hsep a ha) hp.isInfix, ?_, fun c hc hm => hno c (hinv c hc hm)⟩, ?_⟩
  · intro a ha b hb hi
    exact hno a (hsep a ha) ((List.prefix_append ..).isInfix.trans hi)
  · intro hm
    have := h.digits 37 hm
    exact absurd this (by decide)

/-- The host ends at the first byte that can end it. -/
theorem host_unique {h1 a1 h2 a2 : Bytes} (k1 : IsPlainHost h1) (k2 : ∀ x t, a1 = x :: t → isHostEnd x = true)
    (k3 : IsPlainHost h2) (k4 : ∀ x t, a2 = x :: t → isHostEnd x = true) (e : h1 ++ a1 = h2 ++ a2) : h1 = h2 ∧ a1 = a2 := by
  induction h1 generalizing h2 with
  | nil =>
    cases h2 with
    | nil => exact ⟨rfl, e⟩
    | cons c h2 =>
      have := k2 c _ e
      rw [(k3 c (by simp)).1] at this; simp at this
  | cons c h1 ih =>
    cases h2 with
    | nil =>
      have := k4 c _ e.symm
      rw [(k1 c (by simp)).1] at this; simp at this
    | cons c' h2 =>
      simp only [List.cons_append, List.cons.injEq] at e
      obtain ⟨h5, h6⟩ := ih (fun x hx => k1 x (by simp [hx])) (fun x hx => k3 x (by simp [hx])) e.2
      exact ⟨by rw [e.1, h5], h6⟩

/-- The labels of a dotted quad, and what they stand for. -/
theorem quad_labels {a b c d t : Bytes} {r1 r2 r3 : Nat} (ha : IsOctet a) (hb : IsOctet b) (hc : IsOctet c) (hd : IsOctet d)
    (h1 : r1 ∈ separators) (h2 : r2 ∈ separators) (h3 : r3 ∈ separators) (ht : MadeOf separators t) :
    HostShape (a ++ encode r1 ++ b ++ encode r2 ++ c ++ encode r3 ++ d ++ t) a [(r1, b), (r2, c), (r3, d)] t ∧
    ∀ ds, LabelValues (fromRight a [(r1, b), (r2, c), (r3, d)]) ds → ds = [d, c, b, a] := by
  refine ⟨⟨by simp [joinLabels], ⟨digits_free ha.digits, ?_⟩, ht, ?_⟩, ?_⟩
  · intro p hp
    simp at hp
    rcases hp with rfl | rfl | rfl
    · exact ⟨h1, digits_free hb.digits⟩
    · exact ⟨h2, digits_free hc.digits⟩
    · exact ⟨h3, digits_free hd.digits⟩
  · intro f s e
    rw [show [(r1, b), (r2, c), (r3, d)] = [(r1, b), (r2, c)] ++ [(r3, d)] from rfl] at e
    have := List.append_inj_right' e rfl
    simp at this
    exact hd.ne_nil this.2
  · intro ds h
    have hv : ∀ {o v : Bytes}, IsOctet o → (Decodes o v ∨ (BadEscape o ∧ v = [])) → v = o := by
      intro o v ho hv
      have hdig : ∀ x : UInt8, isDigit x = true → x ≠ 37 ∧ x ≠ 43 := by
        intro x
        exact forall_byte (P := fun x => isDigit x = true → x ≠ 37 ∧ x ≠ 43) (by decide +kernel) x
      have hq := queryUnescape_plain (s := o) fun x hx => hdig x (ho.digits x hx)
      rcases hv with hv | ⟨hv, -⟩
      · have := (queryUnescape_iff o v).2 hv
        rw [hq] at this
        injection this with this
        exact this.symm
      · obtain ⟨x, y, rfl, -⟩ := hv
        exact absurd rfl (hdig 37 (ho.digits 37 (by simp))).1
    simp only [fromRight, List.reverse_cons, List.reverse_nil, List.nil_append, List.cons_append, List.map_cons, List.map_nil,
      List.singleton_append] at h
    match ds, h with
    | [d', c', b', a'], h =>
      obtain ⟨k1, k2, k3, k4, -⟩ := h
      rw [hv hd k1, hv hc k2, hv hb k3, hv ha k4]

/-- What a URL with an address gives. -/
theorem quad_read (idna : Idna) {rules : List Bytes} :
    ∀ (e : URLParams) (sch ui t after port path a b c d : Bytes) (r1 r2 r3 : Nat), IsOctet a → IsOctet b → IsOctet c → IsOctet d →
      r1 ∈ separators → r2 ∈ separators → r3 ∈ separators → MadeOf separators t →
      Authority e.url sch ui (a ++ encode r1 ++ b ++ encode r2 ++ c ++ encode r3 ++ d ++ t ++ after) → AfterHost after port path →
      e.convertURLToPunyCode = false → idna.toUnicodeErr (a ++ encode r1 ++ b ++ encode r2 ++ c ++ encode r3 ++ d ++ t) = none →
      ∃ m seen cut, Follows rules [d, c, b, a] [d, c, b, a] m ∧ Stops rules [d, c, b, a] [d, c, b, a] m seen cut ∧
        extract idna (buildTrie rules) e = .ok (
          { scheme := sch, userInfo := ui, domain := textTo a [(r1, b), (r2, c), (r3, d)] seen,
            registeredDomain := textTo a [(r1, b), (r2, c), (r3, d)] seen, port := port, path := path, hostType := .iPv4 }, none) := by
  intro e sch ui t after port path a b c d r1 r2 r3 ha hb hc hd h1 h2 h3 ht hA haf hpu hid
  have hq : IsQuad (a ++ encode r1 ++ b ++ encode r2 ++ c ++ encode r3 ++ d) := ⟨a, b, c, d, r1, r2, r3, ha, hb, hc, hd, h1, h2, h3, rfl⟩
  obtain ⟨dom, hx, -⟩ := C15_ipv4_partial idna (buildTrie rules) e hA haf hq ht hpu hid
  obtain ⟨hsh, hval⟩ := quad_labels ha hb hc hd h1 h2 h3 ht
  have hfr : fromRight a [(r1, b), (r2, c), (r3, d)] = [d, c, b, a] := by simp [fromRight]
  have hx' := hx
  obtain ⟨sch', ui', a', part, hA', hat, hfin⟩ := (extracts_iff ..).1 hx
  generalize hr : ({ scheme := sch, userInfo := ui, domain := dom, registeredDomain := dom, port := port, path := path,
                     hostType := .iPv4 } : ExtractResult) = r at hfin hx'
  have hty : r.hostType = .iPv4 := by rw [← hr]
  cases hfin with
  | ipv6 => simp at hty
  | @host host after' port' path' n r' _ haf' htx hres =>
    obtain ⟨first, rest, tail, ds, w, hsh', hlv, hrd, hj⟩ := hres
    obtain ⟨hpl, rfl⟩ : IsPlainHost host ∧ a' = host ++ after' := by
      cases hat with
      | name h1 _ => exact ⟨h1, rfl⟩
    have hhost : host = a ++ encode r1 ++ b ++ encode r2 ++ c ++ encode r3 ++ d ++ t := by
      obtain ⟨-, -, he⟩ := Authority_unique hA' hA
      have hb' := ipv4_bytes ⟨_, t, hq, ht, rfl⟩
      exact (host_unique hpl (afterHost_head haf') (fun c hc => ⟨(hb' c hc).1, (hb' c hc).2.1, (hb' c hc).2.2.1⟩) (afterHost_head haf) he).1
    obtain ⟨un, hdec, ⟨-, -, rfl⟩ | ⟨hc', -⟩⟩ := htx
    · rw [hhost] at hsh'
      obtain ⟨rfl, rfl, rfl⟩ := hsh'.unique hsh
      obtain rfl := hval ds hlv
      rw [hfr] at hrd
      cases hj with
      | ipv4 h4 =>
        cases hrd with
        | @ends m seen cut mark g1 g2 g3 =>
          refine ⟨m, seen, cut, g1, g2, ?_⟩
          have hdom : dom = textTo first [(r1, b), (r2, c), (r3, d)] seen := congrArg ExtractResult.domain hr
          rw [hx', ← hr, hdom]
      | name => simp at hty
    · rw [hpu] at hc'; simp at hc'

/-- No octet at the top is enough, whatever the IDNA library does with addresses. -/
theorem C15_noOctetTop (idna : Idna) {rules : List Bytes} (hno : NoOctetTop rules) : QuadsWhole idna rules := by
  rintro e sch ui q t after port path hA haf ⟨a, b, c, d, r1, r2, r3, ha, hb, hc, hd, h1, h2, h3, rfl⟩ ht hpu hid
  obtain ⟨m, seen, cut, g1, g2, g3⟩ := quad_read idna e sch ui t after port path a b c d r1 r2 r3 ha hb hc hd h1 h2 h3 ht hA haf hpu hid
  have hs := stops_seen g2
  have h0 : seen = 0 := by
    rcases Nat.eq_zero_or_pos m with hm | hm
    · omega
    rcases hno with hno | hno
    · exact absurd (.inr hno) (g1.noStar 0 hm)
    · have hopen : ¬ Open rules [d] := by
        rintro (h | ⟨x, h | h⟩)
        · simp at h
        · simp at h
        · exact hno d x hd h
      have hm1 : m = 1 := by
        refine Classical.byContradiction fun hc' => ?_
        have hk : Known rules ([d, c, b, a].take 2) := g1.known.prefix (by
          rw [show [d, c, b, a].take 2 = ([d, c, b, a].take m).take 2 by rw [List.take_take]; congr 1; omega]
          exact List.take_prefix _ _)
        exact hopen (.inr ⟨c, hk⟩)
      subst hm1
      cases g2 with
      | all => rfl
      | unknown h => exact absurd h hopen
      | exception _ _ h => exact absurd (.inr ⟨star, h⟩) hopen
      | wildcard _ _ h => exact absurd (.inr ⟨star, h⟩) hopen
  subst h0
  rw [g3]
  simp [textTo, joinLabels]

/-- C15, exactly: with an IDNA library that accepts addresses, the whole of every address is returned if and only if no rule
of two or more labels has an octet as top-level label (or there is a rule `*`). -/
theorem C15_exact (idna : Idna) {rules : List Bytes} (hi : ∀ q, IsQuad q → idna.toUnicodeErr q = none) :
    QuadsWhole idna rules ↔ NoOctetTop rules := by
  refine ⟨fun H => ?_, C15_noOctetTop idna⟩
  refine Classical.byContradiction fun hno => ?_
  simp only [NoOctetTop, not_or, Classical.not_forall, Classical.not_not] at hno
  obtain ⟨hst, o, x, ho, hp⟩ := hno
  have h1 : IsOctet (b! "1") := ⟨1, by decide, by decide +kernel⟩
  have hdot : (46 : Nat) ∈ separators := by decide
  have e46 : encode 46 = [46] := by decide
  have hq : IsQuad (b! "1" ++ encode 46 ++ b! "1" ++ encode 46 ++ b! "1" ++ encode 46 ++ o) :=
    ⟨_, _, _, _, _, _, _, h1, h1, h1, ho, hdot, hdot, hdot, rfl⟩
  generalize hqe : b! "1" ++ encode 46 ++ b! "1" ++ encode 46 ++ b! "1" ++ encode 46 ++ o = q at hq
  have hA : Authority q [] [] (q ++ [] ++ []) := by
    rw [List.append_nil, List.append_nil, ← hqe]
    have := goodName_dotted (first := b! "1") (ls := [b! "1", b! "1", o]) (by
      intro l hl
      simp only [List.mem_cons, List.not_mem_nil, or_false] at hl
      rcases hl with rfl | rfl | rfl | rfl
      · exact octet_good h1
      · exact octet_good h1
      · exact octet_good h1
      · exact octet_good ho)
    have := hostCharsOK_authority this.chars
    simpa [dotted, joinLabels] using this
  obtain ⟨m, seen, cut, g1, g2, g3⟩ := quad_read idna { url := q } [] [] [] [] [] [] _ _ _ o 46 46 46 h1 h1 h1 ho hdot hdot hdot
    ⟨[], by simp, rfl⟩ (by rw [hqe]; exact hA) ⟨.inl rfl, .inl ⟨rfl, rfl⟩⟩ rfl (by rw [List.append_nil, hqe]; exact hi q hq)
  have := H { url := q } [] [] q [] [] [] [] hA ⟨.inl rfl, .inl ⟨rfl, rfl⟩⟩ hq ⟨[], by simp, rfl⟩ rfl (by rw [List.append_nil]; exact hi q hq)
  rw [g3] at this
  simp only [Except.ok.injEq, Prod.mk.injEq, ExtractResult.mk.injEq] at this
  have hfol : Follows rules [o, b! "1", b! "1", b! "1"] [o, b! "1", b! "1", b! "1"] 1 := by
    refine ⟨by simp, .inr (hp.prefix ⟨[x], rfl⟩), ?_, ?_⟩
    · intro j hj
      obtain rfl : j = 0 := by omega
      rintro (hk | hk)
      · simp at hk
      · exact hst hk
    · intro j hj _ hc
      obtain rfl : j = 0 := by omega
      simp at hc
      exact ho.ne_nil hc
  have hm := follows_le rfl hfol (.inl ⟨_, _, g2⟩)
  have hseen : seen ≠ 0 := by
    rintro rfl
    cases g2 with
    | all h =>
      rcases h with h | h
      · simp at h
      · exact h (.inr ⟨x, .inr (by simpa using hp)⟩)
    | unknown => omega
    | exception => omega
    | wildcard => omega
  have hlen := congrArg List.length this.1.2.2.2.1
  rw [← hqe] at hlen
  have hle : (textTo (b! "1") [(46, b! "1"), (46, b! "1"), (46, o)] seen).length ≤ 5 := by
    have h3 : 3 - seen ≤ 2 := by omega
    simp only [textTo, List.length_cons, List.length_nil]
    match h : 3 - seen, h3 with
    | 0, _ => simp [joinLabels, e46]
    | 1, _ => simp [joinLabels, e46]
    | 2, _ => simp [joinLabels, e46]
  simp [e46] at hlen
  have hl : (b! "1").length = 1 := by decide
  have := List.length_pos_iff.2 ho.ne_nil
  omega

/-! ## C26 -/

/-- C26 for one list: if a host name is accepted, then so is the name with a further label before it, with the same Domain,
Suffix and RegisteredDomain, unless the new name is an IPv4 address. -/
def KeepsDomain (idna : Idna) (rules : List Bytes) : Prop :=
  ∀ (e : URLParams) (r : ExtractResult), extract idna (buildTrie rules) e = .ok (r, none) → r.hostType = .hostName →
    ∃ host after n, Authority e.url r.scheme r.userInfo (host ++ after) ∧ IsPlainHost host ∧
      AfterHost after r.port r.path ∧ HostTextOf idna e.convertURLToPunyCode host n ∧
      ∀ (e' : URLParams) (sch ui host' after' port path x : Bytes), ∀ s ∈ separators,
        Authority e'.url sch ui (host' ++ after') → IsPlainHost host' → AfterHost after' port path →
        HostTextOf idna e'.convertURLToPunyCode host' (x ++ encode s ++ n) →
        x ≠ [] → FreeOf separators x → HostCharsOK x → ¬ IsIPv4 (x ++ encode s ++ n) →
        ∃ r', extract idna (buildTrie rules) e' = .ok (r', none) ∧ r'.hostType = .hostName ∧
          r'.domain = r.domain ∧ r'.suffix = r.suffix ∧ r'.registeredDomain = r.registeredDomain ∧
          (e.ignoreSubDomains = false → e'.ignoreSubDomains = false → (∀ a ∈ separators, ¬ encode a <+: n) →
            r'.subDomain = if r.subDomain = [] then x else x ++ encode s ++ r.subDomain)

/-- C26, exactly: for a well-formed list without the rule `*`, with an IDNA library that accepts its top-level labels also
after empty labels, the claim holds if and only if every top-level label of the list is a rule or the parent of a
wildcard. -/
theorem C26_exact (idna : Idna) {rules : List Bytes} (hw : WellFormed rules) (hb : ¬ RuleAt rules [star])
    (hi : ∀ t, PrefixAt rules [t] → idna.toUnicodeErr (46 :: t) = none ∧ idna.toUnicodeErr (97 :: 46 :: 46 :: t) = none) :
    KeepsDomain idna rules ↔ TopRules rules := by
  refine ⟨fun H t hp => ?_, fun htop e r h ht => C26_subdomain_partial idna rules e h ht (.inr htop)⟩
  refine Classical.byContradiction fun hno => ?_
  simp only [not_or] at hno
  obtain ⟨hg, hA, hpl, hsh, hx⟩ := extracts_dot idna hw hb (hi t hp).1 hp hno.1 hno.2
  obtain ⟨host, after, n, k1, k2, k3, k4, k5⟩ := H _ _ ((extracts_iff ..).2 hx) rfl
  simp only at k1 k3 k4
  obtain ⟨-, -, he⟩ := Authority_unique k1 hA
  obtain ⟨rfl, rfl⟩ := host_unique (a2 := []) k2 (afterHost_head k3) hpl (by simp) (by simpa using he)
  have e46 : encode 46 = [46] := by decide
  obtain ⟨un, -, ⟨-, -, rfl⟩ | ⟨hc, -⟩⟩ := k4
  · have hga : GoodLabel (b! "a") := by
      have : decide (GoodLabel (b! "a")) = true := by decide +kernel
      simpa using this
    have hmem : ∀ c : UInt8, c < 128 → c ≠ 46 → c ≠ 97 → c.toNat ∈ invalidChars → c.toNat ∉ missedChars → c ∉ 97 :: 46 :: 46 :: t := by
      intro c h0 h1 h1' h2 h3 hc
      simp only [List.mem_cons] at hc
      rcases hc with hc | hc | hc | hc
      · exact h1' hc
      · exact h1 hc
      · exact h1 hc
      · exact hg.not_mem h0 h2 h3 hc
    have hpl' : IsPlainHost (97 :: 46 :: 46 :: t) := by
      intro c hc
      simp only [List.mem_cons] at hc
      rcases hc with rfl | rfl | rfl | hc
      · decide
      · decide
      · decide
      · exact hostCharsOK_plain hg.chars c hc
    have hjoin : 97 :: 46 :: 46 :: t = joinLabels [97] [(46, []), (46, t)] := by simp [joinLabels, e46]
    have hinf : ∀ r ∈ invalidChars, r ∉ missedChars → ¬ encode r <:+: 97 :: 46 :: 46 :: t := by
      intro r hr hr'
      rw [hjoin]
      refine infix_labels hr (by simp [separators]) (hga.chars.2.2.2.2 r hr hr') ?_
      intro p hp hi
      simp only [List.mem_cons, List.not_mem_nil, or_false] at hp
      rcases hp with rfl | rfl
      · have := hi.length_le; simp at this; exact encode_ne_nil r this
      · exact hg.chars.2.2.2.2 r hr hr' hi
    have hA' : Authority (97 :: 46 :: 46 :: t) [] [] (97 :: 46 :: 46 :: t) := by
      refine authority_self hpl' (hmem 64 (by decide) (by decide) (by decide) (by decide +kernel) (by decide)) ?_
      have hws : ∀ r ∈ whiteSpace, r ∈ invalidChars ∧ r ∉ missedChars := by decide +kernel
      exact ⟨[], [], by simp, ⟨[], by simp, rfl⟩, ⟨[], by simp, rfl⟩, fun _ => rfl, fun _ => rfl,
        fun _ r hr hp => hinf r (hws r hr).1 (hws r hr).2 hp.isInfix, fun _ r hr hp => hinf r (hws r hr).1 (hws r hr).2 hp.isInfix⟩
    have htx : HostTextOf idna false (97 :: 46 :: 46 :: t) (97 :: 46 :: 46 :: t) := by
      refine ⟨_, ?_, .inl ⟨rfl, (hi t hp).2, rfl⟩⟩
      rw [← queryUnescape_iff]
      have h37 : (37 : UInt8) ∉ 97 :: 46 :: 46 :: t := by simp [hg.noEscape]
      have h43 := hmem 43 (by decide) (by decide) (by decide) (by decide +kernel) (by decide)
      exact queryUnescape_plain fun c hc => ⟨fun e => h37 (e ▸ hc), fun e => h43 (e ▸ hc)⟩
    obtain ⟨r', k6, -⟩ := k5 { url := 97 :: 46 :: 46 :: t } [] [] (97 :: 46 :: 46 :: t) [] [] [] [97] 46 (by simp [separators])
      (by simpa using hA') hpl' ⟨.inl rfl, .inl ⟨rfl, rfl⟩⟩ (by rw [e46]; exact htx) (by simp) hga.free hga.chars (not_ipv4_letter (by decide))
    obtain ⟨y, hy⟩ := (prefixAt_cases hp).resolve_left hno.1
    have hbad : Extracts idna rules { url := 97 :: 46 :: 46 :: t } {} (some .consecutiveSeparators) := by
      refine ⟨[], [], _, .name (97 :: 46 :: 46 :: t) [], hA', ?_, ?_⟩
      · have := HostAt.name (host := 97 :: 46 :: 46 :: t) (after := []) hpl' (by simp)
        simpa using this
      · have hres : HostResult rules false (97 :: 46 :: 46 :: t) {} (some .consecutiveSeparators) := by
          refine ⟨[97], [(46, []), (46, t)], [], [t, [], [97]], none, ⟨by simp [joinLabels, e46], ⟨hga.free, ?_⟩, ⟨[], by simp, rfl⟩, ?_⟩,
            ⟨.inl hg.decodes, .inl .nil, .inl hga.decodes, trivial⟩, ?_, .consecutive⟩
          · intro p hp
            simp only [List.mem_cons, List.not_mem_nil, or_false] at hp
            rcases hp with rfl | rfl
            · exact ⟨by simp [separators], freeOf_nil goodSet_separators⟩
            · exact ⟨by simp [separators], hg.free⟩
          · intro f s e
            rw [show [(46, []), (46, t)] = [(46, ([] : Bytes))] ++ [(46, t)] from rfl] at e
            have := List.append_inj_right' e rfl
            simp at this
            exact hg.ne this.2
          · refine .stuck (m := 1) ⟨by simp [fromRight], .inr (by simpa using hp), ?_, ?_⟩ (.inr ⟨y, .inr (by simpa using hy)⟩)
              (by simp [fromRight]) (by simp [fromRight])
            · intro j hj hk
              obtain rfl : j = 0 := by omega
              simp only [List.take_zero, List.nil_append] at hk
              exact hb (hw.star_last (a := []) ((known_prefix (by simp)).1 hk))
            · intro j hj _ hc
              obtain rfl : j = 0 := by omega
              simp [fromRight] at hc
              exact hg.ne hc
        exact Finished.host (idna := idna) (rules := rules) (e := { url := 97 :: 46 :: 46 :: t }) (sch := []) (ui := [])
          (host := 97 :: 46 :: 46 :: t) (after := []) (port := []) (path := []) (n := 97 :: 46 :: 46 :: t) ⟨.inl rfl, .inl ⟨rfl, rfl⟩⟩ htx hres
    rw [(extracts_iff ..).2 hbad] at k6
    simp at k6
  · simp at hc

/-- C26 for one list and names of proper labels, separated by dots. -/
def KeepsNames (idna : Idna) (rules : List Bytes) : Prop :=
  ∀ (x first : Bytes) (ls : List Bytes) (r : ExtractResult), (∀ l ∈ x :: first :: ls, GoodLabel l) →
    extract idna (buildTrie rules) { url := List.intercalate [46] (first :: ls) } = .ok (r, none) → r.hostType = .hostName →
    idna.toUnicodeErr (List.intercalate [46] (x :: first :: ls)) = none → ¬ IsIPv4 (List.intercalate [46] (x :: first :: ls)) →
    extract idna (buildTrie rules) { url := List.intercalate [46] (x :: first :: ls) } =
      .ok ({ r with subDomain := if r.subDomain = [] then x else x ++ 46 :: r.subDomain }, none)

/-- What is known about an accepted name of proper labels. -/
theorem accepted_dotted {idna : Idna} {rules : List Bytes} {first : Bytes} {ls : List Bytes} {r : ExtractResult}
    (hg : ∀ l ∈ first :: ls, GoodLabel l)
    (h : extract idna (buildTrie rules) { url := List.intercalate [46] (first :: ls) } = .ok (r, none)) (ht : r.hostType = .hostName) :
    ∃ m seen cut mark sub dom suf reg, Follows rules (first :: ls).reverse (first :: ls).reverse m ∧
      Stops rules (first :: ls).reverse (first :: ls).reverse m seen cut ∧ FirstMark rules (first :: ls).reverse m mark ∧
      Parts first (dotted ls) mark cut sub dom suf reg ∧ dom ≠ [] ∧
      r = { hostType := .hostName, subDomain := sub, domain := dom, suffix := suf, registeredDomain := reg } := by
  have hgn := goodName_dotted hg
  obtain ⟨host, after, n, first', rest, tail, ds, m, seen, cut, mark, H⟩ := accepted h ht
  have hA := hostCharsOK_authority hgn.chars
  have hA' := H.authority
  simp only at hA'
  rw [dotted_join] at hA'
  obtain ⟨e1, e2, he⟩ := Authority_unique hA' hA
  obtain ⟨rfl, rfl⟩ := host_unique (a2 := []) H.plain (afterHost_head H.after) (hostCharsOK_plain hgn.chars) (by simp) (by simpa using he)
  have hshape : HostShape (joinLabels first (dotted ls)) first (dotted ls) [] := by
    refine ⟨by simp, ⟨hgn.first.free, fun p hp => ⟨(hgn.rest p hp).1, (hgn.rest p hp).2.free⟩⟩, ⟨[], by simp, rfl⟩, ?_⟩
    intro f s e
    exact (hgn.rest (s, []) (by rw [e]; simp)).2.ne rfl
  obtain ⟨un, hdec, ⟨-, -, rfl⟩ | ⟨hc, -⟩⟩ := H.text
  · obtain ⟨rfl, rfl, -⟩ := H.shape.unique hshape
    have hv := H.values
    rw [labelValues_iff, dotted_fromRight, good_values (fun l hl => hg l (List.mem_reverse.1 hl))] at hv
    subst hv
    obtain ⟨sub, hp, hs⟩ := H.parts
    have h1 := H.follows
    have h2 := H.stops
    rw [dotted_fromRight] at h1 h2
    refine ⟨m, seen, cut, mark, sub, r.domain, r.suffix, r.registeredDomain, h1, h2, H.marks, hp, H.domain, ?_⟩
    have hpp : r.port = [] ∧ r.path = [] := by
      rcases H.after.2 with ⟨h1, h2⟩ | ⟨-, h2⟩
      · exact ⟨h1, h2.symm⟩
      · simp at h2
    simp at hs
    cases r
    simp only at *
    simp [*]
  · simp at hc

theorem subAndDomain_unique {first : Bytes} {front : List SepLabel} {sub dom sub' dom' : Bytes}
    (h : SubAndDomain first front sub dom) (h' : SubAndDomain first front sub' dom') : sub = sub' ∧ dom = dom' := by
  rcases h with ⟨rfl, rfl, rfl⟩ | ⟨f, s, l, rfl, rfl, rfl⟩ <;> rcases h' with ⟨h1, rfl, rfl⟩ | ⟨f', s', l', h1, rfl, rfl⟩
  · exact ⟨rfl, rfl⟩
  · have := congrArg List.length h1; simp at this
  · have := congrArg List.length h1; simp at this
  · have e1 := List.append_inj_left' h1 rfl
    have e2 := List.append_inj_right' h1 rfl
    simp at e2
    rw [e1, e2.2]; exact ⟨rfl, rfl⟩

theorem parts_unique {first : Bytes} {rest : List SepLabel} {mark : Option Nat} {cut : Nat} {sub dom suf reg sub' dom' suf' reg' : Bytes}
    (h : Parts first rest mark cut sub dom suf reg) (h' : Parts first rest mark cut sub' dom' suf' reg') :
    sub = sub' ∧ dom = dom' ∧ suf = suf' ∧ reg = reg' := by
  cases h with
  | noSuffix h =>
    cases h' with
    | noSuffix h' =>
      obtain ⟨h1, h2⟩ := subAndDomain_unique h h'
      exact ⟨h1, h2, rfl, rfl⟩
  | @suffix front s l more back _ _ _ _ e1 e2 e3 h =>
    cases h' with
    | @suffix front' s' l' more' back' _ _ _ _ e1' e2' e3' h' =>
      rw [e1] at e1'
      obtain ⟨e4, -⟩ := List.append_inj' e1' (by omega)
      obtain ⟨rfl, e6⟩ := List.append_inj' e4 (by simp; omega)
      simp at e6
      obtain ⟨⟨rfl, rfl⟩, rfl⟩ := e6
      obtain ⟨h1, h2⟩ := subAndDomain_unique h h'
      exact ⟨h1, h2, rfl, by rw [h2]⟩
    | suffixOnly e1' e2' h' =>
      have := congrArg List.length e1
      simp at this; omega
  | suffixOnly e1 e2 h =>
    cases h' with
    | suffix e1' e2' e3' h' =>
      have := congrArg List.length e1'
      simp at this; omega
    | suffixOnly e1' e2' h' =>
      rw [e1] at e1'
      obtain ⟨rfl, rfl⟩ := List.append_inj' e1' (by omega)
      exact ⟨rfl, rfl, rfl, rfl⟩

/-- The parts with a label more. -/
theorem subAndDomain_more {first : Bytes} (hf : first ≠ []) {front : List SepLabel} {sub dom : Bytes} (h : SubAndDomain first front sub dom) (x : Bytes) :
    SubAndDomain x ((46, first) :: front) (if sub = [] then x else x ++ 46 :: sub) dom := by
  right
  rcases h with ⟨rfl, rfl, rfl⟩ | ⟨f, s, l, rfl, rfl, rfl⟩
  · exact ⟨[], 46, dom, rfl, rfl, by simp [joinLabels]⟩
  · exact ⟨(46, first) :: f, s, dom, rfl, rfl, by rw [if_neg (joinLabels_ne hf f)]; simp [joinLabels, show encode 46 = [46] by decide]⟩

theorem parts_more {first : Bytes} (hf : first ≠ []) {rest : List SepLabel} {mark : Option Nat} {cut : Nat} {sub dom suf reg : Bytes}
    (h : Parts first rest mark cut sub dom suf reg) (hd : dom ≠ []) (x : Bytes) :
    Parts x ((46, first) :: rest) mark cut (if sub = [] then x else x ++ 46 :: sub) dom suf reg := by
  cases h with
  | noSuffix h => exact .noSuffix (subAndDomain_more hf h x)
  | @suffix front s l more back _ _ _ _ e1 e2 e3 h =>
    refine .suffix (front := (46, first) :: front) (back := back) (by rw [e1]; simp) e2 e3 (subAndDomain_more hf h x)
  | suffixOnly => exact absurd rfl hd

/-- C26, exactly, for names of proper labels: for a well-formed list in which no rule ends in an octet, with an IDNA library
that accepts its labels, the claim holds if and only if the list is anchored. -/
theorem C26_names (idna : Idna) {rules : List Bytes} (hw : WellFormed rules) (hi : AcceptsNames idna rules)
    (ho : ∀ o, IsOctet o → ¬ PrefixAt rules [o]) : KeepsNames idna rules ↔ Anchored rules := by
  constructor
  · -- the shortest rule that is not anchored
    intro H
    have main : ∀ k t p, p.length = k → RuleAt rules (t :: p) → Reached rules (t :: p) → ¬ RuleAt rules [t] → ¬ PrefixAt rules [t, star] → False := by
      intro k
      induction k using Nat.strongRecOn with
      | _ k ih =>
        intro t p hk hr hre hn1 hn2
        rcases List.eq_nil_or_concat p with rfl | ⟨p', y, rfl⟩
        · exact hn1 hr
        rw [List.concat_eq_append] at hr hre hk
        have hgood : ∀ x ∈ t :: (p' ++ [y]), GoodLabel x ∧ LabelOf rules x := by
          intro x hx
          refine ⟨?_, _, hr, .inl hx⟩
          obtain ⟨a, b, e⟩ := List.append_of_mem hx
          rw [e] at hr hre
          rcases prefixAt_cases (hr.prefix (p := a ++ [x]) ⟨b, by simp⟩) with h | ⟨y, h⟩
          · rcases hw.leftmost _ _ h with h' | rfl | ⟨m, rfl, -⟩
            · exact h'
            · exact absurd h (hre a star b rfl)
            · exact absurd (hw.exception _ _ h) (hre a _ b rfl)
          · exact hw.good_of_prefix h x (by simp)
        obtain ⟨first, ls, hfl⟩ : ∃ first ls, (t :: p').reverse = first :: ls := by
          cases h : (t :: p').reverse with
          | nil => simp at h
          | cons a b => exact ⟨a, b, rfl⟩
        have hrev : (first :: ls).reverse = t :: p' := by rw [← hfl]; simp
        have hrev' : (y :: first :: ls).reverse = t :: p' ++ [y] := by rw [List.reverse_cons, hrev]
        have hgl : ∀ l ∈ y :: first :: ls, GoodLabel l ∧ (LabelOf rules l ∨ OnlyA l) := by
          intro l hl
          have := hgood l (by
            rw [← List.mem_reverse, hrev'] at hl
            simpa using hl)
          exact ⟨this.1, .inl this.2⟩
        have hgl' : ∀ l ∈ first :: ls, GoodLabel l ∧ (LabelOf rules l ∨ OnlyA l) := fun l hl => hgl l (by simp at hl ⊢; exact .inr hl)
        have hno4 : ∀ a (zs : List Bytes), (a :: zs).reverse.head? = some t → (∀ l ∈ a :: zs, GoodLabel l) → ¬ IsIPv4 (List.intercalate [46] (a :: zs)) := by
          intro a zs hz hgz h4
          have hgn := goodName_dotted hgz
          rw [dotted_join] at h4
          obtain ⟨q, t', ⟨o1, o2, o3, o4, r1, r2, r3, k1, k2, k3, k4, k5, k6, k7, rfl⟩, ht', e⟩ := h4
          obtain ⟨hsh, -⟩ := quad_labels k1 k2 k3 k4 k5 k6 k7 ht'
          rw [← e] at hsh
          have hshape : HostShape (joinLabels a (dotted zs)) a (dotted zs) [] := by
            refine ⟨by simp, ⟨hgn.first.free, fun p hp => ⟨(hgn.rest p hp).1, (hgn.rest p hp).2.free⟩⟩, ⟨[], by simp, rfl⟩, ?_⟩
            intro f s e
            exact (hgn.rest (s, []) (by rw [e]; simp)).2.ne rfl
          obtain ⟨-, e2, -⟩ := hshape.unique hsh
          have e3 := congrArg (List.map Prod.snd) e2
          have : zs = [o2, o3, o4] := by simpa [dotted, Function.comp_def] using e3
          subst this
          simp at hz
          exact ho o4 k4 (by rw [hz]; exact hr.prefix ⟨p' ++ [y], rfl⟩)
        have hfol : ∀ z zs, t :: (p' ++ [y]) = z ++ zs → Follows rules z z z.length := by
          intro z zs e
          rw [e] at hr hre
          refine ⟨Nat.le_refl _, ?_, fun j hj => ?_, fun j hj _ hc => ?_⟩
          · rw [List.take_length]
            cases z with
            | nil => exact .inl rfl
            | cons a z => exact .inr (hr.prefix (List.prefix_append _ _))
          · rw [hw.known_star]
            have := reached_iff.1 hre j (by simp; omega)
            rwa [List.take_append_of_le_length (by omega)] at this
          · have := hgood [] (by rw [e]; exact List.mem_append_left _ (List.mem_of_getElem? hc))
            exact this.1.ne rfl
        -- the name without the last label of the rule has no suffix
        obtain ⟨m, seen, cut, mark, h1, h2, h3⟩ := good_read (rules := rules) (name := (first :: ls).reverse)
          (fun x hx => (hgl' x (List.mem_reverse.1 hx)).1) (by simp)
        have hm : mark = none := by
          cases h3 with
          | none => rfl
          | @«at» e g1 g2 g3 =>
            exfalso
            have hle := h1.le
            rw [hrev] at g2 hle
            simp only [List.length_cons] at hle
            rcases g2 with g2 | ⟨l, g2, g4⟩
            · simp only [List.take_succ_cons] at g2
              refine ih e (by simp at hk; omega) t (p'.take e) (by simp; omega) g2 ?_ hn1 hn2
              intro a x b e' hr'
              refine hre a x (b ++ (p'.drop e ++ [y])) ?_ hr'
              have : t :: (p' ++ [y]) = t :: p'.take e ++ (p'.drop e ++ [y]) := by
                rw [List.cons_append, ← List.append_assoc, List.take_append_drop]
              rw [this, e']; simp
            · simp only [List.take_succ_cons, List.cons.injEq] at g2
              rw [← g2.1] at g4
              exact hn2 g4
        subst hm
        obtain ⟨sub, dom, suf, reg, hp, hx⟩ := extracts_dotted idna (fun l hl => (hgl' l hl).1) (hi _ hgl')
          (hno4 _ _ (by rw [hrev]; rfl) (fun l hl => (hgl' l hl).1)) h1 h2 h3 (.inl rfl)
        have hnew := H y first ls _ (fun l hl => (hgl l hl).1) ((extracts_iff ..).2 hx) rfl (hi _ hgl)
          (hno4 _ _ (by rw [hrev']; rfl) (fun l hl => (hgl l hl).1))
        -- the name with it has no domain
        obtain ⟨m2, seen2, cut2, mark2, sub2, dom2, suf2, reg2, g1, g2, g3, g4, g5, -⟩ :=
          accepted_dotted (fun l hl => (hgl l hl).1) hnew rfl
        have hf2 := hfol (t :: (p' ++ [y])) [] (by simp)
        rw [hrev'] at g1 g2 g3
        have hm2 := follows_le rfl hf2 (.inl ⟨_, _, g2⟩)
        have hms := stops_seen g2
        have hl2 : (dotted (first :: ls)).length = (t :: p').length := by
          rw [← hrev]; simp [dotted]
        simp only [List.length_cons, List.length_append, List.length_nil] at hm2 hl2
        cases g3 with
        | none g3 =>
          refine g3 (p'.length + 1) (by omega) (.inl ?_)
          rw [List.take_of_length_le (by simp)]
          exact hr
        | «at» =>
          cases g4 with
          | suffix e1 e2 e3 _ =>
            have := congrArg List.length e1
            simp only [List.length_append, List.length_cons] at this
            omega
          | suffixOnly => exact g5 rfl
    intro t p hr hre
    refine Classical.byContradiction fun hno => ?_
    simp only [not_or] at hno
    exact main _ t p rfl hr hre hno.1 hno.2
  · intro ha x first ls r hg h ht hid h4
    have hg' : ∀ l ∈ first :: ls, GoodLabel l := fun l hl => hg l (by simp at hl ⊢; exact .inr hl)
    obtain ⟨m, seen, cut, mark, sub, dom, suf, reg, h1, h2, h3, hp, hd, rfl⟩ := accepted_dotted hg' h ht
    have hms := stops_seen h2
    have hrev : (x :: first :: ls).reverse = (first :: ls).reverse ++ [x] := List.reverse_cons
    have hlen : (first :: ls).reverse.length = ls.length + 1 := by simp
    have hlen' : ((first :: ls).reverse ++ [x]).length = ls.length + 2 := by simp
    have hdot : dotted (first :: ls) = (46, first) :: dotted ls := rfl
    have hdl : (dotted ls).length = ls.length := by simp [dotted]
    refine (extracts_iff ..).2 ?_
    suffices hS : ∃ m' seen' cut', Follows rules (x :: first :: ls).reverse (x :: first :: ls).reverse m' ∧
        Stops rules (x :: first :: ls).reverse (x :: first :: ls).reverse m' seen' cut' ∧
        FirstMark rules (x :: first :: ls).reverse m' mark ∧ (mark = none ∨ (cut' ≤ (first :: ls).length ∧ cut' = cut)) by
      obtain ⟨m', seen', cut', g1, g2, g3, g4⟩ := hS
      obtain ⟨sub', dom', suf', reg', hp', hx⟩ := extracts_dotted idna hg hid h4 g1 g2 g3 (g4.imp id And.left)
      have hfne : first ≠ [] := (hg' first (by simp)).ne
      have hp2 : Parts x (dotted (first :: ls)) mark cut' (if sub = [] then x else x ++ 46 :: sub) dom suf reg := by
        rw [hdot]
        rcases g4 with rfl | ⟨-, rfl⟩
        · cases hp with
          | noSuffix hsd => exact .noSuffix (subAndDomain_more hfne hsd x)
        · exact parts_more hfne hp hd x
      obtain ⟨rfl, rfl, rfl, rfl⟩ := parts_unique hp' hp2
      exact hx
    rw [hrev]
    have hgr : ∀ l ∈ (first :: ls).reverse ++ [x], GoodLabel l := by
      intro l hl
      rw [← hrev, List.mem_reverse] at hl
      exact hg l hl
    cases hmk : mark with
    | none =>
      subst hmk
      obtain ⟨m', seen', cut', mark', g1, g2, g3⟩ := good_read (rules := rules) hgr (by simp)
      have : mark' = none := by
        cases mark' with
        | none => rfl
        | some e =>
          exfalso
          obtain rfl := ha.mark g1 g3 rfl
          cases g3 with
          | «at» k1 k2 k3 =>
            rw [List.take_append_of_le_length (by omega)] at k2
            have hk : Known rules ((first :: ls).reverse.take 1) := by
              rw [← List.take_append_of_le_length (l₂ := [x]) (by omega)]
              refine g1.known.prefix ?_
              rw [show ((first :: ls).reverse ++ [x]).take 1 = (((first :: ls).reverse ++ [x]).take m').take 1 by
                rw [List.take_take]; congr 1; omega]
              exact List.take_prefix _ _
            have hf1 : Follows rules (first :: ls).reverse (first :: ls).reverse 1 := by
              refine ⟨by omega, hk, fun j hj => ?_, fun j hj _ hc => ?_⟩
              · obtain rfl : j = 0 := by omega
                exact g1.noStar 0 k1
              · exact (hgr [] (List.mem_append_left _ (List.mem_of_getElem? hc))).ne rfl
            have := follows_le rfl hf1 (.inl ⟨_, _, h2⟩)
            cases h3 with
            | none h3 => exact h3 0 (by omega) k2
      subst this
      exact ⟨m', seen', cut', g1, g2, g3, .inl rfl⟩
    | some e =>
      subst hmk
      have hcut : cut ≤ ls.length := by
        cases hp with
        | suffix e1 e2 e3 _ =>
          have := congrArg List.length e1
          simp only [List.length_append, List.length_cons, hdl] at this
          omega
        | suffixOnly => exact absurd rfl hd
      have htake : ∀ j, j ≤ ls.length + 1 → ((first :: ls).reverse ++ [x]).take j = (first :: ls).reverse.take j :=
        fun j hj => List.take_append_of_le_length (by omega)
      have hget : ∀ j, j < ls.length + 1 → ((first :: ls).reverse ++ [x])[j]? = (first :: ls).reverse[j]? :=
        fun j hj => List.getElem?_append_left (by omega)
      have hne : ∀ j l, ((first :: ls).reverse ++ [x])[j]? = some l → l ≠ [] := fun j l hl => (hgr l (List.mem_of_getElem? hl)).ne
      refine ⟨m, seen, cut, ⟨by omega, by rw [htake m (by omega)]; exact h1.known, fun j hj => ?_, fun j hj _ hc => hne j [] hc rfl⟩, ?_, ?_,
        .inr ⟨by simp; omega, rfl⟩⟩
      · rw [htake j (by omega)]; exact h1.noStar j hj
      · cases h2 with
        | @all m h =>
          refine .all (.inr ?_)
          rw [htake _ (by omega)]
          exact h.resolve_left (by omega)
        | @unknown m l k1 k2 k3 k4 k5 =>
          have := (hget m (by omega)).trans k2
          exact .unknown (by rw [htake _ (by omega)]; exact k1) this (fun _ => hne m l this) (by rw [htake _ (by omega)]; exact k4)
            (by rw [htake _ (by omega)]; exact k5)
        | @exception m l k2 k3 k4 k5 =>
          have := (hget m (by omega)).trans k2
          exact .exception this (fun _ => hne m l this) (by rw [htake _ (by omega)]; exact k4) (by rw [htake _ (by omega)]; exact k5)
        | @wildcard m l k2 k3 k4 k5 =>
          have := (hget m (by omega)).trans k2
          exact .wildcard this (fun _ => hne m l this) (by rw [htake _ (by omega)]; exact k4) (by rw [htake _ (by omega)]; exact k5)
      · cases h3 with
        | «at» k1 k2 k3 =>
          exact .at k1 (by rw [htake _ (by omega)]; exact k2) (fun j hj => by rw [htake _ (by omega)]; exact k3 j hj)

/-! ## Lists with and without these properties -/

/-- `Anchored`, checked. -/
def anchoredB (rules : List Bytes) : Bool :=
  (rules.map revLabels).all fun q =>
    match q with
    | [] => true
    | t :: p => !decide (Reached rules (t :: p)) || decide (RuleAt rules [t]) || decide (PrefixAt rules [t, star])

theorem anchored_iff {rules : List Bytes} : Anchored rules ↔ anchoredB rules = true := by
  simp only [Anchored, anchoredB, List.all_eq_true]
  constructor
  · intro h q hq
    cases q with
    | nil => rfl
    | cons t p =>
      simp only [Bool.or_eq_true, Bool.not_eq_true', decide_eq_false_iff_not, decide_eq_true_eq]
      by_cases hr : Reached rules (t :: p)
      · rcases h t p (ruleAt_iff.2 hq) hr with h | h
        · exact .inl (.inr h)
        · exact .inr h
      · exact .inl (.inl hr)
  · intro h t p hr hre
    have := h _ (ruleAt_iff.1 hr)
    simp only [Bool.or_eq_true, Bool.not_eq_true', decide_eq_false_iff_not, decide_eq_true_eq] at this
    rcases this with (h | h) | h
    · exact absurd hre h
    · exact .inl h
    · exact .inr h

instance {rules : List Bytes} : Decidable (Anchored rules) := decidable_of_iff _ anchored_iff.symm

theorem anyName_accepts (rules : List Bytes) : AcceptsNames idId rules := fun _ _ => rfl

-- all claims hold for the list of the examples
example : WellFormed pslRules ∧ ¬ RuleAt pslRules [star] ∧ Anchored pslRules ∧ TopRules pslRules :=
  ⟨wellFormedB_sound (by decide +kernel), by decide +kernel, by decide +kernel, by decide +kernel⟩

example : Reassembles idId pslRules ∧ NoEmptyLabels idId pslRules ∧ KeepsDomain idId pslRules := by
  have hw : WellFormed pslRules := wellFormedB_sound (by decide +kernel)
  have hb : ¬ RuleAt pslRules [star] := by decide +kernel
  exact ⟨(C03_exact idId hw (anyName_accepts _)).2 (by decide +kernel), (C22_exact idId hw hb (fun _ _ => rfl)).2 (by decide +kernel),
    (C26_exact idId hw hb (fun _ _ => ⟨rfl, rfl⟩)).2 (by decide +kernel)⟩

/-- A list with a rule below a label that is no rule, as in the Public Suffix List. -/
def zaRules : List Bytes := [b! "com", b! "co.za"]

theorem zaRules_wellFormed : WellFormed zaRules := wellFormedB_sound (by decide +kernel)

-- none of them holds for a list like this
example : ¬ Reassembles idId zaRules ∧ ¬ NoEmptyLabels idId zaRules ∧ ¬ KeepsDomain idId zaRules ∧ ¬ KeepsNames idId zaRules := by
  have hb : ¬ RuleAt zaRules [star] := by decide +kernel
  have hn : ¬ Anchored zaRules := by decide +kernel
  have ht : ¬ TopRules zaRules := by decide +kernel
  refine ⟨fun h => hn ((C03_exact idId zaRules_wellFormed (anyName_accepts _)).1 h),
    fun h => ht ((C22_exact idId zaRules_wellFormed hb (fun _ _ => rfl)).1 h),
    fun h => ht ((C26_exact idId zaRules_wellFormed hb (fun _ _ => ⟨rfl, rfl⟩)).1 h),
    fun h => hn ((C26_names idId zaRules_wellFormed (anyName_accepts _) ?_).1 h)⟩
  intro o ho hp
  obtain ⟨q, hq, hpre⟩ := prefixAt_iff.1 hp
  have : ∀ q ∈ zaRules.map revLabels, ∀ x ∈ q.head?, x.all isDigit = false := by decide +kernel
  have h1 := this q hq o (by obtain ⟨z, rfl⟩ := hpre; simp)
  have h2 : o.all isDigit = true := List.all_eq_true.2 ho.digits
  rw [h1] at h2; simp at h2

-- the witnesses in the proofs, run
example : extract idId (buildTrie zaRules) { url := b! "x.co.za" } =
      .ok ({ domain := b! "x", suffix := b! "co", registeredDomain := b! "x.co", hostType := .hostName }, none) ∧
    extract idId (buildTrie zaRules) { url := b! ".za" } = .ok ({ domain := b! "za", hostType := .hostName }, none) ∧
    extract idId (buildTrie zaRules) { url := b! "a..za" } = .ok ({}, some .consecutiveSeparators) ∧
    extract idId (buildTrie zaRules) { url := b! "za" } = .ok ({ domain := b! "za", hostType := .hostName }, none) ∧
    extract idId (buildTrie zaRules) { url := b! "co.za" } = .ok ({ suffix := b! "co" }, some .emptyDomain) :=
  ⟨by decide +kernel, by decide +kernel, by decide +kernel, by decide +kernel, by decide +kernel⟩

/-- The top-level label is neither a rule nor the parent of a wildcard, but no rule below it can end a suffix. -/
def deepRules : List Bytes := [b! "*.a.za"]

-- here the claims differ: hosts are put together, but empty labels get through
example : Reassembles idId deepRules ∧ ¬ NoEmptyLabels idId deepRules ∧ ¬ KeepsDomain idId deepRules ∧ KeepsNames idId deepRules := by
  have hw : WellFormed deepRules := wellFormedB_sound (by decide +kernel)
  have hb : ¬ RuleAt deepRules [star] := by decide +kernel
  have hn : Anchored deepRules := by decide +kernel
  have ht : ¬ TopRules deepRules := by decide +kernel
  refine ⟨(C03_exact idId hw (anyName_accepts _)).2 hn, fun h => ht ((C22_exact idId hw hb (fun _ _ => rfl)).1 h),
    fun h => ht ((C26_exact idId hw hb (fun _ _ => ⟨rfl, rfl⟩)).1 h), (C26_names idId hw (anyName_accepts _) ?_).2 hn⟩
  intro o ho hp
  obtain ⟨q, hq, hpre⟩ := prefixAt_iff.1 hp
  have : ∀ q ∈ deepRules.map revLabels, ∀ x ∈ q.head?, x.all isDigit = false := by decide +kernel
  have h1 := this q hq o (by obtain ⟨z, rfl⟩ := hpre; simp)
  have h2 : o.all isDigit = true := List.all_eq_true.2 ho.digits
  rw [h1] at h2; simp at h2

-- C15: addresses are cut only if a rule goes on after an octet
example : QuadsWhole idId [b! "com", b! "4"] ∧ QuadsWhole idId [b! "*", b! "3.4"] ∧ ¬ QuadsWhole idId [b! "3.4"] := by
  refine ⟨(C15_exact idId (fun _ _ => rfl)).2 (.inr fun o x _ hp => ?_), (C15_exact idId (fun _ _ => rfl)).2 (.inl (by decide +kernel)), fun h => ?_⟩
  · obtain ⟨q, hq, hpre⟩ := prefixAt_iff.1 hp
    have : ∀ q ∈ [b! "com", b! "4"].map revLabels, q.length < 2 := by decide +kernel
    have h1 := this q hq
    have := hpre.length_le
    simp at this; omega
  · rcases (C15_exact idId (fun _ _ => rfl)).1 h with h | h
    · exact absurd h (by decide +kernel)
    · exact h (b! "4") (b! "3") ⟨4, by decide, by decide +kernel⟩ (by decide +kernel)

end Fasttld.Props
