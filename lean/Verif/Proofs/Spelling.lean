import Verif.Spec.Spelling
import Verif.Proofs.PunycodeLabel
import Verif.Proofs.FactsRules
import Verif.Proofs.Mishandled
import Verif.Proofs.IPv4Host
import Verif.Proofs.Complete

/-!
# Hosts in Unicode and in Punycode are divided in the same way
-/

set_option linter.unusedSimpArgs false

namespace Fasttld
open Spec _root_.Fasttld.Inv

/-! ## Lookups -/

/-- Two names, from the right, for which all lookups in the rules have the same answers. -/
structure Alike (rules ls ls' : List Bytes) : Prop where
  len : ls.length = ls'.length
  known : ∀ i, Known rules (ls.take i) ↔ Known rules (ls'.take i)
  more : ∀ i, Open rules (ls.take i) ↔ Open rules (ls'.take i)
  star : ∀ i, Known rules (ls.take i ++ [star]) ↔ Known rules (ls'.take i ++ [star])
  bang : ∀ i l l', ls[i]? = some l → ls'[i]? = some l' → (Known rules (ls.take i ++ [33 :: l]) ↔ Known rules (ls'.take i ++ [33 :: l']))
  marked : ∀ i, Marked rules (ls.take i) ↔ Marked rules (ls'.take i)
  ne : [] ∉ ls
  ne' : [] ∉ ls'

theorem Alike.symm {rules ls ls' : List Bytes} (h : Alike rules ls ls') : Alike rules ls' ls :=
  ⟨h.len.symm, fun i => (h.known i).symm, fun i => (h.more i).symm, fun i => (h.star i).symm,
    fun i l l' h1 h2 => (h.bang i l' l h2 h1).symm, fun i => (h.marked i).symm, h.ne', h.ne⟩

theorem Alike.follows {rules ls ls' : List Bytes} (h : Alike rules ls ls') {m : Nat} (hf : Follows rules ls ls m) : Follows rules ls' ls' m :=
  ⟨h.len ▸ hf.le, (h.known m).1 hf.known, fun j hj => mt (h.star j).2 (hf.noStar j hj),
    fun _ _ _ e => h.ne' (List.mem_of_getElem? e)⟩

theorem Alike.stops {rules ls ls' : List Bytes} (h : Alike rules ls ls') {m seen cut : Nat} (hs : Stops rules ls ls m seen cut) :
    Stops rules ls' ls' m seen cut := by
  have nth : ∀ {i : Nat} {l : Bytes}, ls[i]? = some l → ∃ l', ls'[i]? = some l' ∧ l' ≠ [] := by
    intro i l e
    obtain ⟨hi, -⟩ := List.getElem?_eq_some_iff.1 e
    exact ⟨ls'[i]'(h.len ▸ hi), List.getElem?_eq_getElem _, fun e => h.ne' (e ▸ List.getElem_mem _)⟩
  cases hs with
  | @all m h1 => exact .all (h1.imp (fun e => by rw [← h.len]; exact e) (mt (h.more _).2))
  | unknown h1 h2 h3 h4 h5 =>
    obtain ⟨l', e, hl⟩ := nth h2
    exact .unknown ((h.more _).1 h1) e (fun _ => hl) (mt (h.star _).2 h4) (mt (h.known _).2 h5)
  | exception h1 h2 h3 h4 =>
    obtain ⟨l', e, hl⟩ := nth h1
    exact .exception e (fun _ => hl) ((h.star _).1 h3) ((h.bang _ _ _ h1 e).1 h4)
  | wildcard h1 h2 h3 h4 =>
    obtain ⟨l', e, hl⟩ := nth h1
    exact .wildcard e (fun _ => hl) ((h.star _).1 h3) (mt (h.bang _ _ _ h1 e).2 h4)

theorem Alike.firstMark {rules ls ls' : List Bytes} (h : Alike rules ls ls') {m : Nat} {mark : Option Nat} (hm : FirstMark rules ls m mark) :
    FirstMark rules ls' m mark := by
  cases hm with
  | none h1 => exact .none fun j hj => mt (h.marked _).2 (h1 j hj)
  | «at» h1 h2 h3 => exact .at h1 ((h.marked _).1 h2) (fun j hj => mt (h.marked _).2 (h3 j hj))

theorem Alike.reading {rules ls ls' : List Bytes} (h : Alike rules ls ls') {w : Option Walked} (hr : Reading rules ls ls w) :
    Reading rules ls' ls' w := by
  cases hr with
  | stuck _ _ h3 _ => exact absurd (List.mem_of_getElem? h3) h.ne
  | ends h1 h2 h3 => exact .ends (h.follows h1) (h.stops h2) (h.firstMark h3)

section
variable {toASCII : Bytes → Option Bytes} {L : List Bytes}

theorem inUnicode_rule (hu : UnicodeRules L) {r : Bytes} (hr : r ∈ L) : ∀ l ∈ revLabels r, InUnicode l := fun l hl =>
  hu.label r hr _ (by rw [isLabels_rev]) l (by simpa using hl)

theorem label_inj' {a b : List Bytes} (ha : ∀ l ∈ a, InUnicode l) (hb : ∀ l ∈ b, InUnicode l)
    (h : a.map Punycode.label = b.map Punycode.label) : a = b := by
  induction a generalizing b with
  | nil => cases b with
    | nil => rfl
    | cons => simp at h
  | cons x a ih => cases b with
    | nil => simp at h
    | cons y b =>
      simp only [List.map_cons, List.cons.injEq] at h
      rw [Punycode.label_inj (ha x (by simp)).1 (hb y (by simp)).1 (ha x (by simp)).2 (hb y (by simp)).2 h.1,
        ih (fun l hl => ha l (by simp [hl])) (fun l hl => hb l (by simp [hl])) h.2]

theorem prefix_in (hf : ByLabel toASCII Punycode.label L) {q : List Bytes} (hq : ∀ l ∈ q, InUnicode l) :
    PrefixAt (L.flatMap (contributes toASCII)) q ↔ ∃ r ∈ L, q <+: revLabels r := by
  rw [prefix_iff hf]
  refine exists_congr fun r => and_congr_right fun hr => ⟨?_, .inl⟩
  rintro (h | h)
  · exact h
  · obtain ⟨p, h1, rfl⟩ := prefix_map h
    rwa [map_back hf (fun l hl => (hq l hl).2)]

theorem prefix_out (hf : ByLabel toASCII Punycode.label L) (hu : UnicodeRules L) {q : List Bytes} (hq : ∀ l ∈ q, InUnicode l) :
    PrefixAt (L.flatMap (contributes toASCII)) (q.map Punycode.label) ↔ ∃ r ∈ L, q <+: revLabels r := by
  rw [prefix_iff hf]
  refine exists_congr fun r => and_congr_right fun hr => ⟨?_, fun h => .inr (List.IsPrefix.map _ h)⟩
  rintro (h | h)
  · have : q.map Punycode.label = q := map_back hf fun l hl => (inUnicode_rule hu hr l (h.subset hl)).2
    rwa [this] at h
  · obtain ⟨p, h1, h2⟩ := prefix_map h
    rw [label_inj' hq (fun l hl => inUnicode_rule hu hr l (h1.subset hl)) h2]
    exact h1

theorem rule_in (hf : ByLabel toASCII Punycode.label L) {q : List Bytes} (hq : ∀ l ∈ q, InUnicode l) :
    RuleAt (L.flatMap (contributes toASCII)) q ↔ ∃ r ∈ L, q = revLabels r := by
  rw [rule_iff hf]
  refine exists_congr fun r => and_congr_right fun hr => ⟨?_, .inl⟩
  rintro (h | h)
  · exact h
  · rw [map_back' hf (fun l hl => (hq l hl).2) h.symm]

theorem rule_out (hf : ByLabel toASCII Punycode.label L) (hu : UnicodeRules L) {q : List Bytes} (hq : ∀ l ∈ q, InUnicode l) :
    RuleAt (L.flatMap (contributes toASCII)) (q.map Punycode.label) ↔ ∃ r ∈ L, q = revLabels r := by
  rw [rule_iff hf]
  refine exists_congr fun r => and_congr_right fun hr => ⟨?_, fun h => .inr (by rw [h])⟩
  rintro (h | h)
  · rw [← h]
    exact map_back' hf (fun l hl => (inUnicode_rule hu hr l (h ▸ hl)).2) rfl
  · exact label_inj' hq (inUnicode_rule hu hr) h

theorem star_inUnicode : InUnicode star := ⟨⟨[42], by decide, by decide⟩, by decide⟩

theorem bang_inUnicode {l : Bytes} (h : Punycode.IsText l) : InUnicode (33 :: l) := by
  obtain ⟨cs, h1, rfl⟩ := h
  refine ⟨⟨33 :: cs, ?_, by simp [encode]⟩, by simp⟩
  intro c hc
  rcases List.mem_cons.1 hc with rfl | hc
  · decide
  · exact h1 c hc

theorem isText_ascii {l : Bytes} (h : ∀ b ∈ l, b < 128) : Punycode.IsText l := by
  refine ⟨l.map UInt8.toNat, ?_, ?_⟩
  · intro c hc
    obtain ⟨b, hb, rfl⟩ := List.mem_map.1 hc
    have := h b hb
    rw [UInt8.lt_iff_toNat_lt] at this
    simp only [UInt8.reduceToNat] at this
    exact .inl (by omega)
  · induction l with
    | nil => rfl
    | cons b l ih =>
      have hb := h b (by simp)
      rw [UInt8.lt_iff_toNat_lt] at hb
      simp only [UInt8.reduceToNat] at hb
      rw [List.map_cons, List.flatMap_cons, Punycode.encode_small hb, ← ih (fun b hb => h b (by simp [hb]))]
      simp

theorem bang_iff (hf : ByLabel toASCII Punycode.label L) (hu : UnicodeRules L) {q : List Bytes} (hq : ∀ l ∈ q, InUnicode l)
    {l : Bytes} (hl : InUnicode l) : PrefixAt (L.flatMap (contributes toASCII)) (q ++ [33 :: l]) ↔
      PrefixAt (L.flatMap (contributes toASCII)) (q.map Punycode.label ++ [33 :: Punycode.label l]) := by
  have hq' : ∀ x ∈ q ++ [33 :: l], InUnicode x := by
    intro x hx
    rcases List.mem_append.1 hx with hx | hx
    · exact hq x hx
    · rw [List.mem_singleton.1 hx]; exact bang_inUnicode hl.1
  have hmem : ∀ {r}, r ∈ L → ∀ {p x}, p ++ [33 :: x] <+: revLabels r → (∀ b ∈ x, b < 128) ∧ ¬ b! "xn--" <+: x := by
    intro r hr p x h
    exact hu.exception r hr _ (by rw [isLabels_rev]) x (by simpa using h.subset (by simp))
  by_cases ha : ∀ b ∈ l, b < 128
  · have e : q.map Punycode.label ++ [33 :: Punycode.label l] = (q ++ [33 :: l]).map Punycode.label := by
      rw [List.map_append, List.map_singleton, Punycode.label_ascii ha, Punycode.label_ascii (l := 33 :: l)]
      intro b hb
      rcases List.mem_cons.1 hb with rfl | hb
      · decide
      · exact ha b hb
    rw [e, prefix_in hf hq', prefix_out hf hu hq']
  · constructor
    · intro h
      obtain ⟨r, hr, h⟩ := (prefix_in hf hq').1 h
      exact absurd (hmem hr h).1 ha
    · intro h
      exfalso
      obtain ⟨r, hr, h⟩ := (prefix_iff hf).1 h
      have hx : b! "xn--" <+: Punycode.label l := by rw [Punycode.label_other ha]; exact List.prefix_append _ _
      rcases h with h | h
      · exact (hmem hr h).2 hx
      · obtain ⟨p, h1, h2⟩ := prefix_map h
        obtain ⟨p1, p2, rfl, -, h3⟩ := List.map_eq_append_iff.1 h2.symm
        obtain ⟨y, rfl, hy⟩ := List.map_eq_singleton_iff.1 h3
        have hyb := map_eq hf (x := 33 :: Punycode.label l) (by simp) hy
        subst hyb
        exact (hmem hr h1).2 hx

theorem open_iff {rules p : List Bytes} (hp : p ≠ []) : Open rules p ↔ ∃ x, PrefixAt rules (p ++ [x]) := by
  unfold Open Known
  simp [hp]

theorem alike (hf : ByLabel toASCII Punycode.label L) (hu : UnicodeRules L) {ls : List Bytes} (hl : ∀ l ∈ ls, InUnicode l ∧ l ≠ []) :
    Alike (L.flatMap (contributes toASCII)) ls (ls.map Punycode.label) := by
  have htake : ∀ i, ∀ l ∈ ls.take i, InUnicode l := fun i l h => (hl l (List.mem_of_mem_take h)).1
  have hpre : ∀ q : List Bytes, (∀ l ∈ q, InUnicode l) → (PrefixAt (L.flatMap (contributes toASCII)) q ↔
      PrefixAt (L.flatMap (contributes toASCII)) (q.map Punycode.label)) := fun q hq => by rw [prefix_in hf hq, prefix_out hf hu hq]
  have hstar : ∀ i, PrefixAt (L.flatMap (contributes toASCII)) (ls.take i ++ [star]) ↔
      PrefixAt (L.flatMap (contributes toASCII)) ((ls.map Punycode.label).take i ++ [star]) := by
    intro i
    have := hpre (ls.take i ++ [star]) (by
      intro l hl
      rcases List.mem_append.1 hl with hl | hl
      · exact htake i l hl
      · rw [List.mem_singleton.1 hl]; exact star_inUnicode)
    rw [List.map_append, List.map_take, List.map_singleton, map_star hf] at this
    exact this
  have hopen : ∀ q : List Bytes, q ≠ [] → (∀ l ∈ q, InUnicode l) → (Open (L.flatMap (contributes toASCII)) q ↔ Open (L.flatMap (contributes toASCII)) (q.map Punycode.label)) := by
    intro q hne hq
    rw [open_iff hne, open_iff (by simpa using hne)]
    constructor
    · rintro ⟨x, h⟩
      obtain ⟨r, hr, h⟩ := (prefix_iff hf).1 h
      have key : q ++ [x] <+: revLabels r ∨ ∃ y, q ++ [y] <+: revLabels r := by
        rcases h with h | h
        · exact .inl h
        · obtain ⟨p, h1, h2⟩ := prefix_map h
          obtain ⟨p1, p2, rfl, h3, h4⟩ := List.map_eq_append_iff.1 h2.symm
          obtain ⟨y, rfl, hy⟩ := List.map_eq_singleton_iff.1 h4
          have := map_back' hf (fun l hl => (hq l hl).2) h3
          subst this
          exact .inr ⟨y, h1⟩
      rcases key with h | ⟨y, h⟩
      · exact ⟨Punycode.label x, (prefix_iff hf).2 ⟨r, hr, .inr (by have := List.IsPrefix.map Punycode.label h; simpa using this)⟩⟩
      · exact ⟨Punycode.label y, (prefix_iff hf).2 ⟨r, hr, .inr (by have := List.IsPrefix.map Punycode.label h; simpa using this)⟩⟩
    · rintro ⟨x, h⟩
      obtain ⟨r, hr, h⟩ := (prefix_iff hf).1 h
      rcases h with h | h
      · have : q.map Punycode.label = q := map_back hf fun l hl =>
          (inUnicode_rule hu hr l (h.subset (List.mem_append.2 (.inl hl)))).2
        rw [this] at h
        exact ⟨x, (prefix_iff hf).2 ⟨r, hr, .inl h⟩⟩
      · obtain ⟨p, h1, h2⟩ := prefix_map h
        obtain ⟨p1, p2, rfl, h3, h4⟩ := List.map_eq_append_iff.1 h2.symm
        obtain ⟨y, rfl, hy⟩ := List.map_eq_singleton_iff.1 h4
        have := label_inj' hq (fun l hl => inUnicode_rule hu hr l (h1.subset (List.mem_append.2 (.inl hl)))) h3.symm
        subst this
        exact ⟨y, (prefix_iff hf).2 ⟨r, hr, .inl h1⟩⟩
  refine ⟨by simp, fun i => ?_, fun i => ?_, fun i => ?_, fun i l l' h1 h2 => ?_, fun i => ?_, fun h => (hl [] h).2 rfl, fun h => ?_⟩
  · unfold Known
    rw [← List.map_take, hpre _ (htake i)]
    simp only [List.map_eq_nil_iff]
  · rw [← List.map_take]
    by_cases hne : ls.take i = []
    · rw [hne]; rfl
    · exact hopen _ hne (htake i)
  · unfold Known
    rw [hstar i]
    simp
  · rw [List.getElem?_map, h1] at h2
    simp only [Option.map_some, Option.some.injEq] at h2
    subst h2
    unfold Known
    rw [bang_iff hf hu (htake i) (hl l (List.mem_of_getElem? h1)).1, ← List.map_take]
    simp
  · unfold Marked
    have hr : RuleAt (L.flatMap (contributes toASCII)) (ls.take i) ↔
        RuleAt (L.flatMap (contributes toASCII)) ((ls.map Punycode.label).take i) := by
      rw [← List.map_take, rule_in hf (htake i), rule_out hf hu (htake i)]
    rw [hr]
    refine or_congr Iff.rfl ?_
    have h2 := hstar i
    rw [← List.map_take] at h2 ⊢
    generalize ls.take i = p at h2
    constructor
    · rintro ⟨l, rfl, h⟩
      exact ⟨_, rfl, h2.1 h⟩
    · rintro ⟨l, e, h⟩
      obtain ⟨x, rfl, rfl⟩ := List.map_eq_singleton_iff.1 e
      exact ⟨_, rfl, h2.2 h⟩
  · obtain ⟨l, h1, h2⟩ := List.mem_map.1 h
    by_cases ha : ∀ b ∈ l, b < 128
    · rw [Punycode.label_ascii ha] at h2
      exact (hl l h1).2 h2
    · rw [Punycode.label_other ha] at h2
      simp at h2

end

/-! ## Parts -/

theorem punyRest_append (a b : List SepLabel) : punyRest (a ++ b) = punyRest a ++ punyRest b := List.map_append

theorem punyRest_length (a : List SepLabel) : (punyRest a).length = a.length := List.length_map _

theorem fromRight_puny (first : Bytes) (rest : List SepLabel) :
    fromRight (Punycode.label first) (punyRest rest) = (fromRight first rest).map Punycode.label := by
  simp [fromRight, punyRest, List.map_reverse, Function.comp_def]

/-- All labels are free of separators. -/
def FreeName (first : Bytes) (rest : List SepLabel) : Prop :=
  FreeOf separators first ∧ ∀ p ∈ rest, p.1 ∈ separators ∧ FreeOf separators p.2

theorem converted_join {first : Bytes} {rest : List SepLabel} (h : FreeName first rest) :
    Converted (joinLabels first rest) (joinLabels (Punycode.label first) (punyRest rest)) := ⟨first, rest, h.1, h.2, rfl, rfl⟩

theorem freeOf_nil' : FreeOf separators [] := by
  intro r _ h
  have := encode_ne_nil r
  simp at h
  exact this h

theorem converted_nil : Converted [] [] := ⟨[], [], freeOf_nil', by simp, rfl, by simp [punyRest, joinLabels, Punycode.label]⟩

theorem converted_label {l : Bytes} (h : FreeOf separators l) : Converted l (Punycode.label l) := ⟨l, [], h, by simp, rfl, rfl⟩

theorem subAndDomain_puny {first : Bytes} {front : List SepLabel} {sub dom : Bytes} (hf : FreeName first front)
    (h : SubAndDomain first front sub dom) : ∃ sub', SubAndDomain (Punycode.label first) (punyRest front) sub' (Punycode.label dom) ∧
      FreeOf separators dom ∧ Converted sub sub' := by
  rcases h with ⟨rfl, rfl, rfl⟩ | ⟨f, s, l, rfl, rfl, rfl⟩
  · exact ⟨[], .inl ⟨rfl, rfl, rfl⟩, hf.1, converted_nil⟩
  · refine ⟨_, .inr ⟨punyRest f, s, _, by simp [punyRest], rfl, rfl⟩, (hf.2 (s, dom) (by simp)).2, converted_join ⟨hf.1, fun p hp => hf.2 p (by simp [hp])⟩⟩

theorem parts_puny {first : Bytes} {rest : List SepLabel} (hf : FreeName first rest) {mark : Option Nat} {cut : Nat} {sub dom suf reg : Bytes}
    (h : Parts first rest mark cut sub dom suf reg) :
    ∃ sub' suf' reg', Parts (Punycode.label first) (punyRest rest) mark cut sub' (Punycode.label dom) suf' reg' ∧ FreeOf separators dom ∧
      Converted sub sub' ∧ Converted suf suf' ∧ Converted reg reg' := by
  cases h with
  | noSuffix h =>
    obtain ⟨sub', h1, h2, h3⟩ := subAndDomain_puny hf h
    exact ⟨sub', [], [], .noSuffix h1, h2, h3, converted_nil, converted_nil⟩
  | @suffix front s l more back e cut sub dom h1 h2 h3 h4 =>
    subst h1
    have hmem := hf.2
    have hfront : FreeName first front := ⟨hf.1, fun p hp => hmem p (by simp [hp])⟩
    obtain ⟨sub', g1, g2, g3⟩ := subAndDomain_puny hfront h4
    have hmore : ∀ p ∈ more, p.1 ∈ separators ∧ FreeOf separators p.2 := fun p hp => hmem p (by simp [hp])
    have hl := hmem (s, l) (by simp)
    have hp := Parts.suffix (first := Punycode.label first) (rest := punyRest (front ++ (s, l) :: more ++ back)) (front := punyRest front) (s := s)
      (l := Punycode.label l) (more := punyRest more) (back := punyRest back) (e := e) (cut := cut) (sub := sub') (dom := Punycode.label dom)
      (by simp [punyRest]) (by rw [punyRest_length]; exact h2) (by rw [punyRest_length]; exact h3) g1
    refine ⟨_, _, _, hp, g2, g3, converted_join ⟨hl.2, hmore⟩, ?_⟩
    exact ⟨dom, (s, l) :: more, g2, by
      intro p hp
      rcases List.mem_cons.1 hp with rfl | hp
      · exact hl
      · exact hmore p hp, rfl, rfl⟩
  | @suffixOnly front back e cut h1 h2 h3 =>
    subst h1
    refine ⟨_, _, _, .suffixOnly (front := punyRest front) (back := punyRest back) (punyRest_append _ _) (by rw [punyRest_length]; exact h2)
      (by rw [punyRest_length]; exact h3), freeOf_nil', converted_nil, ?_, converted_nil⟩
    exact converted_join ⟨hf.1, fun p hp => hf.2 p (by simp [hp])⟩

theorem parts_same {first : Bytes} {rest : List SepLabel} {mark : Option Nat} {cut : Nat} {sub dom suf reg sub' dom' suf' reg' : Bytes}
    (h : Parts first rest mark cut sub dom suf reg) (h' : Parts first rest mark cut sub' dom' suf' reg') :
    sub = sub' ∧ dom = dom' ∧ suf = suf' ∧ reg = reg' := by
  have key : ∀ {front sub dom sub' dom'}, SubAndDomain first front sub dom → SubAndDomain first front sub' dom' → sub = sub' ∧ dom = dom' := by
    rintro front sub dom sub' dom' (⟨rfl, rfl, rfl⟩ | ⟨f, s, l, rfl, rfl, rfl⟩) (⟨hx, rfl, rfl⟩ | ⟨f', s', l', hx, rfl, rfl⟩)
    · exact ⟨rfl, rfl⟩
    · simp at hx
    · simp at hx
    · obtain ⟨h1, h2⟩ := List.append_inj' hx rfl
      simp only [List.cons.injEq, Prod.mk.injEq, and_true] at h2
      exact ⟨by rw [h1], h2.2⟩
  cases h with
  | noSuffix h => cases h' with
    | noSuffix h' => obtain ⟨rfl, rfl⟩ := key h h'; exact ⟨rfl, rfl, rfl, rfl⟩
  | suffix h1 h2 h3 h4 => cases h' with
    | suffix g1 g2 g3 g4 =>
      subst h1
      obtain ⟨a1, a2⟩ := List.append_inj' g1 (by omega)
      obtain ⟨a3, a4⟩ := List.append_inj' a1 (by simp; omega)
      simp only [List.cons.injEq, Prod.mk.injEq] at a4
      obtain ⟨⟨rfl, rfl⟩, rfl⟩ := a4
      subst a3
      obtain ⟨rfl, rfl⟩ := key h4 g4
      exact ⟨rfl, rfl, rfl, rfl⟩
    | suffixOnly g1 g2 g3 => subst h1; simp at g3; omega
  | suffixOnly h1 h2 h3 => cases h' with
    | suffix g1 g2 g3 g4 => subst g1; simp at h3; omega
    | suffixOnly g1 g2 g3 =>
      subst h1
      obtain ⟨rfl, -⟩ := List.append_inj' g1 (by omega)
      exact ⟨rfl, rfl, rfl, rfl⟩

/-! ## Hosts -/

theorem digit_ascii {c : UInt8} (h : isDigit c = true) : c < 128 ∧ c ≠ 120 := by
  have := forall_byte (P := fun c => isDigit c = true → c < 128 ∧ c ≠ 120) (by decide +kernel) c
  exact this h

/-- The labels of a dotted quad. -/
theorem quad_shape {n : Bytes} (h : IsIPv4 n) : ∃ a b c d r1 r2 r3 t, IsOctet a ∧ IsOctet b ∧ IsOctet c ∧ IsOctet d ∧
    HostShape n a [(r1, b), (r2, c), (r3, d)] t := by
  obtain ⟨q, t, ⟨a, b, c, d, r1, r2, r3, ha, hb, hc, hd, h1, h2, h3, rfl⟩, ht, rfl⟩ := h
  have free : ∀ {x}, IsOctet x → FreeOf separators x := by
    intro x hx r hr hi
    have key : ∀ r ∈ separators, ∃ b ∈ encode r, isDigit b = false := by decide
    obtain ⟨b, hb, hb'⟩ := key r hr
    rw [hx.digits b (hi.subset hb)] at hb'
    simp at hb'
  refine ⟨a, b, c, d, r1, r2, r3, t, ha, hb, hc, hd, by simp [joinLabels], ⟨free ha, ?_⟩, ht, ?_⟩
  · intro p hp
    simp only [List.mem_cons, List.not_mem_nil, or_false] at hp
    rcases hp with rfl | rfl | rfl
    · exact ⟨h1, free hb⟩
    · exact ⟨h2, free hc⟩
    · exact ⟨h3, free hd⟩
  · intro f s e
    have := congrArg List.getLast? e
    simp at this
    exact hd.ne_nil this.2

theorem octet_ascii {d : Bytes} (h : IsOctet d) : ∀ b ∈ d, b < 128 := fun b hb => (digit_ascii (h.digits b hb)).1

theorem octet_label {l : Bytes} (h : IsOctet (Punycode.label l)) : ∀ b ∈ l, b < 128 := by
  refine Classical.byContradiction fun ha => ?_
  have := h.digits 120 (by rw [Punycode.label_other ha]; simp)
  exact absurd this (by decide)

section
variable {n first tail : Bytes} {rest : List SepLabel}

theorem fromRight_mem {l : Bytes} : l ∈ fromRight first rest ↔ l = first ∨ ∃ p ∈ rest, p.2 = l := by
  simp [fromRight, or_comm]

theorem shape_puny (h : HostShape n first rest tail) (hg : ∀ l ∈ fromRight first rest, GoodLabel l ∧ InUnicode l) :
    HostShape (joinLabels (Punycode.label first) (punyRest rest) ++ tail) (Punycode.label first) (punyRest rest) tail := by
  refine ⟨rfl, ⟨(Punycode.label_good (hg first (fromRight_mem.2 (.inl rfl))).1).free, ?_⟩, h.tail, ?_⟩
  · intro p hp
    obtain ⟨x, hx, rfl⟩ := List.mem_map.1 hp
    exact ⟨(h.free.2 x hx).1, (Punycode.label_good (hg x.2 (fromRight_mem.2 (.inr ⟨x, hx, rfl⟩))).1).free⟩
  · intro f s e
    have : (s, []) ∈ punyRest rest := by rw [e]; simp
    obtain ⟨x, hx, e⟩ := List.mem_map.1 this
    have := (Punycode.label_good (hg x.2 (fromRight_mem.2 (.inr ⟨x, hx, rfl⟩))).1).ne
    simp only [Prod.mk.injEq] at e
    exact this e.2

theorem quad_puny (h : HostShape n first rest tail) (hg : ∀ l ∈ fromRight first rest, GoodLabel l ∧ InUnicode l) :
    IsIPv4 n ↔ IsIPv4 (joinLabels (Punycode.label first) (punyRest rest) ++ tail) := by
  have same : (∀ l ∈ fromRight first rest, ∀ b ∈ l, b < 128) → joinLabels (Punycode.label first) (punyRest rest) ++ tail = n := by
    intro ha
    rw [Punycode.label_ascii (ha first (fromRight_mem.2 (.inl rfl))), h.text]
    congr 2
    conv => rhs; rw [← List.map_id rest]
    refine List.map_congr_left fun p hp => ?_
    rw [Punycode.label_ascii (ha p.2 (fromRight_mem.2 (.inr ⟨p, hp, rfl⟩)))]
    rfl
  constructor
  · intro h4
    obtain ⟨a, b, c, d, r1, r2, r3, t, ha, hb, hc, hd, hs⟩ := quad_shape h4
    obtain ⟨rfl, rfl, rfl⟩ := h.unique hs
    rwa [same]
    intro l hl
    rcases fromRight_mem.1 hl with rfl | ⟨p, hp, rfl⟩
    · exact octet_ascii ha
    · simp only [List.mem_cons, List.not_mem_nil, or_false] at hp
      rcases hp with rfl | rfl | rfl
      · exact octet_ascii hb
      · exact octet_ascii hc
      · exact octet_ascii hd
  · intro h4
    obtain ⟨a, b, c, d, r1, r2, r3, t, ha, hb, hc, hd, hs⟩ := quad_shape h4
    obtain ⟨e1, e2, e3⟩ := (shape_puny h hg).unique hs
    rwa [same] at h4
    intro l hl
    rcases fromRight_mem.1 hl with rfl | ⟨p, hp, rfl⟩
    · exact octet_label (e1 ▸ ha)
    · have := List.mem_map_of_mem (f := fun p : SepLabel => (p.1, Punycode.label p.2)) hp
      change _ ∈ punyRest rest at this
      rw [e2] at this
      simp only [List.mem_cons, List.not_mem_nil, or_false, Prod.mk.injEq] at this
      rcases this with h | h | h
      · exact octet_label (h.2 ▸ hb)
      · exact octet_label (h.2 ▸ hc)
      · exact octet_label (h.2 ▸ hd)

end

theorem parts_long {first : Bytes} {rest : List SepLabel} {e cut : Nat} {sub dom suf reg : Bytes} (hc : rest.length < cut)
    (h : Parts first rest (some e) cut sub dom suf reg) : dom = [] := by
  cases h with
  | suffix g1 g2 g3 g4 => subst g1; simp at hc; omega
  | suffixOnly => rfl

theorem goodName_text {first : Bytes} {rest : List SepLabel} (hg : GoodName first rest) (k : Nat) : HostCharsOK (textTo first rest k) :=
  GoodName.chars ⟨hg.first, fun p hp => hg.rest p (List.mem_of_mem_take hp)⟩

theorem label_nil : Punycode.label [] = [] := Punycode.label_ascii (by simp)

theorem label_ne {l : Bytes} (h : l ≠ []) : Punycode.label l ≠ [] := by
  by_cases ha : ∀ b ∈ l, b < 128
  · rwa [Punycode.label_ascii ha]
  · rw [Punycode.label_other ha]; simp

/-- What is found in both hosts, when the labels are read in the same way. -/
theorem judged_puny {ig : Bool} {n n' first : Bytes} {rest : List SepLabel} {w : Option Walked} {r r' : ExtractResult} {err err' : Option Err}
    (hg : GoodName first rest) (hg' : GoodName (Punycode.label first) (punyRest rest)) (h4 : IsIPv4 n ↔ IsIPv4 n')
    (hj : Judged ig n first rest w r err) (hj' : Judged ig n' (Punycode.label first) (punyRest rest) w r' err') :
    ((err = none ∧ r.hostType = .hostName) ↔ (err' = none ∧ r'.hostType = .hostName)) ∧
      (err = none → r.hostType = .hostName → SameParts r r') := by
  have hfree : FreeName first rest := ⟨hg.first.free, fun p hp => ⟨(hg.rest p hp).1, (hg.rest p hp).2.free⟩⟩
  cases hj with
  | consecutive => cases hj' with
    | consecutive => simp
  | ipv4 a1 => cases hj' with
    | ipv4 => simp
    | invalid b1 => exact absurd (h4.1 a1) b1
    | noDomain b1 => exact absurd (h4.1 a1) b1
    | name b1 => exact absurd (h4.1 a1) b1
  | invalid a1 a2 a3 =>
    cases hj' with
    | ipv4 b1 => exact absurd (h4.2 b1) a1
    | invalid => simp
    | noDomain => simp
    | name b1 b2 b3 b4 b5 =>
      exfalso
      cases a2 with
      | noSuffix => exact a3 (goodName_text hg _)
      | suffix => exact a3 (goodName_text hg _)
      | suffixOnly h1 h2 =>
        rw [h1] at b4
        exact b5 (parts_long (by rw [punyRest_length]; exact h2) b4)
  | noDomain a1 a2 a3 a4 => cases hj' with
    | ipv4 b1 => exact absurd (h4.2 b1) a1
    | invalid => simp
    | noDomain => simp
    | name b1 b2 b3 b4 b5 =>
      exfalso
      obtain ⟨sub', suf', reg', h, -⟩ := parts_puny hfree a4
      rw [label_nil] at h
      exact b5 (parts_same b4 h).2.1
  | name a1 a2 a3 a4 a5 =>
    obtain ⟨sub', suf', reg', h, c1, c2, c3, c4⟩ := parts_puny hfree a4
    cases hj' with
    | ipv4 b1 => exact absurd (h4.2 b1) a1
    | invalid b1 b2 b3 =>
      exfalso
      cases b2 with
      | noSuffix => exact b3 (goodName_text hg' _)
      | suffix => exact b3 (goodName_text hg' _)
      | suffixOnly h1 h2 =>
        rw [h1] at a4
        rw [punyRest_length] at h2
        exact a5 (parts_long h2 a4)
    | noDomain b1 b2 b3 b4 => exact absurd (parts_same h b4).2.1 (label_ne a5)
    | name b1 b2 b3 b4 b5 =>
      obtain ⟨rfl, rfl, rfl, rfl⟩ := parts_same h b4
      refine ⟨by simp, fun _ _ => ⟨⟨rfl, rfl⟩, ?_, converted_label c1, c3, c4⟩⟩
      cases ig
      · exact c2
      · exact converted_nil

theorem hostResult_puny {toASCII : Bytes → Option Bytes} {L : List Bytes} (hf : ByLabel toASCII Punycode.label L) (hu : UnicodeRules L)
    {n n' : Bytes} (hn : SameHost n n') {ig : Bool} {r r' : ExtractResult} {err err' : Option Err}
    (h : HostResult (L.flatMap (contributes toASCII)) ig n r err) (h' : HostResult (L.flatMap (contributes toASCII)) ig n' r' err') :
    ((err = none ∧ r.hostType = .hostName) ↔ (err' = none ∧ r'.hostType = .hostName)) ∧
      (err = none → r.hostType = .hostName → SameParts r r') := by
  obtain ⟨first, rest, tail, hs, hg, rfl⟩ := hn
  have hs' := shape_puny hs hg
  have hgood : ∀ l ∈ fromRight first rest, GoodLabel l := fun l hl => (hg l hl).1
  have hgood' : ∀ l ∈ fromRight (Punycode.label first) (punyRest rest), GoodLabel l := by
    intro l hl
    rw [fromRight_puny] at hl
    obtain ⟨x, hx, rfl⟩ := List.mem_map.1 hl
    exact Punycode.label_good (hgood x hx)
  have gname : ∀ {host first : Bytes} {rest : List SepLabel} {tail}, HostShape host first rest tail → (∀ l ∈ fromRight first rest, GoodLabel l) → GoodName first rest := by
    intro host first rest tail hs hg
    exact ⟨hg _ (fromRight_mem.2 (.inl rfl)), fun p hp => ⟨(hs.free.2 p hp).1, hg _ (fromRight_mem.2 (.inr ⟨p, hp, rfl⟩))⟩⟩
  obtain ⟨f1, r1, t1, ds, w, s1, v1, rd, j1⟩ := h
  obtain ⟨rfl, rfl, rfl⟩ := hs.unique s1
  obtain ⟨f2, r2, t2, ds', w', s2, v2, rd', j2⟩ := h'
  obtain ⟨rfl, rfl, rfl⟩ := hs'.unique s2
  have e1 : ds = fromRight first rest := by rw [← good_values hgood]; exact labelValues_iff.1 v1
  have e2 : ds' = fromRight (Punycode.label first) (punyRest rest) := by rw [← good_values hgood']; exact labelValues_iff.1 v2
  subst e1 e2
  have hal := alike hf hu (ls := fromRight first rest) (fun l hl => ⟨(hg l hl).2, (hgood l hl).ne⟩)
  rw [← fromRight_puny] at hal
  obtain rfl : w = w' := reading_unique rfl (hal.reading rd) rd'
  exact judged_puny (gname hs hgood) (gname hs' hgood') (quad_puny hs hg) j1 j2

end Fasttld
