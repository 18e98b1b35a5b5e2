import Verif.Proofs.WalkSpec
import Verif.Proofs.Unescape

/-!
# Host labels, left to right
-/

set_option linter.unusedSimpArgs false

namespace Fasttld
open Spec

theorem joinLabels_eq (first : Bytes) (rest : List SepLabel) : joinLabels first rest = joinR first rest.reverse := by
  induction rest generalizing first with
  | nil => rfl
  | cons p rest ih =>
    obtain ⟨s, l⟩ := p
    simp only [joinLabels, List.reverse_cons, joinR_append, joinR, ih, joinR_prepend]

theorem madeOf_pairs {t : Bytes} (h : MadeOf separators t) :
    ∃ ts : List SepLabel, (∀ p ∈ ts, p.1 ∈ separators ∧ p.2 = []) ∧ ∀ h, joinR h ts = h ++ t := by
  obtain ⟨cs, h1, rfl⟩ := h
  refine ⟨(cs.map fun c => (c, [])).reverse, ?_, ?_⟩
  · intro p hp
    simp only [List.mem_reverse, List.mem_map] at hp
    obtain ⟨c, hc, rfl⟩ := hp
    exact ⟨h1 c hc, rfl⟩
  · clear h1
    induction cs with
    | nil => intro h; simp [joinR]
    | cons c cs ih =>
      intro h
      rw [List.map_cons, List.reverse_cons, joinR_append, ih]
      simp [joinR]

theorem leadEmpty_append {ts rt : List SepLabel} (hts : ∀ p ∈ ts, p.2 = [])
    (hl : rt = [] ∨ ∃ s l r, rt = (s, l) :: r ∧ l ≠ []) : leadEmpty (ts ++ rt) = ts.length := by
  induction ts with
  | nil =>
    rcases hl with rfl | ⟨s, l, r, rfl, hne⟩
    · rfl
    · simp [leadEmpty, hne]
  | cons p ts ih =>
    obtain ⟨s, l⟩ := p
    have : l = [] := hts (s, l) (by simp)
    subst this
    rw [List.cons_append, leadEmpty]
    simp [ih (fun p hp => hts p (by simp [hp]))]

/-- How the two views of the labels correspond. -/
theorem Spec.HostLabels.split {host first tail : Bytes} {rest : List SepLabel} (hl : HostLabels host first rest tail) :
    ∃ ts : List SepLabel, hostSplit host = (first, ts ++ rest.reverse) ∧
      leadEmpty (ts ++ rest.reverse) = ts.length ∧
      labels first (ts ++ rest.reverse) ts.length = fromRight first rest := by
  obtain ⟨h1, h2, h3, h4⟩ := hl
  obtain ⟨ts, t1, t2⟩ := madeOf_pairs h3
  have hg : GoodR first (ts ++ rest.reverse) := by
    refine ⟨h2.1, fun p hp => ?_⟩
    rcases List.mem_append.1 hp with hp | hp
    · exact ⟨(t1 p hp).1, by rw [(t1 p hp).2]; exact freeOf_nil goodSet_separators⟩
    · exact h2.2 p (by simpa using hp)
  have hj : joinR first (ts ++ rest.reverse) = host := by
    rw [joinR_append, t2, h1, joinLabels_eq]
  refine ⟨ts, by rw [← hj]; exact hostSplit_joinR hg, ?_, ?_⟩
  · apply leadEmpty_append (fun p hp => (t1 p hp).2)
    rcases List.eq_nil_or_concat rest with rfl | ⟨a, ⟨s, l⟩, rfl⟩
    · exact .inl rfl
    · refine .inr ⟨s, l, a.reverse, by simp, ?_⟩
      rintro rfl
      apply h4
      simp [List.getLast?_cons]
  · simp [labels, fromRight]

/-- Every host with a non-empty last label can be seen in this way. -/
theorem hostLabels_exists (n : Bytes)
    (h : lab (hostSplit n).1 (hostSplit n).2 (leadEmpty (hostSplit n).2) ≠ []) :
    ∃ first rest tail, HostLabels n first rest tail := by
  have g := hostSplit_good n
  obtain ⟨t, ht, he⟩ := pre_lead g
  rw [hostSplit_join] at he
  refine ⟨(hostSplit n).1, ((hostSplit n).2.drop (leadEmpty (hostSplit n).2)).reverse, t, ?_, ⟨g.1, ?_⟩, ht, ?_⟩
  · rw [joinLabels_eq, List.reverse_reverse]; exact he
  · intro p hp
    exact g.2 p (List.mem_of_mem_drop (by simpa using hp))
  · unfold lab at h
    intro hc
    apply h
    cases hd : (hostSplit n).2.drop (leadEmpty (hostSplit n).2) with
    | nil => rw [hd] at hc; simpa using hc
    | cons p r => rw [hd] at hc; simpa [List.getLast?_cons] using hc

theorem fromRight_length (first : Bytes) (rest : List SepLabel) : (fromRight first rest).length = rest.length + 1 := by
  simp [fromRight]

/-- A cut of the labels, from the label numbers. -/
theorem cut_labels {first : Bytes} {ts rest : List SepLabel} {n : Nat} {sb dom suf : Bytes} (hn : n ≤ rest.length)
    (hsuf : (n = 0 ∧ suf = []) ∨ (1 ≤ n ∧ suf = seg first (ts ++ rest.reverse) ts.length (ts.length + n)))
    (hdom : dom = lab first (ts ++ rest.reverse) (ts.length + n))
    (hsub : sb = sub first (ts ++ rest.reverse) false (ts.length + n + 1)) :
    CutLabels first rest n sb dom suf := by
  have hdrop : ∀ i, (ts ++ rest.reverse).drop (ts.length + i) = rest.reverse.drop i := by
    intro i; rw [List.drop_append]; simp
  obtain ⟨front, back, h1, h2⟩ : ∃ front back, rest = front ++ back ∧ back.length = n := by
    refine ⟨rest.take (rest.length - n), rest.drop (rest.length - n), (List.take_append_drop _ _).symm, ?_⟩
    simp; omega
  have hrev : ∀ i, rest.reverse.drop (n + i) = front.reverse.drop i := by
    intro i; rw [h1, List.reverse_append, List.drop_append]; simp [h2]
  refine ⟨front, back, h1, h2, ?_, ?_⟩
  · cases back with
    | nil =>
      have h2 : n = 0 := by simpa using h2.symm
      rcases hsuf with ⟨-, h⟩ | ⟨h, -⟩
      · exact h
      · omega
    | cons p more =>
      obtain ⟨s, l⟩ := p
      simp only
      have h2 : more.length + 1 = n := by simpa using h2
      rcases hsuf with ⟨h, -⟩ | ⟨-, h⟩
      · omega
      · rw [h, joinLabels_eq]
        unfold seg
        rw [show ts.length + n - 1 = ts.length + more.length by omega,
          show ts.length + more.length - ts.length = more.length by omega]
        have e0 := hdrop 0
        rw [Nat.add_zero] at e0
        rw [e0]
        unfold lab
        rw [hdrop, h1]
        simp
  · rcases List.eq_nil_or_concat front with rfl | ⟨f, ⟨s, l⟩, rfl⟩
    · left
      refine ⟨rfl, ?_, ?_⟩
      · rw [hdom, lab, hdrop]
        have := hrev 0
        simp only [Nat.add_zero, List.reverse_nil, List.drop_nil] at this
        rw [this]
      · rw [hsub, sub, if_neg]
        simp only [not_and]
        intro _
        simp only [List.nil_append] at h1
        subst h1
        simp; omega
    · right
      refine ⟨f, s, l, by simp, ?_, ?_⟩
      · rw [hdom, lab, hdrop]
        have := hrev 0
        simp only [Nat.add_zero] at this
        rw [this]; simp
      · rw [hsub, sub, if_pos]
        · unfold pre
          rw [Nat.add_assoc, hdrop, hrev, joinLabels_eq]
          simp
        · refine ⟨rfl, ?_⟩
          rw [h1]; simp; omega

/-- The parts of an accepted host name as a cut of its labels: `d` labels at the right end are left out (none, if
every top-level label is the end of a rule), the next ones are the suffix. -/
theorem name_cut {trie : Trie} {n : Bytes} {o : Out} {r : ExtractResult} (h : NameOK trie n o)
    (hp : NameParts false n o r) {first tail : Bytes} {rest : List SepLabel} (hl : HostLabels n first rest tail) :
    ∃ k, walkL trie (fromRight first rest) k none = some o ∧
      (o.endK = none → CutLabels first rest 0 r.subDomain r.domain r.suffix) ∧
      ∀ e, o.endK = some e → k ≤ e ∧ e < o.sep ∧ o.sep ≤ k + rest.length ∧
        CutLabels first (rest.take (rest.length - (e - k))) (o.sep - e) r.subDomain r.domain r.suffix := by
  obtain ⟨hw, -, -, hnc, hsc⟩ := h
  obtain ⟨ts, h1, h2, h3⟩ := hl.split
  obtain ⟨-, hp⟩ := hp
  rw [h1] at hw hnc hsc hp
  simp only [h2, h3] at hw hnc hsc hp
  refine ⟨ts.length, hw, ?_, ?_⟩
  · intro he
    rw [he] at hp
    exact cut_labels (Nat.zero_le _) (.inl ⟨rfl, hp.1⟩) hp.2.2.1 hp.2.2.2
  · intro e he
    rw [he] at hp
    obtain ⟨b1, b2, b3, b4, -⟩ := hsc e he
    rw [List.length_append, List.length_reverse] at b4
    refine ⟨b1, b3, b4, ?_⟩
    have hsplit : ts ++ rest.reverse = (ts ++ (rest.drop (rest.length - (e - ts.length))).reverse) ++
        (rest.take (rest.length - (e - ts.length))).reverse := by
      rw [List.append_assoc, ← List.reverse_append, List.take_append_drop]
    have hlen : (ts ++ (rest.drop (rest.length - (e - ts.length))).reverse).length = e := by
      simp; omega
    rw [hsplit] at hp
    refine cut_labels (ts := ts ++ (rest.drop (rest.length - (e - ts.length))).reverse) (by simp; omega)
      (.inr ⟨by omega, ?_⟩) ?_ ?_
    · rw [hlen, show e + (o.sep - e) = o.sep by omega]; exact hp.1
    · rw [hlen, show e + (o.sep - e) = o.sep by omega]; exact hp.2.2.1
    · rw [hlen, show e + (o.sep - e) = o.sep by omega]; exact hp.2.2.2

/-- The host of a name that is accepted has labels. -/
theorem name_labels {trie : Trie} {n : Bytes} {o : Out} (h : NameOK trie n o) :
    ∃ first rest tail, HostLabels n first rest tail := by
  apply hostLabels_exists
  cases he : o.endK with
  | none => exact h.none_case he
  | some e =>
    have := h.some_case e he
    rcases Nat.lt_or_ge (leadEmpty (hostSplit n).2) (hostSplit n).2.length with h1 | h1
    · rcases (leadEmpty_spec (hostSplit n).1 (hostSplit n).2).2 with h2 | h2
      · have := congrArg List.length h2
        rw [labels_length] at this
        simp at this; omega
      · exact h2
    · omega

theorem hostText_iff {idna : Idna} {puny : Bool} {host n : Bytes} :
    hostText idna puny host = .ok n ↔ HostTextOf idna puny host n := by
  unfold hostText HostTextOf
  simp only [← queryUnescape_iff]
  cases queryUnescape host with
  | error e => simp
  | ok un =>
    simp only [Except.ok.injEq, exists_eq_left']
    have hf : formatAsPunycode idna un = (idna.lookupASCII un).getD [] := by
      unfold formatAsPunycode
      cases idna.lookupASCII un <;> rfl
    cases puny with
    | true => simp [hf, eq_comm]
    | false =>
      cases idna.toUnicodeErr un with
      | none => simp [eq_comm]
      | some e => simp

theorem Spec.DecodesAll.eq_map {ls ds : List Bytes} (h : DecodesAll ls ds) : ds = ls.map unescapeOrEmpty := by
  induction ls generalizing ds with
  | nil => cases ds with
    | nil => rfl
    | cons => exact h.elim
  | cons l ls ih => cases ds with
    | nil => exact h.elim
    | cons d ds => rw [List.map_cons, unescapeOrEmpty_of h.1, ← ih h.2]

theorem decodesAll_exists {ls : List Bytes} (h : ∀ l ∈ ls, ∃ r, Decodes l r) : ∃ ds, DecodesAll ls ds := by
  induction ls with
  | nil => exact ⟨[], trivial⟩
  | cons l ls ih =>
    obtain ⟨d, hd⟩ := h l (by simp)
    obtain ⟨ds, hds⟩ := ih (fun x hx => h x (by simp [hx]))
    exact ⟨d :: ds, hd, hds⟩

/-- If the host decodes, so do its labels. -/
theorem Spec.HostLabels.decodes {host first tail : Bytes} {rest : List SepLabel} (hl : HostLabels host first rest tail)
    {r : Bytes} (h : Decodes host r) : ∃ ds, DecodesAll (fromRight first rest) ds := by
  obtain ⟨ts, h1, -, -⟩ := hl.split
  have hj := hostSplit_join host
  have hg := hostSplit_good host
  rw [h1] at hj hg
  rw [← hj] at h
  have := (decodes_joinR (fun p hp => (hg.2 p hp).1)).1 ⟨r, h⟩
  apply decodesAll_exists
  intro l hl
  simp only [fromRight, List.mem_reverse, List.mem_cons, List.mem_map] at hl
  rcases hl with rfl | ⟨p, hp, rfl⟩
  · exact this.1
  · exact this.2 p (by simp [hp])

/-- Two ways of seeing the labels of a host are the same. -/
theorem Spec.HostLabels.unique {host f f' t t' : Bytes} {rest rest' : List SepLabel} (h : HostLabels host f rest t)
    (h' : HostLabels host f' rest' t') : f = f' ∧ rest = rest' ∧ t = t' := by
  obtain ⟨ts, h1, h2, -⟩ := h.split
  obtain ⟨ts', h1', h2', -⟩ := h'.split
  rw [h1] at h1'
  simp only [Prod.mk.injEq] at h1'
  obtain ⟨rfl, he⟩ := h1'
  have hlen : ts.length = ts'.length := by rw [← h2, ← h2', he]
  obtain ⟨-, hr⟩ := List.append_inj he hlen
  have hr : rest = rest' := by simpa using hr
  subst hr
  refine ⟨rfl, rfl, ?_⟩
  have := h.text.symm.trans h'.text
  exact List.append_cancel_left this

/-! ## The walk and decoding -/

theorem decodes_empty_iff {l r : Bytes} (h : Decodes l r) : l = [] ↔ r = [] := by
  cases h <;> simp

/-- Without exceptions the walk sees only the decoded labels. -/
theorem walkL_decoded {node : Trie} (hx : ∀ p l, ¬ node.has (p ++ [33 :: l])) {ls ls' ds : List Bytes}
    (h : DecodesAll ls ds) (h' : DecodesAll ls' ds) (k : Nat) (endK : Option Nat) :
    walkL node ls k endK = walkL node ls' k endK := by
  induction ls generalizing node ls' ds k endK with
  | nil =>
    cases ds with
    | nil => cases ls' with
      | nil => rfl
      | cons => exact h'.elim
    | cons => exact h.elim
  | cons l ls ih =>
    cases ds with
    | nil => exact h.elim
    | cons d ds =>
    cases ls' with
    | nil => exact h'.elim
    | cons l' ls' =>
      have e1 : l = [] ↔ l' = [] := by rw [decodes_empty_iff h.1, decodes_empty_iff h'.1]
      have e2 : ls = [] ↔ ls' = [] := by
        have h2 := h.2
        have h2' := h'.2
        cases ls <;> cases ls' <;> cases ds <;> simp_all [DecodesAll]
      have e3 : ls.isEmpty = ls'.isEmpty := by
        rw [Bool.eq_iff_iff]; simpa using e2
      have e4 : labelL node l ls.isEmpty k endK = labelL node l' ls'.isEmpty k endK := by
        unfold labelL
        rw [e3, unescapeOrEmpty_of h.1, unescapeOrEmpty_of h'.1]
        have hno : ∀ l, (node.get (33 :: l)).isSome = false := by
          intro l
          have := hx [] l
          rw [List.nil_append, has_cons] at this
          cases hg : node.get (33 :: l) with
          | none => rfl
          | some v => exact absurd ⟨v, hg, has_nil v⟩ this
        simp only [hno]
      rw [walkL, walkL, e4]
      simp only [e1, ne_eq, e2]
      split
      · rfl
      · split
        · rfl
        · rename_i val e' hn
          obtain ⟨-, -, hv, -⟩ := labelL_next hn
          apply ih
          · intro p x hc
            exact hx (_ :: p) x (by rw [List.cons_append, has_cons]; exact ⟨val, hv, hc⟩)
          · exact h.2
          · exact h'.2

end Fasttld
