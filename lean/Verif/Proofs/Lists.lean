import Verif.Spec.Lists
import Verif.Proofs.Mishandled
import Verif.Proofs.IPv4Host

/-!
# Conditions on the list
-/

set_option linter.unusedSimpArgs false

namespace Fasttld
open Spec

/-- Everything that is known about a URL that is accepted as a host name. -/
structure Accepted (idna : Idna) (rules : List Bytes) (e : URLParams) (r : ExtractResult) (host after n first : Bytes)
    (rest : List SepLabel) (tail : Bytes) (ds : List Bytes) (m seen cut : Nat) (mark : Option Nat) : Prop where
  authority : Authority e.url r.scheme r.userInfo (host ++ after)
  plain : IsPlainHost host
  after : AfterHost after r.port r.path
  text : HostTextOf idna e.convertURLToPunyCode host n
  shape : HostShape n first rest tail
  values : LabelValues (fromRight first rest) ds
  follows : Follows rules (fromRight first rest) ds m
  stops : Stops rules (fromRight first rest) ds m seen cut
  marks : FirstMark rules ds m mark
  not4 : ¬ IsIPv4 n
  checked : ∃ t, Checked n first rest ⟨m, seen, cut, mark⟩ t ∧ HostCharsOK t
  parts : ∃ sub, Parts first rest mark cut sub r.domain r.suffix r.registeredDomain ∧
    r.subDomain = if e.ignoreSubDomains then [] else sub
  domain : r.domain ≠ []

theorem accepted {idna : Idna} {rules : List Bytes} {e : URLParams} {r : ExtractResult}
    (h : extract idna (buildTrie rules) e = .ok (r, none)) (ht : r.hostType = .hostName) :
    ∃ host after n first rest tail ds m seen cut mark,
      Accepted idna rules e r host after n first rest tail ds m seen cut mark := by
  obtain ⟨sch, ui, a, part, hA, hat, hfin⟩ := (extracts_iff ..).1 h
  cases hfin with
  | ipv6 => simp at ht
  | @host host after port path n r' _ haf htx hres =>
    obtain ⟨first, rest, tail, ds, w, hsh, hlv, hrd, hj⟩ := hres
    obtain ⟨hpl, rfl⟩ : IsPlainHost host ∧ a = host ++ after := by
      cases hat with
      | name h1 _ => exact ⟨h1, rfl⟩
    cases hj with
    | ipv4 _ => simp at ht
    | @name w t sub dom suf reg h4 hch hok hp hdom =>
      cases hrd with
      | @ends m seen cut mark h1 h2 h3 =>
        exact ⟨host, after, n, first, rest, tail, ds, m, seen, cut, mark, hA, hpl, haf, htx, hsh, hlv, h1, h2, h3, h4,
          ⟨t, hch, hok⟩, ⟨sub, hp, rfl⟩, hdom⟩

section
variable {rules : List Bytes}

theorem Spec.LabelValues.length {ls ds : List Bytes} (h : LabelValues ls ds) : ds.length = ls.length := by
  rw [labelValues_iff.1 h]; simp

theorem follows_reached {ls ds : List Bytes} {m : Nat} (h : Follows rules ls ds m) {k : Nat} (hk : k ≤ m) :
    Reached rules (ds.take k) := by
  intro a x b e hr
  have hl : a.length < k := by
    have := congrArg List.length e
    simp at this; omega
  have : a = ds.take a.length := by
    have := congrArg (List.take a.length) e
    rw [List.take_take, Nat.min_eq_left (by omega)] at this
    simpa using this.symm
  rw [this] at hr
  exact h.noStar a.length (by omega) (.inr hr.prefixAt)

/-- In an anchored list a suffix always goes on to the right end. -/
theorem Spec.Anchored.mark (ha : Anchored rules) {ls ds : List Bytes} {m : Nat} {e : Nat} (h : Follows rules ls ds m)
    (hm : FirstMark rules ds m (some e)) (hlen : ds.length = ls.length) : e = 0 := by
  cases hm with
  | «at» h1 h2 h3 =>
    rcases Nat.eq_zero_or_pos e with h0 | h0
    · exact h0
    exfalso
    have hle := h.le
    rcases h2 with h2 | ⟨l, h2, -⟩
    · cases ds with
      | nil => simp at hlen; omega
      | cons t ds =>
        have hre := follows_reached h (k := e + 1) (by omega)
        simp only [List.take_succ_cons] at h2 hre
        apply h3 0 h0
        simp only [Nat.zero_add, List.take_succ_cons, List.take_zero]
        rcases ha t _ h2 hre with h4 | h4
        · exact .inl h4
        · exact .inr ⟨t, rfl, h4⟩
    · have := congrArg List.length h2
      simp at this; omega

/-- Front and domain, as text. -/
theorem subAndDomain_text {first : Bytes} {front : List SepLabel} {sub dom : Bytes} (h : SubAndDomain first front sub dom)
    (hs : ∀ p ∈ front, p.1 ∈ separators) :
    ∃ z, joinLabels first front = z ++ dom ∧ ((z = [] ∧ sub = []) ∨ ∃ s ∈ separators, z = sub ++ encode s) := by
  rcases h with ⟨rfl, rfl, rfl⟩ | ⟨f, s, l, rfl, rfl, rfl⟩
  · exact ⟨[], by simp [joinLabels], .inl ⟨rfl, rfl⟩⟩
  · refine ⟨joinLabels first f ++ encode s, ?_, .inr ⟨s, hs (s, dom) (by simp), rfl⟩⟩
    clear hs
    induction f generalizing first with
    | nil => simp [joinLabels]
    | cons p f ih =>
      obtain ⟨s', l'⟩ := p
      simp only [List.cons_append, joinLabels]
      rw [ih]; simp

theorem joinLabels_append (first : Bytes) (a : List SepLabel) (s : Nat) (l : Bytes) (b : List SepLabel) :
    joinLabels first (a ++ (s, l) :: b) = joinLabels first a ++ encode s ++ joinLabels l b := by
  induction a generalizing first with
  | nil => simp [joinLabels]
  | cons p a ih =>
    obtain ⟨s', l'⟩ := p
    simp only [List.cons_append, joinLabels]
    rw [ih]; simp

theorem joinLabels_ne {l : Bytes} (h : l ≠ []) (more : List SepLabel) : joinLabels l more ≠ [] := by
  cases more with
  | nil => exact h
  | cons p more => obtain ⟨s, x⟩ := p; simp [joinLabels, h]

/-! ## Characters -/

/-- A character that is not a separator and in no label is not in the name. -/
theorem infix_labels {c : Nat} (hc : c ∈ invalidChars) {first : Bytes} {rest : List SepLabel}
    (hs : ∀ p ∈ rest, p.1 ∈ separators) (h1 : ¬ encode c <:+: first) (h2 : ∀ p ∈ rest, ¬ encode c <:+: p.2) :
    ¬ encode c <:+: joinLabels first rest := by
  have key : ∀ s, encode c <:+: s ↔ c ∈ runes s := by
    intro s
    have g : ∀ c ∈ invalidChars, IsScalar c ∧ c ≠ 0xFFFD := by decide +kernel
    have g := g c hc
    rw [infix_encode_iff g.1 g.2]
    unfold runes
    simp [List.mem_map]
  have hsep : ∀ c ∈ invalidChars, c ∉ separators := by decide +kernel
  have hsep := hsep c hc
  induction rest generalizing first with
  | nil => simpa [joinLabels] using h1
  | cons p rest ih =>
    obtain ⟨s, l⟩ := p
    rw [joinLabels, key, runes_append_sep _ _ (hs (s, l) (by simp))]
    simp only [List.mem_append, List.mem_cons, not_or]
    refine ⟨fun h => h1 ((key _).2 h), ?_, fun h => ?_⟩
    · rintro rfl; exact hsep (hs (c, l) (by simp))
    · exact ih (fun p hp => hs p (by simp [hp])) (h2 (s, l) (by simp)) (fun p hp => h2 p (by simp [hp])) ((key _).2 h)

/-- Bytes that stand for themselves. -/
theorem decodes_infix {e : Bytes} (he : ∀ c ∈ e, c ≠ 37 ∧ c ≠ 43 ∧ hexDigit c = none) (hne : e ≠ []) {l d : Bytes} (h : Decodes l d)
    (hi : e <:+: l) : e <:+: d := by
  obtain ⟨a, b, rfl⟩ := hi
  generalize hl : a ++ e ++ b = l at h
  have hpre : ∀ {l d : Bytes}, Decodes l d → ∀ {e : Bytes}, (∀ c ∈ e, c ≠ 37 ∧ c ≠ 43 ∧ hexDigit c = none) → e <+: l → e <+: d := by
    intro l d h
    induction h with
    | nil => intro e _ h; exact h
    | escape h1 h2 h3 ih =>
      intro e he hp
      cases e with
      | nil => simp
      | cons c e =>
        rw [List.cons_prefix_cons] at hp
        exact absurd hp.1 (he c (by simp)).1
    | plus h ih =>
      intro e he hp
      cases e with
      | nil => simp
      | cons c e =>
        rw [List.cons_prefix_cons] at hp
        exact absurd hp.1 (he c (by simp)).2.1
    | byte h1 h2 h3 ih =>
      intro e he hp
      cases e with
      | nil => simp
      | cons c e =>
        rw [List.cons_prefix_cons] at hp ⊢
        exact ⟨hp.1, ih (fun x hx => he x (by simp [hx])) hp.2⟩
  have hin : e <:+: l := ⟨a, b, hl⟩
  clear hl
  induction h with
  | nil => exact hin
  | @escape h l' n m t r h1 h2 h3 ih =>
    have : ∀ c ∈ e, c ≠ h ∧ c ≠ l' := by
      intro c hc
      refine ⟨?_, ?_⟩
      · rintro rfl; rw [(he c hc).2.2] at h1; simp at h1
      · rintro rfl; rw [(he c hc).2.2] at h2; simp at h2
    cases e with
    | nil => exact absurd rfl hne
    | cons c e =>
      rw [List.infix_cons_iff, List.cons_prefix_cons] at hin
      rcases hin with hin | hin
      · exact absurd hin.1 (he c (by simp)).1
      rw [List.infix_cons_iff, List.cons_prefix_cons] at hin
      rcases hin with hin | hin
      · exact absurd hin.1 (this c (by simp)).1
      rw [List.infix_cons_iff, List.cons_prefix_cons] at hin
      rcases hin with hin | hin
      · exact absurd hin.1 (this c (by simp)).2
      exact List.infix_cons (ih hin)
  | plus h ih =>
    cases e with
    | nil => exact absurd rfl hne
    | cons c e =>
      rw [List.infix_cons_iff, List.cons_prefix_cons] at hin
      rcases hin with hin | hin
      · exact absurd hin.1 (he c (by simp)).2.1
      · exact List.infix_cons (ih hin)
  | byte h1 h2 h3 ih =>
    rw [List.infix_cons_iff] at hin
    rcases hin with hin | hin
    · exact (hpre (.byte h1 h2 h3) he hin).isInfix
    · exact List.infix_cons (ih hin)

theorem decodes_plus {l d : Bytes} (h : Decodes l d) (hp : 43 ∈ l) : 32 ∈ d := by
  induction h with
  | nil => exact absurd hp (by simp)
  | @escape h l' n m t r h1 h2 h3 ih =>
    simp only [List.mem_cons] at hp ⊢
    rcases hp with hp | rfl | rfl | hp
    · simp at hp
    · exact absurd h1 (by simp [show hexDigit 43 = none by decide])
    · exact absurd h2 (by simp [show hexDigit 43 = none by decide])
    · exact .inr (ih hp)
  | plus => simp
  | byte h1 h2 h3 ih =>
    simp only [List.mem_cons] at hp ⊢
    rcases hp with hp | hp
    · exact absurd hp.symm h2
    · exact .inr (ih hp)

/-- A label that stands for a good one has no invalid characters. -/
theorem decodes_chars {l d : Bytes} (h : Decodes l d) (hd : GoodLabel d) {c : Nat} (hc : c ∈ invalidChars) (hm : c ∉ missedChars) :
    ¬ encode c <:+: l := by
  intro hi
  by_cases h43 : c = 43
  · subst h43
    have : (43 : UInt8) ∈ l := hi.subset (by decide)
    exact hd.not_mem (c := 32) (by decide) (by decide +kernel) (by decide) (decodes_plus h this)
  · have : ∀ c ∈ invalidChars, c ≠ 43 → ∀ b ∈ encode c, b ≠ 37 ∧ b ≠ 43 ∧ hexDigit b = none := by decide +kernel
    exact hd.chars.2.2.2.2 c hc hm (decodes_infix (this c hc h43) (encode_ne_nil c) h hi)

/-! ## Labels that were followed -/

theorem follows_good (hw : WellFormed rules) {ls ds : List Bytes} {m : Nat} (h : Follows rules ls ds m) {j : Nat} (hj : j < m)
    {d : Bytes} (hd : ds[j]? = some d) : GoodLabel d := by
  have hk : Known rules (ds.take (j + 1)) := h.known.prefix (by
    rw [show ds.take (j + 1) = (ds.take m).take (j + 1) by rw [List.take_take]; congr 1; omega]
    exact List.take_prefix _ _)
  have e : ds.take (j + 1) = ds.take j ++ [d] := by
    rw [List.take_add_one, hd]; rfl
  rw [e] at hk
  have hst : ¬ RuleAt rules (ds.take j ++ [star]) := fun hr => h.noStar j hj (.inr hr.prefixAt)
  rcases hk with hk | hk
  · simp at hk
  rcases prefixAt_cases hk with hr | ⟨x, hx⟩
  · rcases hw.leftmost _ _ hr with hg | rfl | ⟨m, rfl, -⟩
    · exact hg
    · exact absurd hr hst
    · exact absurd (hw.exception _ _ hr) hst
  · exact hw.good_of_prefix hx d (by simp)

/-- Labels to the right of the last one looked at have been followed. -/
theorem stops_seen {ls ds : List Bytes} {m seen cut : Nat} (h : Stops rules ls ds m seen cut) : seen ≤ m ∧ m ≤ cut ∧ cut ≤ m + 1 := by
  cases h <;> omega

/-- Labels of the suffix are not empty. -/
theorem cut_label_ne {ls ds : List Bytes} {m seen cut : Nat} (hf : Follows rules ls ds m) (h : Stops rules ls ds m seen cut) {j : Nat}
    (hj : j < cut) (hl : j + 1 < ls.length) : ls[j]? ≠ some [] := by
  rcases Nat.lt_or_ge j m with hm | hm
  · exact hf.nonempty j hm hl
  · intro hc
    cases h with
    | all => omega
    | unknown => omega
    | exception => omega
    | wildcard h1 h2 =>
      obtain rfl : j = m := by omega
      rw [hc] at h1
      injection h1 with h1
      exact h2 hl h1.symm

theorem fromRight_get {first : Bytes} {a b : List SepLabel} {s : Nat} {l : Bytes} :
    (fromRight first (a ++ (s, l) :: b))[b.length]? = some l := by
  unfold fromRight
  rw [List.getElem?_reverse (by simp; omega)]
  simp only [List.map_append, List.map_cons, List.length_cons, List.length_append, List.length_map]
  rw [show a.length + (b.length + 1) + 1 - 1 - b.length = a.length + 1 by omega, List.getElem?_cons_succ,
    List.getElem?_append_right (by simp)]
  simp

theorem values_get {ls ds : List Bytes} (h : LabelValues ls ds) {j : Nat} {l : Bytes} (hl : ls[j]? = some l) :
    ∃ d, ds[j]? = some d ∧ (Decodes l d ∨ d = []) := by
  induction ls generalizing ds j with
  | nil => simp at hl
  | cons x ls ih =>
    cases ds with
    | nil => exact h.elim
    | cons d ds =>
      cases j with
      | zero =>
        simp at hl; subst hl
        exact ⟨d, rfl, h.1.imp id fun h => h.2⟩
      | succ j => simpa using ih h.2 (by simpa using hl)

/-- A label of the text to the left of the last `k` labels is a piece of that text. -/
theorem infix_textTo {first : Bytes} {a b : List SepLabel} {s : Nat} {l : Bytes} {k : Nat} (hk : k ≤ b.length) :
    l <:+: textTo first (a ++ (s, l) :: b) k := by
  unfold textTo
  have : (a ++ (s, l) :: b).take ((a ++ (s, l) :: b).length - k) = a ++ (s, l) :: b.take (b.length - k) := by
    rw [List.take_append, List.take_of_length_le (by simp; omega)]
    congr 1
    rw [show (a ++ (s, l) :: b).length - k - a.length = (b.length - k) + 1 by simp; omega, List.take_succ_cons]
  rw [this, joinLabels_append]
  obtain ⟨z, hz⟩ : ∃ z, joinLabels l (b.take (b.length - k)) = l ++ z := by
    cases b.take (b.length - k) with
    | nil => exact ⟨[], by simp [joinLabels]⟩
    | cons p q => obtain ⟨s, x⟩ := p; exact ⟨encode s ++ joinLabels x q, by simp [joinLabels]⟩
  rw [hz]
  exact ⟨joinLabels first a ++ encode s, z, by simp⟩

theorem infix_textTo_first {first : Bytes} {rest : List SepLabel} (k : Nat) : first <:+: textTo first rest k := by
  unfold textTo
  cases rest.take (rest.length - k) with
  | nil => exact List.infix_refl _
  | cons p q => obtain ⟨s, x⟩ := p; exact ⟨[], encode s ++ joinLabels x q, by simp [joinLabels]⟩

/-! ## Empty labels -/

/-- With strict separators, a text that passes the check and does not end in an empty label has no empty labels. -/
theorem checked_ne {first : Bytes} {rest : List SepLabel} (hs : ∀ p ∈ rest, p.1 ∈ strictSeparators)
    (hc : HostCharsOK (joinLabels first rest)) (hlast : (first :: rest.map Prod.snd).getLast? ≠ some []) :
    first ≠ [] ∧ ∀ p ∈ rest, p.2 ≠ [] := by
  obtain ⟨-, -, h1, h2, -⟩ := hc
  refine ⟨?_, ?_⟩
  · rintro rfl
    cases rest with
    | nil => simp at hlast
    | cons p rest =>
      obtain ⟨s, l⟩ := p
      exact h1 s (hs (s, l) (by simp)) ⟨joinLabels l rest, by simp [joinLabels]⟩
  · rintro ⟨s, l⟩ hp rfl
    obtain ⟨a, b, rfl⟩ := List.append_of_mem hp
    rw [joinLabels_append] at h2
    cases b with
    | nil =>
      apply hlast
      rw [List.map_append, ← List.cons_append, List.map_cons, List.map_nil, List.getLast?_concat]
    | cons q b =>
      obtain ⟨s', l'⟩ := q
      refine h2 s (hs (s, []) (by simp)) s' (hs (s', l') (by simp)) ⟨joinLabels first a, joinLabels l' b, ?_⟩
      simp [joinLabels]

end

end Fasttld
