import Verif.Proofs.Exact

/-!
# Dotted names of good labels
-/

set_option linter.unusedSimpArgs false

namespace Fasttld
open Spec

/-- The labels after the first one, with a dot before each. -/
def dotted (ls : List Bytes) : List SepLabel := ls.map fun l => (46, l)

theorem dotted_join (first : Bytes) (ls : List Bytes) : List.intercalate [46] (first :: ls) = joinLabels first (dotted ls) := by
  induction ls generalizing first with
  | nil => simp [dotted, joinLabels, List.intercalate, List.intersperse]
  | cons l ls ih =>
    have e : List.intercalate [46] (first :: l :: ls) = first ++ 46 :: List.intercalate [46] (l :: ls) := by
      simp [List.intercalate, List.intersperse]
    rw [e, ih]
    simp [dotted, joinLabels, show encode 46 = [46] by decide]

theorem dotted_fromRight (first : Bytes) (ls : List Bytes) : fromRight first (dotted ls) = (first :: ls).reverse := by
  simp [fromRight, dotted, List.map_map, Function.comp_def]

theorem byte_not_mem {n : Bytes} (h : HostCharsOK n) {c : UInt8} (hc : c < 128) (hi : c.toNat ∈ invalidChars)
    (hm : c.toNat ∉ missedChars) : c ∉ n := by
  intro hcl
  apply h.2.2.2.2 c.toNat hi hm
  have : encode c.toNat = [c] :=
    forall_byte (P := fun c => c < 128 → encode c.toNat = [c]) (by decide +kernel) c hc
  rw [this]
  obtain ⟨a, b, rfl⟩ := List.append_of_mem hcl
  exact ⟨a, b, by simp⟩

/-- A first label and further ones with separators, all good. -/
structure GoodName (first : Bytes) (rest : List SepLabel) : Prop where
  first : GoodLabel first
  rest : ∀ p ∈ rest, p.1 ∈ separators ∧ GoodLabel p.2

theorem goodName_dotted {first : Bytes} {ls : List Bytes} (h : ∀ l ∈ first :: ls, GoodLabel l) : GoodName first (dotted ls) := by
  refine ⟨h first (by simp), fun p hp => ?_⟩
  obtain ⟨l, hl, rfl⟩ := List.mem_map.1 hp
  exact ⟨by simp [separators], h l (by simp [hl])⟩

theorem GoodName.left {first : Bytes} {a b : List SepLabel} (h : GoodName first (a ++ b)) : GoodName first a :=
  ⟨h.first, fun p hp => h.rest p (by simp [hp])⟩

theorem GoodName.chars {first : Bytes} {rest : List SepLabel} (h : GoodName first rest) : HostCharsOK (joinLabels first rest) := by
  induction rest generalizing first with
  | nil => exact h.first.chars
  | cons p rest ih =>
    obtain ⟨s, l⟩ := p
    rw [joinLabels]
    have hp := h.rest (s, l) (by simp)
    exact hostCharsOK_prepend hp.1 h.first.ne h.first.free h.first.chars.1 h.first.chars.2.2.2.2
      (ih ⟨hp.2, fun p hp => h.rest p (by simp [hp])⟩)

theorem GoodName.goodR {first : Bytes} {rest : List SepLabel} (h : GoodName first rest) : GoodR first rest.reverse :=
  ⟨h.first.free, fun p hp => ⟨(h.rest p (by simpa using hp)).1, (h.rest p (by simpa using hp)).2.free⟩⟩

theorem GoodName.noEscape {first : Bytes} {rest : List SepLabel} (h : GoodName first rest) : 37 ∉ joinLabels first rest := by
  induction rest generalizing first with
  | nil => exact h.first.noEscape
  | cons p rest ih =>
    obtain ⟨s, l⟩ := p
    have hp := h.rest (s, l) (by simp)
    have h37 : ∀ s ∈ separators, 37 ∉ encode s := by decide
    simp only [joinLabels, List.mem_append, not_or]
    exact ⟨⟨h.first.noEscape, h37 s hp.1⟩, ih ⟨hp.2, fun p hp => h.rest p (by simp [hp])⟩⟩

theorem GoodName.ne {first : Bytes} {rest : List SepLabel} (h : first ≠ []) : joinLabels first rest ≠ [] := by
  cases rest with
  | nil => exact h
  | cons p rest => obtain ⟨s, l⟩ := p; simp [joinLabels, h]

theorem GoodName.length_inj {first first' : Bytes} {a b : List SepLabel} (ha : GoodName first a) (hb : GoodName first' b)
    (h : joinLabels first a = joinLabels first' b) : a.length = b.length := by
  have h1 := hostSplit_joinR ha.goodR
  have h2 := hostSplit_joinR hb.goodR
  rw [← joinLabels_eq] at h1 h2
  rw [h, h2] at h1
  have := congrArg (fun x => x.2.length) h1
  simpa using this.symm

theorem hostCharsOK_plain {n : Bytes} (h : HostCharsOK n) : IsPlainHost n := by
  have key : ∀ c : UInt8, (isHostEnd c = true ∨ c = 91 ∨ c = 93) → c < 128 ∧ c.toNat ∈ invalidChars ∧ c.toNat ∉ missedChars :=
    forall_byte (P := fun c => (isHostEnd c = true ∨ c = 91 ∨ c = 93) →
      c < 128 ∧ c.toNat ∈ invalidChars ∧ c.toNat ∉ missedChars) (by decide +kernel)
  intro c hc
  have hno : ¬ (isHostEnd c = true ∨ c = 91 ∨ c = 93) := by
    intro hk
    obtain ⟨k1, k2, k3⟩ := key c hk
    exact byte_not_mem h k1 k2 k3 hc
  simp only [not_or] at hno
  exact ⟨by simpa using hno.1, hno.2⟩

theorem hostCharsOK_trim {n : Bytes} (h : HostCharsOK n) : IsTrim true true whiteSpace n n := by
  have hw : ∀ r ∈ whiteSpace, r ∈ invalidChars ∧ r ∉ missedChars := by decide +kernel
  refine ⟨[], [], by simp, ⟨[], by simp, rfl⟩, ⟨[], by simp, rfl⟩, fun _ => rfl, fun _ => rfl, fun _ r hr hp => ?_, fun _ r hr hp => ?_⟩
  · exact h.2.2.2.2 r (hw r hr).1 (hw r hr).2 hp.isInfix
  · exact h.2.2.2.2 r (hw r hr).1 (hw r hr).2 hp.isInfix

theorem hostCharsOK_authority {n : Bytes} (h : HostCharsOK n) : Authority n [] [] n :=
  authority_self (hostCharsOK_plain h) (byte_not_mem h (by decide) (by decide +kernel) (by decide)) (hostCharsOK_trim h)

theorem decodes_plain {n : Bytes} (h : HostCharsOK n) (h37 : 37 ∉ n) : Decodes n n := by
  rw [← queryUnescape_iff]
  have h43 : (43 : UInt8) ∉ n := byte_not_mem h (by decide) (by decide +kernel) (by decide)
  exact queryUnescape_plain fun c hc => ⟨fun e => h37 (e ▸ hc), fun e => h43 (e ▸ hc)⟩

theorem Spec.GoodLabel.decodes {l : Bytes} (h : GoodLabel l) : Decodes l l := decodes_plain h.chars h.noEscape

theorem good_values {ls : List Bytes} (h : ∀ l ∈ ls, GoodLabel l) : ls.map unescapeOrEmpty = ls := by
  induction ls with
  | nil => rfl
  | cons l ls ih =>
    rw [List.map_cons, unescapeOrEmpty_of (h l (by simp)).decodes, ih (fun x hx => h x (by simp [hx]))]

theorem good_read {rules name : List Bytes} (h : ∀ x ∈ name, GoodLabel x) (hne : name ≠ []) :
    ∃ m seen cut mark, Follows rules name name m ∧ Stops rules name name m seen cut ∧ FirstMark rules name m mark := by
  have hr := reading_walk rules hne
  rw [good_values h] at hr
  obtain ⟨o, ho⟩ := walkL_some (node := buildTrie rules) (fun l hl => (h l hl).ne) 0 none
  rw [ho] at hr
  generalize (some o).map Out.walked = w at hr
  cases hr with
  | stuck _ _ h3 _ => exact absurd rfl (h [] (List.mem_of_getElem? h3)).ne
  | ends h1 h2 h3 => exact ⟨_, _, _, _, h1, h2, h3⟩

/-! ## The parts of a name determine the cut -/

theorem subAndDomain_length {first : Bytes} {front front' : List SepLabel} {sub dom : Bytes} (hg : GoodName first front)
    (hg' : GoodName first front') (h : SubAndDomain first front sub dom) (h' : SubAndDomain first front' sub dom) :
    front.length = front'.length := by
  rcases h with ⟨rfl, -, rfl⟩ | ⟨f, s, l, rfl, -, rfl⟩ <;> rcases h' with ⟨rfl, -, h'⟩ | ⟨f', s', l', rfl, -, h'⟩
  · rfl
  · exact absurd h'.symm (GoodName.ne hg.first.ne)
  · exact absurd h' (GoodName.ne hg.first.ne)
  · simp [hg.left.length_inj hg'.left h']

theorem parts_cut {first : Bytes} {rest : List SepLabel} (hg : GoodName first rest) {mark : Option Nat} {cut n : Nat}
    {sub dom suf reg : Bytes} (hp : Parts first rest mark cut sub dom suf reg) (hc : CutLabels first rest n sub dom suf) :
    (mark = none ∧ n = 0) ∨ (mark = some 0 ∧ n = cut) := by
  obtain ⟨front', back', h1, h2, h3, h4⟩ := hc
  have hl : ∀ p ∈ rest, p.2 ≠ [] := fun p hp => (hg.rest p hp).2.ne
  cases hp with
  | noSuffix h =>
    left
    refine ⟨rfl, ?_⟩
    cases back' with
    | nil => simpa using h2.symm
    | cons p more =>
      obtain ⟨s, l⟩ := p
      simp only at h3
      exact absurd h3.symm (GoodName.ne (hl (s, l) (by rw [h1]; simp)))
  | @suffix front s l more back e _ _ _ e1 e2 e3 h =>
    have hf := subAndDomain_length (front := front) (front' := front') (by rw [e1] at hg; simp only [List.append_assoc] at hg; exact hg.left)
      (by rw [h1] at hg; exact hg.left) h h4
    rw [e1, List.append_assoc] at h1
    obtain ⟨rfl, hb⟩ := List.append_inj h1 hf
    subst hb
    simp only [List.cons_append] at h3
    have hgl : GoodName l (more ++ back) := by
      have := hg.rest
      rw [e1] at this
      exact ⟨(this (s, l) (by simp)).2, fun p hp => this p (by simp at hp ⊢; grind)⟩
    have := hgl.left.length_inj hgl h3
    simp at this
    subst this
    right
    simp at e2 h2
    subst e2
    exact ⟨rfl, by omega⟩
  | suffixOnly _ _ _ =>
    rcases h4 with ⟨-, h, -⟩ | ⟨f, s, l, h5, h, -⟩
    · exact absurd h.symm hg.first.ne
    · exact absurd h.symm (hl (s, l) (by rw [h1, h5]; simp))

/-! ## A new label -/

theorem length_of_mem_intercalate {ls : List Bytes} {l : Bytes} (h : l ∈ ls) : l.length ≤ (List.intercalate [46] ls).length := by
  induction ls with
  | nil => simp at h
  | cons w ws ih =>
    cases ws with
    | nil =>
      simp at h; subst h
      simp [List.intercalate, List.intersperse]
    | cons v vs =>
      have e : List.intercalate [46] (w :: v :: vs) = w ++ 46 :: List.intercalate [46] (v :: vs) := by
        simp [List.intercalate, List.intersperse]
      rw [e]
      rcases List.mem_cons.1 h with rfl | h
      · simp
      · have := ih h
        simp; omega

theorem onlyA_good {l : Bytes} (h : OnlyA l) : GoodLabel l := by
  have key : ∀ c, (∃ b ∈ encode c, b ≠ 97) → ¬ encode c <:+: l := by
    rintro c ⟨b, hb, hne⟩ hi
    exact hne (h.2 b (hi.subset hb))
  have hsep : ∀ r ∈ separators, ∃ b ∈ encode r, b ≠ 97 := by decide
  have hstr : ∀ r ∈ strictSeparators, ∃ b ∈ encode r, b ≠ 97 := by decide
  have hinv : ∀ r ∈ invalidChars, r ∉ missedChars → ∃ b ∈ encode r, b ≠ 97 := by decide +kernel
  have h45 : ∃ b ∈ encode 45, b ≠ 97 := by decide
  refine ⟨h.1, fun r hr => key r (hsep r hr), ⟨fun hp => key 45 h45 hp.isInfix, fun hp => key 45 h45 hp.isInfix,
    fun a ha hp => key a (hstr a ha) hp.isInfix, fun a ha b hb hp => key a (hstr a ha) (List.IsInfix.trans ⟨[], encode b, by simp⟩ hp),
    fun c hc hm => key c (hinv c hc hm)⟩, fun hc => ?_⟩
  have := h.2 37 hc
  simp at this

theorem newLabel_exists (rules : List Bytes) : ∃ f, NewLabel rules f ∧ OnlyA f := by
  let f : Bytes := List.replicate ((rules.map List.length).sum + 1) 97
  have ha : OnlyA f := ⟨by simp [f, List.replicate_succ], fun c hc => List.eq_of_mem_replicate hc⟩
  refine ⟨f, ⟨onlyA_good ha, ?_⟩, ha⟩
  have hsum : ∀ r ∈ rules, r.length ≤ (rules.map List.length).sum := by
    intro r hr
    clear ha f
    induction rules with
    | nil => simp at hr
    | cons x xs ih =>
      rcases List.mem_cons.1 hr with rfl | hr
      · simp
      · have := ih hr; simp; omega
  have hfl : f.length = (rules.map List.length).sum + 1 := by simp [f]
  rintro ⟨p, ⟨r, hr, -, -, e⟩, h⟩
  have hr := hsum r hr
  rcases h with h | h
  · have := length_of_mem_intercalate (List.mem_reverse.2 h)
    rw [← e] at this; omega
  · have := length_of_mem_intercalate (List.mem_reverse.2 h)
    rw [← e] at this; simp at this; omega

theorem not_ipv4_letter {c : UInt8} {t : Bytes} (hc : isDigit c = false) : ¬ IsIPv4 (c :: t) := by
  rintro ⟨q, t', ⟨a, b, c', d, r1, r2, r3, ha, -, -, -, -, -, -, rfl⟩, -, e⟩
  cases a with
  | nil => exact ha.ne_nil rfl
  | cons x a =>
    simp at e
    have := ha.digits x (by simp)
    rw [← e.1, hc] at this
    simp at this

/-! ## The result for such names -/

/-- Extract on a dotted name of good labels that begins with a letter, if the last label in the walk leaves a domain. -/
theorem extracts_dotted (idna : Idna) {rules : List Bytes} {first : Bytes} {ls : List Bytes}
    (hg : ∀ l ∈ first :: ls, GoodLabel l) (hi : idna.toUnicodeErr (List.intercalate [46] (first :: ls)) = none)
    (h4 : ¬ IsIPv4 (List.intercalate [46] (first :: ls))) {m seen cut : Nat} {mark : Option Nat}
    (h1 : Follows rules (first :: ls).reverse (first :: ls).reverse m)
    (h2 : Stops rules (first :: ls).reverse (first :: ls).reverse m seen cut)
    (h3 : FirstMark rules (first :: ls).reverse m mark) (hcut : mark = none ∨ cut ≤ ls.length) :
    ∃ sub dom suf reg, Parts first (dotted ls) mark cut sub dom suf reg ∧
      Extracts idna rules { url := List.intercalate [46] (first :: ls) }
        { hostType := .hostName, subDomain := sub, domain := dom, suffix := suf, registeredDomain := reg } none := by
  have hgn := goodName_dotted hg
  have hlen : (dotted ls).length = ls.length := by simp [dotted]
  rw [dotted_join] at hi h4 ⊢
  have hch := hgn.chars
  have hdec := decodes_plain hch hgn.noEscape
  have hmc : m ≤ cut := by cases h2 <;> omega
  obtain ⟨sub, dom, suf, reg, hp⟩ := parts_exists (first := first) (rest := dotted ls) (mark := mark) (cut := cut) (by
    rintro e rfl
    have hc := hcut.resolve_left (by simp)
    cases h3 with
    | «at» h => omega)
  refine ⟨sub, dom, suf, reg, hp, ?_⟩
  have htext : ∀ k, HostCharsOK (textTo first (dotted ls) k) := by
    intro k
    unfold textTo
    refine GoodName.chars (GoodName.left (b := (dotted ls).drop ((dotted ls).length - k)) ?_)
    rw [List.take_append_drop]; exact hgn
  have hdom : dom ≠ [] := by
    have hsd : ∀ front back, dotted ls = front ++ back → SubAndDomain first front sub dom → dom ≠ [] := by
      rintro front back e (⟨-, rfl, -⟩ | ⟨f, s, l, rfl, rfl, -⟩)
      · exact hgn.first.ne
      · exact (hgn.rest (s, dom) (by rw [e]; simp)).2.ne
    cases hp with
    | noSuffix h => exact hsd _ [] (by simp) h
    | suffix e1 _ _ h => rw [List.append_assoc] at e1; exact hsd _ _ e1 h
    | suffixOnly _ _ h => rcases hcut with hc | hc <;> first | omega | simp at hc
  obtain ⟨t, ht, htc⟩ : ∃ t, Checked (joinLabels first (dotted ls)) first (dotted ls) ⟨m, seen, cut, mark⟩ t ∧ HostCharsOK t := by
    cases hm : mark with
    | none => exact ⟨_, .noSuffix rfl, htext _⟩
    | some e =>
      have hc := hcut.resolve_left (by simp [hm])
      exact ⟨_, .suffix rfl (by simp only; omega), htext _⟩
  have hshape : HostShape (joinLabels first (dotted ls)) first (dotted ls) [] := by
    refine ⟨by simp, ⟨hgn.first.free, fun p hp => ⟨(hgn.rest p hp).1, (hgn.rest p hp).2.free⟩⟩, ⟨[], by simp, rfl⟩, ?_⟩
    intro f s e
    exact (hgn.rest (s, []) (by rw [e]; simp)).2.ne rfl
  refine ⟨[], [], _, .name (joinLabels first (dotted ls)) [], hostCharsOK_authority hch, ?_, ?_⟩
  · have := HostAt.name (host := joinLabels first (dotted ls)) (after := []) (hostCharsOK_plain hch) (by simp)
    simpa using this
  · have hres : HostResult rules false (joinLabels first (dotted ls))
        { hostType := .hostName, subDomain := sub, domain := dom, suffix := suf, registeredDomain := reg } none := by
      refine ⟨first, dotted ls, [], (first :: ls).reverse, some ⟨m, seen, cut, mark⟩, hshape, ?_, ?_, ?_⟩
      · rw [labelValues_iff, dotted_fromRight, good_values]
        intro l hl; exact hg l (List.mem_reverse.1 hl)
      · rw [dotted_fromRight]
        exact .ends h1 h2 h3
      · exact Judged.name (ignoreSub := false) h4 ht htc hp hdom
    have := Finished.host (idna := idna) (rules := rules) (e := { url := joinLabels first (dotted ls) }) (sch := []) (ui := [])
      (host := joinLabels first (dotted ls)) (after := []) (port := []) (path := []) (n := joinLabels first (dotted ls))
      ⟨.inl rfl, .inl ⟨rfl, rfl⟩⟩ ⟨_, hdec, .inl ⟨rfl, hi, rfl⟩⟩ hres
    exact this

end Fasttld
