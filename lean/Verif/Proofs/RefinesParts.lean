import Verif.Proofs.Refines

/-!
# Longer lists: the parts of the host
-/

set_option linter.unusedSimpArgs false

namespace Fasttld
open Spec

theorem subAndDomain_exists (first : Bytes) (front : List SepLabel) : ∃ sub dom, SubAndDomain first front sub dom := by
  rcases List.eq_nil_or_concat front with rfl | ⟨f, ⟨s, l⟩, rfl⟩
  · exact ⟨[], first, .inl ⟨rfl, rfl, rfl⟩⟩
  · exact ⟨_, l, .inr ⟨f, s, l, by simp, rfl, rfl⟩⟩

/-- The domain is one of the labels. -/
theorem subAndDomain_mem {first : Bytes} {front : List SepLabel} {sub dom : Bytes} (h : SubAndDomain first front sub dom) :
    dom = first ∨ ∃ p ∈ front, p.2 = dom := by
  rcases h with ⟨-, h, -⟩ | ⟨f, s, l, rfl, rfl, -⟩
  · exact .inl h
  · exact .inr ⟨(s, dom), by simp, rfl⟩

theorem subAndDomain_unique {first : Bytes} {front : List SepLabel} {sub dom sub' dom' : Bytes} (h : SubAndDomain first front sub dom)
    (h' : SubAndDomain first front sub' dom') : sub = sub' ∧ dom = dom' := by
  rcases h with ⟨rfl, rfl, rfl⟩ | ⟨f, s, l, rfl, rfl, rfl⟩ <;> rcases h' with ⟨e1, rfl, rfl⟩ | ⟨f', s', l', e1, rfl, rfl⟩
  · exact ⟨rfl, rfl⟩
  · simp at e1
  · simp at e1
  · obtain ⟨rfl, e⟩ := List.append_inj' e1 rfl
    obtain ⟨rfl, rfl⟩ : s = s' ∧ dom = dom' := by simpa using e
    exact ⟨rfl, rfl⟩

theorem split_at {rest : List SepLabel} {k : Nat} (h0 : 0 < k) (hk : k ≤ rest.length) :
    ∃ front s l more, rest = front ++ (s, l) :: more ∧ more.length + 1 = k := by
  have hl : (rest.drop (rest.length - k)).length = k := by simp; omega
  cases h : rest.drop (rest.length - k) with
  | nil => rw [h] at hl; simp at hl; omega
  | cons p more =>
    refine ⟨rest.take (rest.length - k), p.1, p.2, more, ?_, by rw [h] at hl; simpa using hl⟩
    conv => lhs; rw [← List.take_append_drop (rest.length - k) rest, h]

/-- A cut further to the left: the new suffix ends in the old registered domain. -/
theorem ends_longer {first : Bytes} {front front' : List SepLabel} {s s' : Nat} {l l' : Bytes} {more more' : List SepLabel}
    (hs : ∀ p ∈ front, p.1 ∈ separators) {sub dom : Bytes} (h : front ++ (s, l) :: more = front' ++ (s', l') :: more')
    (hlt : more.length < more'.length) (hd : SubAndDomain first front sub dom) :
    EndsInLabels (joinLabels l' more') (joinLabels dom ((s, l) :: more)) := by
  obtain ⟨w, e1, e2⟩ : ∃ w, front = front' ++ w ∧ (s', l') :: more' = w ++ (s, l) :: more := by
    have hl := congrArg List.length h
    simp at hl
    rcases List.append_eq_append_iff.1 h with ⟨w, e1, e2⟩ | ⟨w, e1, e2⟩
    · have := congrArg List.length e1; simp at this; omega
    · exact ⟨w, e1, e2⟩
  rcases List.eq_nil_or_concat w with rfl | ⟨w', ⟨s0, l0⟩, rfl⟩
  · have := congrArg List.length e2; simp at this; omega
  · obtain rfl : dom = l0 := by
      rcases hd with ⟨rfl, -, -⟩ | ⟨f, s1, l1, rfl, rfl, -⟩
      · simp at e1
      · rw [List.concat_eq_append, ← List.append_assoc] at e1
        obtain ⟨-, e⟩ := List.append_inj' e1 rfl
        simp at e
        exact e.2
    cases w' with
    | nil =>
      obtain ⟨⟨rfl, rfl⟩, rfl⟩ : (s' = s0 ∧ l' = dom) ∧ more' = (s, l) :: more := by simpa using e2
      exact .inl rfl
    | cons p w' =>
      obtain ⟨rfl, rfl⟩ : (s', l') = p ∧ more' = w' ++ (s0, dom) :: (s, l) :: more := by simpa using e2
      refine .inr ⟨joinLabels l' w', s0, hs (s0, dom) (by rw [e1]; simp), ?_⟩
      rw [joinLabels_append]

/-- The text without the last labels, as labels. -/
theorem textTo_prefix (first : Bytes) (rest : List SepLabel) {k k' : Nat} (h : k ≤ k') : textTo first rest k' <+: textTo first rest k := by
  unfold textTo
  have : ∃ z, rest.take (rest.length - k) = rest.take (rest.length - k') ++ z := by
    refine ⟨(rest.take (rest.length - k)).drop (rest.length - k'), ?_⟩
    have := List.take_append_drop (rest.length - k') (rest.take (rest.length - k))
    rw [List.take_take, Nat.min_eq_left (by omega)] at this
    exact this.symm
  obtain ⟨z, e⟩ := this
  rw [e]
  cases z with
  | nil => simp
  | cons p z =>
    obtain ⟨s, l⟩ := p
    rw [joinLabels_append, List.append_assoc]
    exact ⟨_, rfl⟩

/-- The text ends in one of the labels, which ends in a hyphen if the text does, unless it is empty. -/
theorem textTo_hyphen {first : Bytes} {rest : List SepLabel} {k : Nat} (h : encode 45 <:+ textTo first rest k) :
    (first = [] ∨ encode 45 <:+ first) ∨ ∃ p ∈ rest, p.2 = [] ∨ encode 45 <:+ p.2 := by
  have key : ∀ x l : Bytes, encode 45 <:+ x ++ l → l = [] ∨ encode 45 <:+ l := by
    intro x l hx
    by_cases hl : l = []
    · exact .inl hl
    · refine .inr ?_
      have e45 : encode 45 = [45] := by decide
      rw [e45] at hx ⊢
      obtain ⟨y, hy⟩ := hx
      rcases List.eq_nil_or_concat l with rfl | ⟨l0, c, rfl⟩
      · exact absurd rfl hl
      · rw [List.concat_eq_append, ← List.append_assoc] at hy
        obtain ⟨-, e⟩ := List.append_inj' hy rfl
        obtain rfl : (45 : UInt8) = c := by simpa using e
        exact ⟨l0, by simp⟩
  unfold textTo at h
  rcases List.eq_nil_or_concat (rest.take (rest.length - k)) with e | ⟨f, ⟨s, l⟩, e⟩
  · rw [e] at h
    exact .inl (key [] first (by simpa [joinLabels] using h))
  · rw [e, List.concat_eq_append, joinLabels_append] at h
    refine .inr ⟨(s, l), List.mem_of_mem_take (i := rest.length - k) (by rw [e]; simp), ?_⟩
    exact key (joinLabels first f ++ encode s) l (by simpa [joinLabels] using h)

theorem hostCharsOK_prefix {y z : Bytes} (hy : HostCharsOK y) (hz : z <+: y) (h : ¬ encode 45 <:+ z) : HostCharsOK z := by
  obtain ⟨h1, h2, h3, h4, h5⟩ := hy
  exact ⟨fun g => h1 (g.trans hz), h, fun a ha g => h3 a ha (g.trans hz), fun a ha b hb g => h4 a ha b hb (g.trans hz.isInfix),
    fun c hc hm g => h5 c hc hm (g.trans hz.isInfix)⟩

end Fasttld
