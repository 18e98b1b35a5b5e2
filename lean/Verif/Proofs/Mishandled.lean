import Verif.Spec.Mishandled
import Verif.Proofs.ExactText

/-!
# Names for which the library does not follow the algorithm
-/

set_option linter.unusedSimpArgs false

namespace Fasttld
open Spec

/-- Two ways of seeing the labels of a host are the same. -/
theorem Spec.HostShape.unique {host f f' t t' : Bytes} {rest rest' : List SepLabel} (h : HostShape host f rest t)
    (h' : HostShape host f' rest' t') : f = f' ∧ rest = rest' ∧ t = t' := by
  obtain ⟨ts, h1, h2, -⟩ := h.split
  obtain ⟨ts', h1', h2', -⟩ := h'.split
  rw [h1] at h1'
  simp only [Prod.mk.injEq] at h1'
  obtain ⟨rfl, he⟩ := h1'
  have hlen : ts.length = ts'.length := by rw [← h2, ← h2', he]
  obtain ⟨-, hr⟩ := List.append_inj he hlen
  have hr : rest = rest' := by simpa using hr
  subst hr
  refine ⟨rfl, rfl, ?_⟩
  have := h.text.symm.trans h'.text
  exact List.append_cancel_left this

section
variable {rules name : List Bytes}

theorem Spec.PrefixAt.take {p : List Bytes} (h : PrefixAt rules p) (i : Nat) : PrefixAt rules (p.take i) :=
  h.prefix (List.take_prefix _ _)

theorem Spec.LeadsTo.unique {m m' : Nat} (h : LeadsTo rules name m) (h' : LeadsTo rules name m') : m = m' := by
  have key : ∀ {m m' : Nat}, LeadsTo rules name m → LeadsTo rules name m' → ¬ m < m' := by
    intro m m' h h' hlt
    rcases h.last (by have := h'.le; omega) with h1 | h1
    · exact h'.reached m hlt h1
    · apply h1
      have h2 := h'.known.resolve_left (by omega)
      have := h2.take (m + 1)
      rwa [List.take_take, Nat.min_eq_left (by omega)] at this
  have := key h h'
  have := key h' h
  omega

theorem mishandled_matches (h : Mishandled rules name) : ¬ NoRuleMatches rules name := by
  cases h with
  | top _ _ _ h => exact h
  | gap _ _ _ _ h => exact h
  | shadow _ _ _ _ h _ => exact publicSuffix_not_none h
  | exception _ _ _ _ h _ => exact publicSuffix_not_none h

theorem known_prefix {p : List Bytes} (h : p ≠ []) : Known rules p ↔ PrefixAt rules p := by simp [Known, h]

theorem Spec.WellFormed.known_star (hw : WellFormed rules) {a : List Bytes} : Known rules (a ++ [star]) ↔ RuleAt rules (a ++ [star]) := by
  rw [known_prefix (by simp)]
  exact ⟨hw.star_last, fun h => h.prefixAt⟩

theorem Spec.WellFormed.known_bang (hw : WellFormed rules) {a : List Bytes} {l : Bytes} :
    Known rules (a ++ [33 :: l]) ↔ RuleAt rules (a ++ [33 :: l]) := by
  rw [known_prefix (by simp)]
  exact ⟨hw.bang_last, fun h => h.prefixAt⟩

open Classical in
/-- What the walk gives agrees with the algorithm if and only if the name is not `Mishandled`. -/
theorem agrees_iff (hw : WellFormed rules) (hb : ¬ RuleAt rules [star]) (hgood : ∀ x ∈ name, GoodLabel x) (hne : name ≠ [])
    (alg : NoRuleMatches rules name ∨ ∃ n, PublicSuffix rules name n)
    {m seen cut : Nat} {mark : Option Nat} (hf : Follows rules name name m) (hs : Stops rules name name m seen cut)
    (hm : FirstMark rules name m mark) (hacc : mark = none ∨ cut < name.length) :
    ((∀ n, PublicSuffix rules name n → (mark = none ∧ n = 0) ∨ (mark = some 0 ∧ n = cut)) ∧
      (NoRuleMatches rules name → mark = none)) ↔ ¬ Mishandled rules name := by
  obtain ⟨t, name', rfl⟩ := List.exists_cons_of_ne_nil hne
  generalize hN : t :: name' = name at *
  have htop1 : name.take 1 = [t] := by rw [← hN]; simp
  have hhead : name.head? = some t := by rw [← hN]; simp
  have hreach : ∀ j < m, ¬ RuleAt rules (name.take j ++ [star]) := fun j hj h => hf.noStar j hj (hw.known_star.2 h)
  have hknown : m = 0 ∨ PrefixAt rules (name.take m) := by
    rcases Nat.eq_zero_or_pos m with h | h
    · exact .inl h
    · right
      have := hf.known
      exact this.resolve_left (by rw [← hN]; obtain ⟨i, rfl⟩ : ∃ i, m = i + 1 := ⟨m - 1, by omega⟩; simp)
  have htk : ∀ i, 1 ≤ i → name.take i ≠ [] := by
    intro i hi
    obtain ⟨i, rfl⟩ : ∃ k, i = k + 1 := ⟨i - 1, by omega⟩
    rw [← hN]; simp
  -- rules that match
  have hnormal : ∀ q, NormalAt rules q → Matches q name →
      (∃ k, 1 ≤ k ∧ k ≤ name.length ∧ q = name.take k) ∨ ∃ j, j < name.length ∧ q = name.take j ++ [star] := by
    intro q hq hmt
    obtain ⟨a, y, rfl⟩ := ruleAt_last hq.rule
    obtain ⟨h1, h2⟩ := hw.matches_rule hq.rule hmt
    have hal : a.length < name.length := by
      rcases h2 with rfl | h2
      · have := hmt.length; simp at this; omega
      · exact (List.getElem?_eq_some_iff.1 h2).1
    rcases h2 with rfl | h2
    · exact .inr ⟨a.length, hal, by rw [← h1]⟩
    · refine .inl ⟨a.length + 1, by omega, by omega, ?_⟩
      rw [List.take_add_one, h2, ← h1]; simp
  have htake_normal : ∀ k, 1 ≤ k → k ≤ name.length → RuleAt rules (name.take k) → NormalAt rules (name.take k) := by
    intro k h1 h2 hr
    obtain ⟨k, rfl⟩ : ∃ i, k = i + 1 := ⟨k - 1, by omega⟩
    rw [List.take_add_one, List.getElem?_eq_getElem (by omega)] at hr ⊢
    exact (normalAt_iff (hgood _ (List.getElem_mem (by omega))).head).2 hr
  have hstar_normal : ∀ j, RuleAt rules (name.take j ++ [star]) → NormalAt rules (name.take j ++ [star]) :=
    fun j h => (normalAt_iff (by simp [star])).2 h
  have hexc : ∀ e, ExceptionAt rules e → Matches e name → ∃ j x, e = name.take j ++ [x] ∧ name[j]? = some x ∧ m ≤ j ∧
      RuleAt rules (name.take j ++ [33 :: x]) ∧ RuleAt rules (name.take j ++ [star]) := by
    intro e he hmt
    obtain ⟨a, x, rfl, h1, h2, -⟩ := hw.exceptionAt he
    obtain ⟨h3, h4⟩ := hw.matches_exception h1 hmt
    refine ⟨a.length, x, by rw [← h3], h4, ?_, by rw [← h3]; exact h1, by rw [← h3]; exact h2⟩
    rcases Nat.lt_or_ge a.length m with h | h
    · exact absurd (h3 ▸ h2) (hreach _ h)
    · exact h
  -- the mark
  have hmark0 : 1 ≤ m → (mark = some 0 ↔ (RuleAt rules [t] ∨ RuleAt rules [t, star])) := by
    intro h1
    have hM : Marked rules (name.take 1) ↔ (RuleAt rules [t] ∨ RuleAt rules [t, star]) := by
      rw [htop1]
      constructor
      · rintro (h | ⟨l, h, h'⟩)
        · exact .inl h
        · simp at h; subst h; exact .inr (hw.star_last (a := [t]) h')
      · rintro (h | h)
        · exact .inl h
        · exact .inr ⟨t, rfl, h.prefixAt⟩
    rw [← hM]
    constructor
    · rintro rfl
      cases hm with
      | «at» _ h _ => exact h
    · intro h
      cases hm with
      | none h' => exact absurd h (h' 0 h1)
      | @«at» e _ _ h' =>
        rcases Nat.eq_zero_or_pos e with rfl | he
        · rfl
        · exact absurd h (h' 0 he)
  have hpos : ∀ n, PublicSuffix rules name n → n ≠ 0 := fun n h => publicSuffix_pos hw hb h
  -- without rules that match
  by_cases hno : NoRuleMatches rules name
  · refine ⟨fun _ h => mishandled_matches h hno, fun _ => ⟨fun n hn => absurd hno (publicSuffix_not_none hn), fun _ => ?_⟩⟩
    cases hm with
    | none _ => rfl
    | @«at» e h1 h2 _ =>
      exfalso
      have hlen := hf.le
      rcases h2 with h2 | ⟨l, h2, h3⟩
      · exact hno.2 _ (htake_normal (e + 1) (by omega) (by omega) h2) (matches_take _ _)
      · have he : e = 0 := by
          have := congrArg List.length h2
          simp at this; omega
        subst he
        simp only [Nat.zero_add, htop1, List.cons.injEq, and_true] at h2
        subst h2
        have h3 := hw.star_last (a := [t]) h3
        have h3' : RuleAt rules (name.take 1 ++ [star]) := by rw [htop1]; exact h3
        -- the wildcard matches, unless the name has only one label
        rcases Nat.lt_or_ge 1 name.length with hl | hl
        · exact hno.2 _ (hstar_normal 1 h3') (matches_take_star hl)
        · have hcut : 1 ≤ cut := by cases hs <;> omega
          rcases hacc with h | h
          · simp at h
          · omega
  obtain ⟨n, hn⟩ := alg.resolve_left hno
  have hn0 := hpos n hn
  have huniq : ∀ n', PublicSuffix rules name n' → n' = n := fun n' h => publicSuffix_unique h hn
  -- the result is right iff ...
  have hL : ((∀ n, PublicSuffix rules name n → (mark = none ∧ n = 0) ∨ (mark = some 0 ∧ n = cut)) ∧
      (NoRuleMatches rules name → mark = none)) ↔ (mark = some 0 ∧ n = cut) := by
    constructor
    · rintro ⟨h, -⟩
      exact (h n hn).resolve_left fun h => hn0 h.2
    · intro h
      exact ⟨fun n' hn' => .inr (by rw [huniq n' hn']; exact h), fun h' => absurd h' hno⟩
  rw [hL]
  -- exceptions and wildcards of the specification, for the place where the walk stops
  have hwild : LeadsTo rules name m → RuleAt rules (name.take m ++ [star]) → ∀ l, name[m]? = some l →
      cut = (if RuleAt rules (name.take m ++ [33 :: l]) then m else m + 1) → 1 ≤ m →
      ((mark = some 0 ∧ n = cut) ↔ ¬ Mishandled rules name) := by
    intro hlead hst l hl hcut h1
    rw [hmark0 h1]
    constructor
    · rintro ⟨h2, h3⟩ hmis
      cases hmis with
      | top e1 e2 e3 _ =>
        rw [hhead] at e1
        injection e1 with e1
        subst e1
        exact h2.elim e2 e3
      | gap e1 _ _ e2 _ => rw [hlead.unique e1] at hst; exact e2 hst
      | shadow e1 e2 _ e3 e4 e5 =>
        obtain rfl := hlead.unique e1
        rw [hl] at e2
        injection e2 with e2
        subst e2
        rw [if_neg e3] at hcut
        rw [huniq _ e4] at e5
        omega
      | exception e1 e2 _ e3 e4 e5 =>
        obtain rfl := hlead.unique e1
        rw [hl] at e2
        injection e2 with e2
        subst e2
        rw [if_pos e3] at hcut
        rw [huniq _ e4] at e5
        omega
    · intro hmis
      refine ⟨?_, ?_⟩
      · refine Classical.byContradiction fun h => hmis (.top hhead (fun h' => h (.inl h')) (fun h' => h (.inr h')) hno)
      · refine Classical.byContradiction fun h => ?_
        by_cases hx : RuleAt rules (name.take m ++ [33 :: l])
        · rw [if_pos hx] at hcut
          exact hmis (.exception hlead hl hst hx hn (by omega))
        · rw [if_neg hx] at hcut
          exact hmis (.shadow hlead hl hst hx hn (by omega))
  -- the walk ends where nothing goes on
  have hclosed : (m < name.length → ¬ RuleAt rules (name.take m ++ [star]) ∧ ¬ PrefixAt rules (name.take (m + 1))) → cut = m →
      ((mark = some 0 ∧ n = cut) ↔ ¬ Mishandled rules name) := by
    intro hc hcut
    have hlead : LeadsTo rules name m := ⟨hf.le, hknown, hreach, fun h => .inr (hc h).2⟩
    have hrules : ∀ q, NormalAt rules q → Matches q name → ∃ k, 1 ≤ k ∧ k ≤ m ∧ q = name.take k := by
      intro q hq hmt
      rcases hnormal q hq hmt with ⟨k, k1, k2, rfl⟩ | ⟨j, j1, rfl⟩
      · refine ⟨k, k1, ?_, rfl⟩
        rcases Nat.lt_or_ge m k with h | h
        · have := hq.rule.prefixAt.take (m + 1)
          rw [List.take_take, Nat.min_eq_left (by omega)] at this
          exact absurd this (hc (by omega)).2
        · exact h
      · exfalso
        rcases Nat.lt_trichotomy j m with h | rfl | h
        · exact hreach j h hq.rule
        · exact (hc j1).1 hq.rule
        · have := (hq.rule.prefix (List.prefix_append _ _)).take (m + 1)
          rw [List.take_take, Nat.min_eq_left (by omega)] at this
          exact absurd this (hc (by omega)).2
    have hnoexc : ∀ e, ExceptionAt rules e → ¬ Matches e name := by
      intro e he hmt
      obtain ⟨j, x, -, h1, h2, -, h4⟩ := hexc e he hmt
      have hj := (List.getElem?_eq_some_iff.1 h1).1
      rcases Nat.lt_or_ge m j with h | h
      · have := (h4.prefix (List.prefix_append _ _)).take (m + 1)
        rw [List.take_take, Nat.min_eq_left (by omega)] at this
        exact absurd this (hc (by omega)).2
      · obtain rfl : j = m := by omega
        exact (hc hj).1 h4
    have hnm : n ≤ m ∧ 1 ≤ m := by
      rcases hn with ⟨e, e1, e2, -⟩ | ⟨-, q, q1, q2, q3, -⟩
      · exact absurd e2 (hnoexc e e1)
      · obtain ⟨k, k1, k2, rfl⟩ := hrules q q1 q2
        simp at q3
        omega
    have hnrule : n = m ↔ RuleAt rules (name.take m) := by
      rcases hn with ⟨e, e1, e2, -⟩ | ⟨-, q, q1, q2, q3, q4⟩
      · exact absurd e2 (hnoexc e e1)
      · constructor
        · intro h
          obtain ⟨k, k1, k2, rfl⟩ := hrules q q1 q2
          have hle := hf.le
          simp at q3
          have : k = m := by omega
          rw [← this]; exact q1.rule
        · intro h
          have := q4 _ (htake_normal m hnm.2 hf.le h) (matches_take _ _)
          have hle := hf.le
          simp at this
          omega
    rw [hmark0 hnm.2, hcut, hnrule]
    constructor
    · rintro ⟨h2, h3⟩ hmis
      cases hmis with
      | top e1 e2 e3 _ =>
        rw [hhead] at e1
        injection e1 with e1
        subst e1
        exact h2.elim e2 e3
      | gap e1 _ e2 _ _ => rw [← hlead.unique e1] at e2; exact e2 h3
      | shadow e1 e2 e3 =>
        obtain rfl := hlead.unique e1
        exact (hc (List.getElem?_eq_some_iff.1 e2).1).1 e3
      | exception e1 e2 e3 =>
        obtain rfl := hlead.unique e1
        exact (hc (List.getElem?_eq_some_iff.1 e2).1).1 e3
    · intro hmis
      have htop : RuleAt rules [t] ∨ RuleAt rules [t, star] :=
        Classical.byContradiction fun h => hmis (.top hhead (fun h' => h (.inl h')) (fun h' => h (.inr h')) hno)
      refine ⟨htop, Classical.byContradiction fun h => ?_⟩
      rcases hacc with h' | h'
      · rw [(hmark0 hnm.2).2 htop] at h'; simp at h'
      · have hlt : m < name.length := by omega
        exact hmis (.gap hlead hlt h (hc hlt).1 hno)
  cases hs with
  | all h =>
    refine hclosed (fun hlt => ?_) rfl
    have h := h.resolve_left (by omega)
    have hx : ∀ x, ¬ PrefixAt rules (name.take (_ + 1) ++ [x]) := fun x hx => h (.inr ⟨x, .inr hx⟩)
    refine ⟨fun h' => hx _ h'.prefixAt, fun h' => ?_⟩
    rw [List.take_add_one, List.getElem?_eq_getElem hlt] at h'
    exact hx _ h'
  | @unknown _ l _ h2 _ h4 h5 =>
    refine hclosed (fun hlt => ⟨fun h => h4 (hw.known_star.2 h), fun h => h5 (.inr h)⟩) rfl
  | @exception _ l h1 _ h3 h4 =>
    have h3 := hw.known_star.1 h3
    have h4 := hw.known_bang.1 h4
    have hm1 : 1 ≤ m := by
      rcases Nat.eq_zero_or_pos m with rfl | h
      · exact absurd (by simpa using h3) hb
      · exact h
    exact hwild ⟨hf.le, hknown, hreach, fun _ => .inl h3⟩ h3 l h1 (by rw [if_pos h4]) hm1
  | @wildcard _ l h1 _ h3 h4 =>
    have h3 := hw.known_star.1 h3
    rw [hw.known_bang] at h4
    have hm1 : 1 ≤ m := by
      rcases Nat.eq_zero_or_pos m with rfl | h
      · exact absurd (by simpa using h3) hb
      · exact h
    exact hwild ⟨hf.le, hknown, hreach, fun _ => .inl h3⟩ h3 l h1 (by rw [if_neg h4]) hm1

end

end Fasttld
