import Verif.Proofs.Exact
import Verif.Proofs.Decide

/-!
# Deciding the conditions on the list, for concrete lists
-/

set_option linter.unusedSimpArgs false

namespace Fasttld
open Spec

instance {set : List Nat} {s : Bytes} : Decidable (FreeOf set s) := by unfold FreeOf; infer_instance
instance {s : Bytes} : Decidable (HostCharsOK s) := by unfold HostCharsOK; infer_instance
instance {l : Bytes} : Decidable (GoodLabel l) :=
  decidable_of_iff (l ≠ [] ∧ FreeOf separators l ∧ HostCharsOK l ∧ 37 ∉ l)
    ⟨fun h => ⟨h.1, h.2.1, h.2.2.1, h.2.2.2⟩, fun h => ⟨h.ne, h.free, h.chars, h.noEscape⟩⟩
instance {rules p} : Decidable (NormalAt rules p) := decidable_of_iff _ normalAt_mem.symm

/-- The leftmost label, checked. -/
def leftmostB (rules : List Bytes) (p : List Bytes) (l : Bytes) : Bool :=
  decide (GoodLabel l) || decide (l = star) ||
    match l with
    | 33 :: m => decide (GoodLabel m) && decide (RuleAt rules (p ++ [star]))
    | _ => false

/-- `WellFormed`, checked. -/
def wellFormedB (rules : List Bytes) : Bool :=
  (rules.map revLabels).all fun q => q.dropLast.all (fun x => decide (GoodLabel x)) &&
    match q.getLast? with
    | none => true
    | some l => leftmostB rules q.dropLast l

theorem wellFormedB_sound {rules : List Bytes} (h : wellFormedB rules = true) : WellFormed rules := by
  unfold wellFormedB at h
  simp only [List.all_eq_true, Bool.and_eq_true, decide_eq_true_eq] at h
  have key : ∀ p l, RuleAt rules (p ++ [l]) → (∀ x ∈ p, GoodLabel x) ∧ leftmostB rules p l = true := by
    intro p l hr
    have := h _ (ruleAt_iff.1 hr)
    simpa using this
  refine ⟨fun p l hr => (key p l hr).1, fun p l hr => ?_, fun p l hr => ?_⟩
  · have h1 := (key p l hr).2
    unfold leftmostB at h1
    simp only [Bool.or_eq_true, decide_eq_true_eq] at h1
    rcases h1 with (h1 | h1) | h1
    · exact .inl h1
    · exact .inr (.inl h1)
    · split at h1
      · simp only [Bool.and_eq_true, decide_eq_true_eq] at h1
        exact .inr (.inr ⟨_, rfl, h1.1⟩)
      · simp at h1
  · have h1 := (key p _ hr).2
    unfold leftmostB at h1
    simp only [Bool.or_eq_true, decide_eq_true_eq, Bool.and_eq_true] at h1
    rcases h1 with (h1 | h1) | h1
    · exact absurd h1 (goodLabel_bang l)
    · simp [star] at h1
    · exact h1.2

theorem reached_iff {rules p : List Bytes} : Reached rules p ↔ ∀ i < p.length, ¬ RuleAt rules (p.take i ++ [star]) := by
  constructor
  · intro h i hi
    refine h (p.take i) p[i] (p.drop (i + 1)) ?_
    rw [← List.drop_eq_getElem_cons hi, List.take_append_drop]
  · rintro h a x b rfl
    have := h a.length (by simp)
    simpa using this

instance {rules p} : Decidable (Reached rules p) := decidable_of_iff _ reached_iff.symm

theorem gapless_iff {rules : List Bytes} : Gapless rules ↔ ¬ RuleAt rules [star] ∧
    (∀ q ∈ rules.map revLabels, ∀ i < q.length, Reached rules (q.take (i + 1)) →
      RuleAt rules (q.take (i + 1)) ∨ RuleAt rules (q.take (i + 1) ++ [star])) ∧
    (∀ q ∈ rules.map revLabels, ∀ i < q.length - 1, Reached rules (q.take i) → RuleAt rules (q.take i ++ [star]) →
      RuleAt rules (q.take i ++ [33 :: q.getD i []]) ∧ NormalAt rules q) := by
  constructor
  · rintro ⟨h1, h2, h3⟩
    refine ⟨h1, fun q hq i hi hr => ?_, fun q hq i hi hr hs => ?_⟩
    · refine h2 _ ?_ hr ⟨q, List.take_prefix _ _, ruleAt_iff.2 hq⟩
      intro hc
      have := congrArg List.length hc
      simp at this
      rw [this] at hi; simp at hi
    · refine h3 _ _ q hr hs (ruleAt_iff.2 hq) ?_ (by simp; omega)
      have : q.take i ++ [q.getD i []] = q.take (i + 1) := by
        rw [List.take_add_one, List.getD_eq_getElem?_getD, List.getElem?_eq_getElem (by omega)]; simp
      rw [this]; exact List.take_prefix _ _
  · rintro ⟨h1, h2, h3⟩
    refine ⟨h1, ?_, ?_⟩
    · rintro p hne hr ⟨q, ⟨c, rfl⟩, hq⟩
      cases p with
      | nil => exact absurd rfl hne
      | cons x p =>
        have := h2 _ (ruleAt_iff.1 hq) p.length (by simp; omega)
        simp only [List.cons_append, List.take_succ_cons, List.take_left'] at this
        exact this hr
    · rintro p l q hr hs hq ⟨c, rfl⟩ hl
      have := h3 _ (ruleAt_iff.1 hq) p.length (by simp at hl ⊢; omega)
      simpa [List.getD_eq_getElem?_getD] using this (by simpa using hr) (by simpa using hs)

instance {rules} : Decidable (Gapless rules) := decidable_of_iff _ gapless_iff.symm

end Fasttld
