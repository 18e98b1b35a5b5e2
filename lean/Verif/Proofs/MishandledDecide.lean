import Verif.Proofs.Mishandled
import Verif.Proofs.ExactDecide

/-!
# Deciding which names are mishandled, for concrete lists
-/

namespace Fasttld
open Spec

instance {rules name m} : Decidable (LeadsTo rules name m) :=
  decidable_of_iff (m ≤ name.length ∧ (m = 0 ∨ PrefixAt rules (name.take m)) ∧
      (∀ j < m, ¬ RuleAt rules (name.take j ++ [star])) ∧
      (m < name.length → RuleAt rules (name.take m ++ [star]) ∨ ¬ PrefixAt rules (name.take (m + 1))))
    ⟨fun h => ⟨h.1, h.2.1, h.2.2.1, h.2.2.2⟩, fun h => ⟨h.le, h.known, h.reached, h.last⟩⟩

/-- The public suffix, if there is one, is not of length `k`. -/
def otherLen (rules name : List Bytes) (k : Nat) : Bool :=
  match publicSuffixLen rules name with
  | none => false
  | some n => n != k

theorem otherLen_iff {rules name k} : otherLen rules name k = true ↔ ∃ n, PublicSuffix rules name n ∧ n ≠ k := by
  unfold otherLen
  constructor
  · intro h
    split at h
    · simp at h
    · next n hn => exact ⟨n, publicSuffixLen_some.1 hn, by simpa using h⟩
  · rintro ⟨n, h1, h2⟩
    rw [publicSuffixLen_some.2 h1]
    simpa using h2

theorem mishandled_iff {rules name : List Bytes} : Mishandled rules name ↔
    (¬ NoRuleMatches rules name ∧ ((∃ t ∈ name.head?, ¬ RuleAt rules [t] ∧ ¬ RuleAt rules [t, star]) ∨
      ∃ m < name.length, LeadsTo rules name m ∧ ¬ RuleAt rules (name.take m) ∧ ¬ RuleAt rules (name.take m ++ [star]))) ∨
    ∃ m < name.length, LeadsTo rules name m ∧ RuleAt rules (name.take m ++ [star]) ∧
      ((¬ RuleAt rules (name.take m ++ [33 :: name.getD m []]) ∧ otherLen rules name (m + 1) = true) ∨
       (RuleAt rules (name.take m ++ [33 :: name.getD m []]) ∧ otherLen rules name m = true)) := by
  constructor
  · intro h
    cases h with
    | top h1 h2 h3 h4 => exact .inl ⟨h4, .inl ⟨_, h1, h2, h3⟩⟩
    | gap h1 h2 h3 h4 h5 => exact .inl ⟨h5, .inr ⟨_, h2, h1, h3, h4⟩⟩
    | shadow h1 h2 h3 h4 h5 h6 =>
      have hg : ∀ d, name.getD _ d = _ := fun d => by rw [List.getD_eq_getElem?_getD, h2]
      exact .inr ⟨_, (List.getElem?_eq_some_iff.1 h2).1, h1, h3, .inl ⟨by rw [hg]; exact h4, otherLen_iff.2 ⟨_, h5, h6⟩⟩⟩
    | exception h1 h2 h3 h4 h5 h6 =>
      have hg : ∀ d, name.getD _ d = _ := fun d => by rw [List.getD_eq_getElem?_getD, h2]
      exact .inr ⟨_, (List.getElem?_eq_some_iff.1 h2).1, h1, h3, .inr ⟨by rw [hg]; exact h4, otherLen_iff.2 ⟨_, h5, h6⟩⟩⟩
  · rintro (⟨h4, ⟨t, h1, h2, h3⟩ | ⟨m, h2, h1, h3, h5⟩⟩ | ⟨m, h2, h1, h3, ⟨h4, h5⟩ | ⟨h4, h5⟩⟩)
    · exact .top h1 h2 h3 h4
    · exact .gap h1 h2 h3 h5 h4
    · obtain ⟨n, h5, h6⟩ := otherLen_iff.1 h5
      exact .shadow h1 (by rw [List.getD_eq_getElem?_getD, List.getElem?_eq_getElem h2]; rfl) h3 h4 h5 h6
    · obtain ⟨n, h5, h6⟩ := otherLen_iff.1 h5
      exact .exception h1 (by rw [List.getD_eq_getElem?_getD, List.getElem?_eq_getElem h2]; rfl) h3 h4 h5 h6

instance {rules name} : Decidable (Mishandled rules name) := decidable_of_iff _ mishandled_iff.symm

end Fasttld
