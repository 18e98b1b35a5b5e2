import Verif.Spec.Exact

/-!
# Specification: the names for which the library does not follow the algorithm of the Public Suffix List
-/

namespace Fasttld.Spec
open Fasttld

/-- The first `m` labels from the right lead into the rules, and not further: some rule begins with them (unless `m` is
zero), there is no wildcard for one of them, and there is one for the next label, or no rule goes on with it. -/
structure LeadsTo (rules : List Bytes) (name : List Bytes) (m : Nat) : Prop where
  le : m ≤ name.length
  known : m = 0 ∨ PrefixAt rules (name.take m)
  reached : ∀ j < m, ¬ RuleAt rules (name.take j ++ [star])
  last : m < name.length → RuleAt rules (name.take m ++ [star]) ∨ ¬ PrefixAt rules (name.take (m + 1))

/-- The names that are not handled as the algorithm says.  In all cases some rule matches. -/
inductive Mishandled (rules : List Bytes) (name : List Bytes) : Prop
  /-- the top-level label is not a rule and has no wildcard below it -/
  | top {t} : name.head? = some t → ¬ RuleAt rules [t] → ¬ RuleAt rules [t, star] → ¬ NoRuleMatches rules name →
      Mishandled rules name
  /-- the name leads to a place that is not a rule, where longer rules do not go on with the next label -/
  | gap {m} : LeadsTo rules name m → m < name.length → ¬ RuleAt rules (name.take m) →
      ¬ RuleAt rules (name.take m ++ [star]) → ¬ NoRuleMatches rules name → Mishandled rules name
  /-- the name leads to a wildcard, but a longer rule decides -/
  | shadow {m l n} : LeadsTo rules name m → name[m]? = some l → RuleAt rules (name.take m ++ [star]) →
      ¬ RuleAt rules (name.take m ++ [33 :: l]) → PublicSuffix rules name n → n ≠ m + 1 → Mishandled rules name
  /-- the name leads to a wildcard with an exception for the next label, but a longer exception decides -/
  | exception {m l n} : LeadsTo rules name m → name[m]? = some l → RuleAt rules (name.take m ++ [star]) →
      RuleAt rules (name.take m ++ [33 :: l]) → PublicSuffix rules name n → n ≠ m → Mishandled rules name

/-- There is a wildcard for the label after the first `m` labels from the right, and the public suffix is not the one
that this wildcard and its exceptions give. -/
def Overruled (rules : List Bytes) (name : List Bytes) (m : Nat) : Prop :=
  ∃ l n, name[m]? = some l ∧ RuleAt rules (name.take m ++ [star]) ∧ PublicSuffix rules name n ∧
    ((¬ RuleAt rules (name.take m ++ [33 :: l]) ∧ n ≠ m + 1) ∨ (RuleAt rules (name.take m ++ [33 :: l]) ∧ n ≠ m))

/-- Conversion to ASCII by `f` keeps the labels of these rules apart, and gives labels that can occur in host names. -/
structure Faithful (f : Bytes → Bytes) (rules : List Bytes) : Prop where
  apart : ∀ r ∈ rules, ∀ r' ∈ rules, ∀ ls ls', IsLabels r ls → IsLabels r' ls' → ∀ l ∈ ls, ∀ l' ∈ ls', f l = f l' → l = l'
  good : ∀ r ∈ rules, ∀ ls, IsLabels r ls → ∀ l ∈ ls, ¬ (∀ b ∈ l, b < 128) → GoodLabel (f l)

/-- The name (labels from the right) begins with the labels `p` from the right, those of `g` as written or converted by `f`. -/
def EndsIn (f : Bytes → Bytes) (g : Bytes) (name p : List Bytes) : Prop :=
  p <+: name ∧ ∃ ls, IsLabels g ls ∧ (p = ls.reverse ∨ p = (ls.map f).reverse)

end Fasttld.Spec
