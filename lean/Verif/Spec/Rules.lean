import Verif.Model.Go

/-!
# Specification: rules of the Public Suffix List

https://publicsuffix.org/list/, sections "Format" and "Algorithm".  Labels are listed from the right:
the top-level label first.
-/

namespace Fasttld.Spec
open Fasttld

/-- `ls` are the labels of `r`, from left to right: the pieces between the dots. -/
def IsLabels (r : Bytes) (ls : List Bytes) : Prop :=
  ls ≠ [] ∧ (∀ l ∈ ls, 46 ∉ l) ∧ r = List.intercalate [46] ls

/-- Some rule of the list has the labels `p`, from the right. -/
def RuleAt (rules : List Bytes) (p : List Bytes) : Prop := ∃ r ∈ rules, IsLabels r p.reverse

/-- Some rule of the list ends in the labels `p` (from the right) or is `p`. -/
def PrefixAt (rules : List Bytes) (p : List Bytes) : Prop := ∃ q, p <+: q ∧ RuleAt rules q

/-- The label `*`. -/
def star : Bytes := [42]

/-- A rule matches a name, both from the right: the name has at least as many labels, and every label of
the rule is `*` or equal to that of the name. -/
def Matches : (rule name : List Bytes) → Prop
  | [], _ => True
  | _ :: _, [] => False
  | x :: rule, d :: name => (x = star ∨ x = d) ∧ Matches rule name

/-- An exception rule, without its `!`, with labels `p`, from the right. -/
def ExceptionAt (rules : List Bytes) (p : List Bytes) : Prop := ∃ r, (33 :: r) ∈ rules ∧ IsLabels r p.reverse

/-- A rule without `!` with labels `p`, from the right. -/
def NormalAt (rules : List Bytes) (p : List Bytes) : Prop := ∃ r ∈ rules, r.head? ≠ some 33 ∧ IsLabels r p.reverse

/-- The public suffix of `name` has `n` labels: if an exception rule matches, the labels of the longest one
without its leftmost label; otherwise those of the longest matching rule. -/
def PublicSuffix (rules : List Bytes) (name : List Bytes) (n : Nat) : Prop :=
  (∃ p, ExceptionAt rules p ∧ Matches p name ∧ n + 1 = p.length ∧
    ∀ q, ExceptionAt rules q → Matches q name → q.length ≤ p.length) ∨
  ((∀ q, ExceptionAt rules q → ¬ Matches q name) ∧
    ∃ p, NormalAt rules p ∧ Matches p name ∧ n = p.length ∧
      ∀ q, NormalAt rules q → Matches q name → q.length ≤ p.length)

/-- No rule of the list matches `name`. -/
def NoRuleMatches (rules : List Bytes) (name : List Bytes) : Prop :=
  (∀ q, ExceptionAt rules q → ¬ Matches q name) ∧ ∀ q, NormalAt rules q → ¬ Matches q name

/-- There is no exception rule. -/
def NoExceptions (rules : List Bytes) : Prop := ∀ p l, ¬ PrefixAt rules (p ++ [33 :: l])

/-- Every top-level label of the list is itself a rule, or the parent of a wildcard. -/
def TopRules (rules : List Bytes) : Prop := ∀ l, PrefixAt rules [l] → RuleAt rules [l] ∨ PrefixAt rules [l, star]

/-- The condition on the list, for one top-level label. -/
def TopRuleFor (rules : List Bytes) (x : Bytes) : Prop := PrefixAt rules [x] → RuleAt rules [x] ∨ PrefixAt rules [x, star]

/-- Two lists have the same rules with the top-level label `x`. -/
def SameBelow (rules rules' : List Bytes) (x : Bytes) : Prop := ∀ p, RuleAt rules (x :: p) ↔ RuleAt rules' (x :: p)

/-- What the library needs of the rules that concern a name (decoded labels from the right) in order to follow the
algorithm of the Public Suffix List. -/
structure Regular (rules : List Bytes) (name : List Bytes) : Prop where
  /-- no label of the name begins with `!` -/
  plain : ∀ l ∈ name, l.head? ≠ some 33
  /-- there is no rule with a wildcard as top-level label -/
  noTop : ¬ PrefixAt rules [star]
  /-- no gaps: where longer rules exist, the name so far is itself a rule or the parent of a wildcard -/
  noGap : ∀ i, 1 ≤ i → i ≤ name.length → PrefixAt rules (name.take i) →
    RuleAt rules (name.take i) ∨ PrefixAt rules (name.take i ++ [star])
  /-- next to a wildcard there are no longer rules -/
  noShadow : ∀ i, i ≤ name.length → PrefixAt rules (name.take i ++ [star]) →
    ∀ q, RuleAt rules q → name.take i <+: q → q.length ≤ i + 1
  /-- exception rules that apply are exceptions to a wildcard -/
  exception : ∀ p, ExceptionAt rules p → Matches p name → ∃ q l, p = q ++ [l] ∧ l ≠ star ∧ PrefixAt rules (q ++ [star])

/-- The same with less: only what following the name in the rules meets. -/
structure Tame (rules : List Bytes) (name : List Bytes) : Prop where
  plain : ∀ l ∈ name, l.head? ≠ some 33
  noTop : ¬ PrefixAt rules [star]
  /-- no gaps, as long as no wildcard has been met -/
  noGap : ∀ i, 1 ≤ i → i ≤ name.length → (∀ j < i, ¬ PrefixAt rules (name.take j ++ [star])) →
    PrefixAt rules (name.take i) → RuleAt rules (name.take i) ∨ PrefixAt rules (name.take i ++ [star])
  /-- at the first wildcard: nothing goes on after it; and either there is an exception for the next label, and no longer
  exception goes on with that label, or there is none, and no longer rule goes on with that label -/
  noShadow : ∀ i l, name[i]? = some l → (∀ j < i, ¬ PrefixAt rules (name.take j ++ [star])) →
    PrefixAt rules (name.take i ++ [star]) →
    (∀ q, RuleAt rules q → name.take i ++ [star] <+: q → q.length ≤ i + 1) ∧
    ((RuleAt rules (name.take i ++ [33 :: l]) ∧
        ∀ q, ExceptionAt rules q → name.take i ++ [l] <+: q → q.length ≤ i + 1) ∨
     (¬ PrefixAt rules (name.take i ++ [33 :: l]) ∧
        ∀ q, RuleAt rules q → name.take i ++ [l] <+: q → q.length ≤ i + 1))
  exception : ∀ p, ExceptionAt rules p → Matches p name → ∃ q l, p = q ++ [l] ∧ l ≠ star ∧ PrefixAt rules (q ++ [star])

end Fasttld.Spec
