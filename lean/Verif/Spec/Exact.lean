import Verif.Spec.Extract

/-!
# Specification: for which lists the library follows the algorithm of the Public Suffix List
-/

namespace Fasttld.Spec
open Fasttld

/-- A label as it can occur in a host name: not empty, no separator in it, nothing that the character check rejects, and
no escape. -/
structure GoodLabel (l : Bytes) : Prop where
  ne : l ≠ []
  free : FreeOf separators l
  chars : HostCharsOK l
  noEscape : 37 ∉ l

/-- The rules are as the format of the list wants them: the labels can occur in host names, except that the leftmost one
may be `*` or begin with `!`, and a rule with `!` is an exception to a rule with `*` in its place. -/
structure WellFormed (rules : List Bytes) : Prop where
  inner : ∀ p l, RuleAt rules (p ++ [l]) → ∀ x ∈ p, GoodLabel x
  leftmost : ∀ p l, RuleAt rules (p ++ [l]) → GoodLabel l ∨ l = star ∨ ∃ m, l = 33 :: m ∧ GoodLabel m
  exception : ∀ p l, RuleAt rules (p ++ [33 :: l]) → RuleAt rules (p ++ [star])

/-- No wildcard stands in the way when these labels are read from the right. -/
def Reached (rules : List Bytes) (p : List Bytes) : Prop := ∀ a x b, p = a ++ x :: b → ¬ RuleAt rules (a ++ [star])

/-- A condition on the list alone. -/
structure Gapless (rules : List Bytes) : Prop where
  /-- `*` alone is not a rule -/
  noBare : ¬ RuleAt rules [star]
  /-- no gaps: where longer rules exist there is a rule, or a rule with a wildcard one label longer -/
  noGap : ∀ p, p ≠ [] → Reached rules p → PrefixAt rules p → RuleAt rules p ∨ RuleAt rules (p ++ [star])
  /-- below a label that a wildcard stands for there are no rules, unless that label is an exception; then no exceptions -/
  noShadow : ∀ p l q, Reached rules p → RuleAt rules (p ++ [star]) → RuleAt rules q → p ++ [l] <+: q →
    p.length + 2 ≤ q.length → RuleAt rules (p ++ [33 :: l]) ∧ NormalAt rules q

/-- Only the letter `a`. -/
def OnlyA (l : Bytes) : Prop := l ≠ [] ∧ ∀ c ∈ l, c = 97

/-- A label of some rule, without `!`. -/
def LabelOf (rules : List Bytes) (l : Bytes) : Prop := ∃ p, RuleAt rules p ∧ (l ∈ p ∨ (33 :: l) ∈ p)

/-- The IDNA library accepts the names made of labels of the rules and of labels like `aaa`. -/
def AcceptsNames (idna : Idna) (rules : List Bytes) : Prop :=
  ∀ ls : List Bytes, (∀ l ∈ ls, GoodLabel l ∧ (LabelOf rules l ∨ OnlyA l)) → idna.toUnicodeErr (List.intercalate [46] ls) = none

end Fasttld.Spec
