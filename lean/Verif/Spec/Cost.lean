import Verif.Model.Memory
import Verif.Spec.Rules

/-!
# Counting accesses to the trie
-/

namespace Fasttld.Spec

/-- Any number of accesses by any goroutines, `n` of them by goroutine `i`. -/
inductive StepsOf (i : Nat) : Nat → Sys → Sys → Prop
  | refl (s : Sys) : StepsOf i 0 s s
  | own {n : Nat} {s s' s'' : Sys} : StepsOf i n s s' → Step i s' s'' → StepsOf i (n + 1) s s''
  | other {n j : Nat} {s s' s'' : Sys} : StepsOf i n s s' → j ≠ i → Step j s' s'' → StepsOf i n s s''

/-- The access is a load. -/
def IsLoad {β : Type} : MOp β → Prop
  | .loadRoot | .get _ _ | .isEnd _ | .len _ => True
  | _ => False

/-- All accesses of the program are loads, whatever it finds in memory. -/
def OnlyLoads {α : Type} : MProg α → Prop
  | .ret _ => True
  | .call o k => IsLoad o ∧ ∀ b, OnlyLoads (k b)

/-- No rule of the list has more than `d` labels. -/
def RulesWithin (d : Nat) (rules : List Bytes) : Prop := ∀ p, RuleAt rules p → p.length ≤ d

end Fasttld.Spec
