import Verif.Model.Memory
import Verif.Spec.Rules

/-!
# What memory holds

A pointer into memory is described by the paths of labels that can be followed from it and by the marks on them.
-/

namespace Fasttld

/-- The node at the end of a path of labels. -/
def Nodes.find (m : Nodes) : Ref → List Bytes → Option Ref
  | r, [] => (m r).map fun _ => r
  | r, l :: p => (m r).bind fun nd => (hget nd.kids l).bind fun y => m.find y p

/-- The path leads to a node with `end` set. -/
def Nodes.Marked (m : Nodes) (r : Ref) (p : List Bytes) : Prop :=
  ∃ x nd, m.find r p = some x ∧ m x = some nd ∧ nd.isEnd = true

/-- No pointer that can be reached from `r` dangles. -/
def Nodes.Closed (m : Nodes) (r : Ref) : Prop :=
  ∀ p x nd, m.find r p = some x → m x = some nd → ∀ e ∈ nd.kids, (m e.2).isSome = true

/-- The structure at `r` is the one for a list of suffixes: a path leads to a node iff it starts a suffix read
backwards, and the node is marked iff it is one, or a top-level label with a wildcard below it. -/
structure Spec.Holds (m : Nodes) (r : Ref) (rules : List Bytes) : Prop where
  paths : ∀ p, (m.find r p).isSome = true ↔ p = [] ∨ PrefixAt rules p
  marks : ∀ p, m.Marked r p ↔ RuleAt rules p ∨ ∃ l, p = [l] ∧ PrefixAt rules [l, star]
  closed : m.Closed r

/-- No two paths from `r` lead to the same node. -/
def Nodes.Unshared (m : Nodes) (r : Ref) : Prop :=
  ∀ p q x, m.find r p = some x → m.find r q = some x → p = q

/-- Every node of `m` is in `m'`, unchanged. -/
def Nodes.Sub (m m' : Nodes) : Prop := ∀ r nd, m r = some nd → m' r = some nd

end Fasttld
