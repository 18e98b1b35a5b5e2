import Verif.Spec.Extract

/-!
# Specification: two lists that say the same along a name
-/

namespace Fasttld.Spec
open Fasttld

/-- Two lists say the same about the label at place `m` from the right: whether there is a wildcard (and, if so, an
exception for this label), whether rules go on with it, and then, whether a suffix can end there and whether there are
longer rules. -/
structure SameAt (rules rules' : List Bytes) (ls ds : List Bytes) (m : Nat) : Prop where
  star : Known rules (ds.take m ++ [star]) ↔ Known rules' (ds.take m ++ [star])
  exc : Known rules (ds.take m ++ [Spec.star]) → ∀ l, ls[m]? = some l →
    (Known rules (ds.take m ++ [33 :: l]) ↔ Known rules' (ds.take m ++ [33 :: l]))
  known : ¬ Known rules (ds.take m ++ [Spec.star]) → (Known rules (ds.take (m + 1)) ↔ Known rules' (ds.take (m + 1)))
  mark : ¬ Known rules (ds.take m ++ [Spec.star]) → Known rules (ds.take (m + 1)) →
    (Marked rules (ds.take (m + 1)) ↔ Marked rules' (ds.take (m + 1)))
  longer : ¬ Known rules (ds.take m ++ [Spec.star]) → Known rules (ds.take (m + 1)) →
    (Open rules (ds.take (m + 1)) ↔ Open rules' (ds.take (m + 1)))

/-- Two lists say the same about every label that is looked at under the first one. -/
def SameAlong (rules rules' : List Bytes) (ls ds : List Bytes) : Prop :=
  ∀ m < ls.length, Follows rules ls ds m → Open rules (ds.take m) → SameAt rules rules' ls ds m

/-- The labels `q` of a rule leave the name at a place where `rules` go on: at the next label they have neither the label
of the name, nor `*`, nor (if a wildcard applies there) the exception for it. -/
def TurnsAway (rules : List Bytes) (ls ds : List Bytes) (q : List Bytes) : Prop :=
  ∃ k x t, k ≤ ds.length ∧ q = ds.take k ++ x :: t ∧ Known rules (ds.take k) ∧ Open rules (ds.take k) ∧
    ds[k]? ≠ some x ∧ x ≠ star ∧
    (Known rules (ds.take k ++ [star]) → ∀ l, ls[k]? = some l → x ≠ 33 :: l)

end Fasttld.Spec
