import Verif.Model.Shared
import Verif.Spec.System

/-!
# Specification: several processes with one cache file
-/

namespace Fasttld.Spec
open Fasttld Shared

/-- What the place holds, apart from times and permissions. -/
def contentAt (w : World) (i : Nat) : Option (Option Bytes) :=
  match w.nodes i with
  | none => none
  | some (.dir _) => some none
  | some (.file f) => some (some f.content)

/-- What others do: the clock, the network, permissions, errors and all other files may change; names stay where they
are, nobody else touches the contents of the default cache file, and every list that is offered is `body`. -/
structure Undisturbed (body : Bytes) (w w' : World) : Prop where
  tmp : w'.tmp = w.tmp
  loc : w'.loc = w.loc
  abs : w'.absOf = w.absOf
  cache : contentAt w' (w.loc (defaultPath w)) = contentAt w (w.loc (defaultPath w))
  offers : OnlyOffers w' body

/-- What a process that has finished should have. -/
def Finishes (idna : Idna) (hard body : Bytes) (w : World) : Job → FastTLD → Option SysErr → Prop
  | .new n, x, err => err = none ∧ (Serves idna x hard ∨ Serves idna x body ∨
      (x.cacheFilePath = n.cacheFilePath ∧
        (Stripped n.cacheFilePath n.cacheFilePath → w.loc n.cacheFilePath ≠ w.loc (defaultPath w))))
  | .update f, x, err => (err = none ∧ Serves idna x body) ∨ (err ≠ none ∧ x = f)

end Fasttld.Spec
