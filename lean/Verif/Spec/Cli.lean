import Verif.Spec.Log
import Verif.Spec.Print

/-!
# Specification: what the command shows
-/

namespace Fasttld.Spec
open Fasttld

/-- What is printed, in order. -/
def printed : List LEvent → List Chunk
  | [] => []
  | .effect (.print c) :: rest => c :: printed rest
  | _ :: rest => printed rest

/-- What is to be shown of a result: for every component its name, bright if there is a value and grey if not, and its value; then
the host type; then an empty line. -/
def shown (url : Bytes) (r : ExtractResult) : List Chunk :=
  (components url r).flatMap (fun c =>
    [⟨if c.2 = [] then [.fgHiBlack] else [.fgHiYellow, .bold], column c.1⟩, ⟨[.fgHiWhite], c.2 ++ [10]⟩]) ++
  [⟨if r.hostType = .none then [.fgHiBlack] else [.fgHiBlue, .bold], column (b! "host type")⟩,
   ⟨[.fgHiWhite], hostTypeName r.hostType ++ [10]⟩, ⟨[], [10]⟩]

/-- What is to be shown of an error, given its text. -/
def shownError : Option Bytes → List Chunk
  | none => []
  | some t => [⟨[.fgHiRed, .bold], b! "Error: "⟩, ⟨[.fgHiWhite], t ++ [10]⟩]

end Fasttld.Spec
