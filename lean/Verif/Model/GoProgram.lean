import Verif.Model.Source

/-!
# What the text means

The meaning (Model/GoLang.lean) of the text (Model/Source.lean), with the values that the declarations give to the
constants and variables of the package.
-/

namespace Fasttld.GoLang
open Fasttld

/-- What the text is run with: the size of `int`, the IDNA library and other things outside, the printable characters.
Functions that are called in the declarations do not need more fuel. -/
def sourceCtx (w : Nat) (idna : Idna) (texts : Lib) (isPrint : Nat → Bool) : Ctx :=
  let c : Ctx := { w := w, idna := idna, texts := texts, isPrint := isPrint, glob := fun _ => .tuple [] }
  c.withGlobals (globals c (call c Source.program 10) Source.decls)

/-- The function `fn` of the text, called with `xs`, ends with `v`: a value or a panic. -/
def RunsTo (c : Ctx) (fn : Fn) (xs : List Val) (v : Comp Val) : Prop :=
  ∃ N, ∀ fuel, N ≤ fuel → call c Source.program fuel fn xs = v

end Fasttld.GoLang
