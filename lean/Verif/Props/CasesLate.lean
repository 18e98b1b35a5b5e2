import Verif.Props.CasesSystem
import Verif.Props.Spelling
import Verif.Props.Texts
import Verif.Props.Gen

/-!
# More concrete cases

As Props/Cases.lean and Props/CasesSystem.lean: added because no case of these claims was false of some wrong program that was meant to break it.
-/

namespace Fasttld.Props
open Fasttld Fasttld.Spec

/-! ## C58 -/

/-- Parts of a name, with a list of two rules that are not in ASCII. -/
def chineseParts (url : Bytes) : Option (List Bytes) :=
  match extract punyIdna (trieOfText punyIdna false (b! "香港\n個人.香港\n")) { url := url } with
  | .ok (r, none) => some [r.subDomain, r.domain, r.suffix]
  | _ => none

example : chineseParts (b! "a.b.個人.香港") = some [b! "a", b! "b", b! "個人.香港"] ∧
    chineseParts (b! "a.b.xn--gmqw5a.xn--j6w193g") = some [b! "a", b! "b", b! "xn--gmqw5a.xn--j6w193g"] := by decide +kernel

/-! ## C60 -/

-- Update of an extractor with another file than that of the cache: nothing is asked, written or changed
example : let x := ((⟨b! "/x", buildTrie [b! "com", b! "net"], false⟩ : FastTLD).update idId builtin).exec (exWorld none)
    (x.1.2, suffixOf x.1.1 (b! "q.net"), x.2.2.filterMap urlOf, x.2.1.nodes 2) = (some .noOp, some (b! "net", none), [], none) := by decide +kernel

/-! ## C65 -/

-- a backslash in an escape is shown as two
example : (Err.badEscape (b! "%\\n")).text (fun r => 32 ≤ r && r < 127) = b! "invalid URL escape \"%\\\\n\"" := by decide +kernel

/-! ## C66 -/

-- no answer, an answer that ends too early, no file: gen.go fails, and the file stays as it was
example : genMain ⟨.failed, true, b! "now", fun _ => none⟩ (some (b! "old")) = (1, some (b! "old")) ∧
    genMain ⟨.status 200 (b! "com\n") false, true, b! "now", fun _ => none⟩ (some (b! "old")) = (1, some (b! "old")) ∧
    genMain ⟨.status 200 (b! "com\n") true, false, b! "now", fun _ => none⟩ (some (b! "old")) = (1, some (b! "old")) := by decide +kernel

end Fasttld.Props
