import Verif.Props.Source

/-!
# C80: reading a list, by the text

C78 for the functions of psl.go that read a list.  Their text is that of the file (C78_text, C79_others).
-/

namespace Fasttld.Props
open Fasttld Fasttld.GoLang

variable {w : Nat} (hw : 32 ≤ w) (idna : Idna) (texts : Lib) (isPrint : Nat → Bool)

include hw

/-- C80: a line. -/
theorem C80_line (rawLine : Bytes) (psl : Suffixes) (isPrivate : Bool) :
    RunsTo (sourceCtx w idna texts isPrint) .processLine [.str rawLine, .suffixes psl, .bool isPrivate]
      (.ok (.tuple [.suffixes (processLine idna rawLine psl isPrivate).1, .bool (processLine idna rawLine psl isPrivate).2])) :=
  runs_of hw 0 fun f _ => run_processLine f rawLine psl isPrivate

/-- C80: a list: the built-in one, and one that is read from a file.  Without the file, three empty lists and the error. -/
theorem C80_list :
    RunsTo (sourceCtx w idna texts isPrint) .getHardcodedPublicSuffixList []
      (.ok (.tuple [.suffixes (parsePSL idna texts.hardcodedPSL), .err none])) ∧
    (∀ path text, texts.readFile path = .ok text → RunsTo (sourceCtx w idna texts isPrint) .getPublicSuffixList [.str path]
      (.ok (.tuple [.suffixes (parsePSL idna text), .err none]))) ∧
    (∀ path e, texts.readFile path = .error e → RunsTo (sourceCtx w idna texts isPrint) .getPublicSuffixList [.str path]
      (.ok (.tuple [.suffixes ⟨[], [], []⟩, .err (some e)]))) := by
  refine ⟨runs_of hw 1 fun f hf => ?_, fun path text h => runs_of hw 1 fun f hf => ?_, fun path e h => runs_of hw 1 fun f hf => ?_⟩
  · obtain ⟨f, rfl⟩ : ∃ m, f = m + 1 := ⟨f - 1, by omega⟩
    exact run_getHardcodedPublicSuffixList f
  · obtain ⟨f, rfl⟩ : ∃ m, f = m + 1 := ⟨f - 1, by omega⟩
    have := run_getPublicSuffixList (c := tableCtx w idna texts isPrint) f path
    rw [tableCtx_texts, h] at this
    exact this
  · obtain ⟨f, rfl⟩ : ∃ m, f = m + 1 := ⟨f - 1, by omega⟩
    have := run_getPublicSuffixList (c := tableCtx w idna texts isPrint) f path
    rw [tableCtx_texts, h] at this
    exact this

/-- C80: the check of a text that was downloaded or found. -/
theorem C80_valid (contents : Bytes) :
    RunsTo (sourceCtx w idna texts isPrint) .validPSLDelimiters [.bytes contents] (.ok (.bool (validPSLDelimiters contents))) :=
  runs_of hw 0 fun f _ => run_validPSLDelimiters f contents

omit hw

/-! ## Concrete cases: the text, run -/

/-- The three lists and whether there is an error. -/
def readLists : Comp Val → Option (List Bytes × List Bytes × List Bytes × Bool)
  | .ok (.tuple [.suffixes p, .err e]) => some (p.publicSuffixes, p.privateSuffixes, p.allSuffixes, e.isSome)
  | _ => none

/-- IDNA that knows one name. -/
def pslIdna : Idna := { idId with toASCII := fun s => if s = [255] then none else if s = b! "ü" then some (b! "xn--tda") else some s }

/-- To run the text with; there is one file. -/
def pslCtx : Ctx := sourceCtx 64 pslIdna
  ⟨⟨fun _ => [], fun _ => []⟩, b! "a\n\n// ===BEGIN PRIVATE DOMAINS===\nb",
    fun path => if path = b! "f" then .ok (b! "\t*.ck \nü\n//x\n") else .error (b! "no")⟩ fun _ => true

example : readLists (call pslCtx Source.program 9 .getHardcodedPublicSuffixList []) = some ([b! "a"], [b! "b"], [b! "a", b! "b"], false) := by
  decide +kernel
example : readLists (call pslCtx Source.program 9 .getPublicSuffixList [.str (b! "f")]) =
    some ([b! "*.ck", b! "xn--tda", b! "ü"], [], [b! "*.ck", b! "xn--tda", b! "ü"], false) := by decide +kernel
example : readLists (call pslCtx Source.program 9 .getPublicSuffixList [.str (b! "g")]) = some ([], [], [], true) := by decide +kernel
-- a line that cannot be converted is left out
example : (match call pslCtx Source.program 9 .processLine [.str [32, 255], .suffixes ⟨[b! "a"], [], [b! "a"]⟩, .bool true] with
    | .ok (.tuple [.suffixes p, .bool b]) => some (p.allSuffixes, b)
    | _ => none) = some ([b! "a"], true) := by decide +kernel
example : boolOf (call pslCtx Source.program 9 .validPSLDelimiters [.bytes (b! "// ===BEGIN ICANN DOMAINS===")]) = some false ∧
    boolOf (call pslCtx Source.program 9 .validPSLDelimiters [.bytes
      (b! "// ===BEGIN ICANN DOMAINS===// ===END ICANN DOMAINS===// ===END PRIVATE DOMAINS===// ===BEGIN PRIVATE DOMAINS===")]) = some true := by
  decide +kernel

end Fasttld.Props
