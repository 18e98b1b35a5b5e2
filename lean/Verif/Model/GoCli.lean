import Verif.Model.GoSys

/-!
# The command `fasttld extract`, by the text

The function of cmd/fasttld/extract.go:25-36, run with the operating system (Model/GoSys.lean); and the same as a program that
logs and prints (Model/Log.lean), with the functions of the model in the place of the text.
-/

namespace Fasttld.GoLang
open Fasttld

/-- The values of the variables that the flags set (cmd/fasttld/extract.go:11, 40-42; github.com/spf13/cobra is left out). -/
def withFlags (c : Ctx) (includePrivateSuffix ignoreSubDomains toPunyCode : Bool) : Ctx :=
  { c with glob := fun
      | .includePrivateSuffix => .bool includePrivateSuffix
      | .ignoreSubDomains => .bool ignoreSubDomains
      | .toPunyCode => .bool toPunyCode
      | g => c.glob g }

/-- cmd/fasttld/extract.go:25-36: the text, run with these arguments.  The functions that it calls are those of package fasttld. -/
def runCommand (round : Rat → Rat) (c : Ctx) (fuel : Nat) (includePrivateSuffix ignoreSubDomains toPunyCode : Bool) (args : List Bytes) : EffX Val :=
  Source.Run_func.runX (withFlags c includePrivateSuffix ignoreSubDomains toPunyCode) (callSys round c fuel) fuel [.command, .strs args]

end Fasttld.GoLang

namespace Fasttld

/-- These pieces of text are printed. -/
def printAll : List Chunk → LProg Unit
  | [] => return ()
  | c :: cs => do
    (Effect.print c).run
    printAll cs

/-- cmd/fasttld/extract.go:25-36, after New has returned without an error. -/
def cliAfterNew (idna : Idna) (tx : IdnaTexts) (errText : Err → Bytes) (x : FastTLD) (e : URLParams) : LProg (Option (ExtractResult × Option Err)) := do
  logAll (extractLog idna tx e)                                                    -- :30
  match extract idna x.tldTrie e with
  | .ok (res, err) => printAll (cliPrint errText e.url res err); return some (res, err)
  | .error _ => return none

/-- cmd/fasttld/extract.go:25-36; without a result if New returns an error or Extract panics, which does not happen (`C36_new`,
`C01_extract`). -/
def cliL (idna : Idna) (tx : IdnaTexts) (hardcodedPSL : Bytes) (errText : Err → Bytes) (includePrivateSuffix : Bool) (e : URLParams) :
    LProg (FastTLD × Option (ExtractResult × Option Err)) := do
  let (x, err) ← newL idna tx hardcodedPSL ⟨[], includePrivateSuffix⟩              -- :26
  match err with
  | some _ => return (x, none)
  | none => return (x, ← cliAfterNew idna tx errText x e)

end Fasttld
