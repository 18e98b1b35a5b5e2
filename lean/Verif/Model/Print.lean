import Verif.Model.System

/-!
# print.go, cmd/fasttld/extract.go, data/gen.go

Output is a list of pieces of text with the attributes they are printed with.  How github.com/fatih/color shows
the attributes (escape sequences, or nothing if the output is not a terminal) is left out.
-/

namespace Fasttld

/-- The attributes used (print.go:9-11, 79; extract.go:33-34). -/
inductive Attr
  | fgHiYellow | bold | fgHiBlack | fgHiWhite | fgHiBlue | fgHiRed
  deriving DecidableEq, Repr

/-- `color.New(attrs...).Print(text)`. -/
structure Chunk where
  attrs : List Attr
  text : Bytes
  deriving DecidableEq, Repr

/-- print.go:9 -/
def leftAttrsFilled : List Attr := [.fgHiYellow, .bold]
/-- print.go:10 -/
def leftAttrsBlank : List Attr := [.fgHiBlack]
/-- print.go:11 -/
def rightAttrs : List Attr := [.fgHiWhite]

/-- One `if len(value) != 0 … else …` and the `Println` after it, as in print.go:13-18. -/
def printComponent (label value : Bytes) : List Chunk :=
  [if value.length ≠ 0 then ⟨leftAttrsFilled, label⟩ else ⟨leftAttrsBlank, label⟩, ⟨rightAttrs, value ++ [10]⟩]

/-- print.go:8-93 `PrintRes`.  `HostType` has only its four named values here. -/
def printRes (url : Bytes) (res : ExtractResult) : List Chunk :=
  printComponent (b! "              url: ") url ++                      -- :13-18
  printComponent (b! "           scheme: ") res.scheme ++               -- :20-25
  printComponent (b! "         userinfo: ") res.userInfo ++             -- :27-32
  printComponent (b! "        subdomain: ") res.subDomain ++            -- :34-39
  printComponent (b! "           domain: ") res.domain ++               -- :41-46
  printComponent (b! "           suffix: ") res.suffix ++               -- :48-53
  printComponent (b! "registered domain: ") res.registeredDomain ++     -- :55-60
  printComponent (b! "             port: ") res.port ++                 -- :62-67
  printComponent (b! "             path: ") res.path ++                 -- :69-74
  [if res.hostType ≠ .none then ⟨[.fgHiBlue, .bold], b! "        host type: "⟩
   else ⟨leftAttrsBlank, b! "        host type: "⟩] ++                  -- :76-80
  [match res.hostType with                                              -- :81-90
   | .hostName => ⟨rightAttrs, b! "hostname\n"⟩
   | .iPv4 => ⟨rightAttrs, b! "ipv4 address\n"⟩
   | .iPv6 => ⟨rightAttrs, b! "ipv6 address\n"⟩
   | .none => ⟨rightAttrs, b! "\n"⟩] ++
  [⟨[], b! "\n"⟩]                                                       -- :92

/-- What `fasttld extract` does: exit with an error message, print, or (if Extract panics) die. -/
inductive CliOutcome
  | fatal (e : SysErr)
  | printed (out : List Chunk)
  | panic (f : Fault)

/-- The part of extract.go:30-36 after Extract; `errText` is the `Error` method of the errors (see
Model/Errors.lean). -/
def cliPrint (errText : Err → Bytes) (arg : Bytes) (res : ExtractResult) (err : Option Err) : List Chunk :=
  (match err with
   | some e => [⟨[.fgHiRed, .bold], b! "Error: "⟩, ⟨[.fgHiWhite], errText e ++ [10]⟩]   -- :31-34
   | none => []) ++
  printRes arg res                                                                     -- :35

/-- cmd/fasttld/extract.go:25-36, the `Run` function of `fasttld extract`; flag parsing by cobra is left out. -/
def cliExtract (idna : Idna) (hardcodedPSL : Bytes) (errText : Err → Bytes)
    (includePrivateSuffix ignoreSubDomains toPunyCode : Bool) (arg : Bytes) : Prog CliOutcome := do
  let (extractor, err) ← new idna hardcodedPSL ⟨[], includePrivateSuffix⟩              -- :26
  match err with
  | some e => return .fatal e                                                          -- :27-29
  | none =>
    match extract idna extractor.tldTrie ⟨arg, ignoreSubDomains, toPunyCode⟩ with      -- :30
    | .error f => return .panic f
    | .ok (res, err) => return .printed (cliPrint errText arg res err)

/-- data/gen.go:56-64: the template before the list. -/
def fallbackHeader (timestamp url : Bytes) : Bytes :=
  b! "package fasttld\n\n// Code generated by go generate; DO NOT EDIT.\n// This file was generated by robots at\n// " ++
  timestamp ++ b! "\n// using data from\n// " ++ url ++ b! "\n\nconst hardcodedPSL string = "

/-- data/gen.go:56-64: the template, filled in (text/template copies the values verbatim). -/
def fallbackFile (timestamp url content : Bytes) : Bytes :=
  fallbackHeader timestamp url ++ [96] ++ content ++ [96] ++ b! "\n"

end Fasttld
