import Verif.Proofs.FilesText
import Verif.Props.Source

/-!
# C79: the text is that of the files

Model/Files.lean has the files, byte by byte; Model/GoLex.lean splits them into tokens.
-/

namespace Fasttld.Props
open Fasttld Fasttld.GoLang

/-- The functions with text of each file. -/
def stringsFns : List Fn :=
  [.makeASCIISet, .contains, .makeRuneSet, .getSchemeEndIndex, .indexAnyASCII, .hasInvalidChars, .lastIndexAny, .sepSize, .formatAsPunycode, .indexLastByteBefore, .fastTrim, .reverse]
def netFns : List Fn := [.dtoi, .xtoi, .isIPv4, .isIPv6]
def fasttldFns : List Fn := [.nestedDict, .trieConstruct, .Extract, .New]
def pslFns : List Fn :=
  [.processLine, .getPublicSuffixList, .getHardcodedPublicSuffixList, .newHardcodedPSL, .downloadFile, .fileLastModifiedHours, .update,
    .validPSLDelimiters, .checkCacheFile, .Update]
def printFns : List Fn := [.PrintRes]

/-- The tokens of these functions, as they are run. -/
def fnToks (fns : List Fn) : List (List Tok) := fns.filterMap fun fn => (Source.program fn).map Func.toks

/-- The declarations of strings.go: keyword and name. -/
def stringsNames : List (List String) :=
  [["package", "fasttld"], ["import"], ["const", "alphabets"], ["const", "numbers"], ["const", "labelSeparators"],
    ["const", "controlChars"], ["const", "whitespace"], ["const", "invalidHostNameChars"],
    ["const", "endOfHostWithPortDelimiters"], ["const", "endOfHostDelimiters"], ["const", "invalidUserInfoChars"],
    ["var", "numericSet"], ["var", "alphaNumericSet"], ["var", "endOfHostWithPortDelimitersSet"],
    ["var", "endOfHostDelimitersSet"], ["var", "invalidUserInfoCharsSet"], ["var", "schemeFirstCharSet"],
    ["var", "schemeRemainingCharSet"], ["var", "slashes"], ["type", "asciiSet"], ["func", "makeASCIISet"],
    ["func", "asciiSet", "contains"], ["var", "labelSeparatorsRuneSet"], ["var", "whitespaceRuneSet"],
    ["var", "invalidHostNameCharsRuneSet"], ["func", "makeRuneSet"], ["func", "getSchemeEndIndex"],
    ["func", "indexAnyASCII"], ["func", "hasInvalidChars"], ["func", "lastIndexAny"], ["func", "reverse"],
    ["func", "sepSize"], ["var", "idnaToPuny"], ["func", "formatAsPunycode"], ["func", "indexLastByteBefore"],
    ["type", "trimMode"], ["const", "trimBoth"], ["func", "fastTrim"]]

/-- The declarations of net.go. -/
def netNames : List (List String) :=
  [["package", "fasttld"], ["import"], ["const", "iPv4len"], ["const", "big"], ["func", "dtoi"], ["func", "xtoi"],
    ["func", "isIPv4"], ["func", "isIPv6"]]

/-- The declarations of fasttld.go. -/
def fasttldNames : List (List String) :=
  [["package", "fasttld"], ["import"], ["const", "defaultPSLFolder"], ["const", "defaultPSLFileName"],
    ["const", "largestPortNumber"], ["const", "pslMaxAgeHours"], ["type", "FastTLD"], ["type", "HostType"],
    ["const", "None"], ["type", "ExtractResult"], ["type", "SuffixListParams"], ["type", "URLParams"], ["type", "trie"],
    ["func", "nestedDict"], ["func", "trieConstruct"], ["func", "FastTLD", "Extract"], ["func", "New"]]

/-- The declarations of psl.go. -/
def pslNames : List (List String) :=
  [["package", "fasttld"], ["import"], ["var", "publicSuffixListSources"], ["type", "suffixes"],
    ["func", "processLine"], ["func", "getPublicSuffixList"], ["func", "getHardcodedPublicSuffixList"],
    ["func", "newHardcodedPSL"], ["func", "downloadFile"], ["func", "getCurrentFilePath"],
    ["func", "fileLastModifiedHours"], ["func", "update"], ["func", "validPSLDelimiters"], ["func", "checkCacheFile"],
    ["func", "FastTLD", "Update"]]

/-- The declarations of print.go. -/
def printNames : List (List String) := [["package", "fasttld"], ["import"], ["func", "PrintRes"]]

/-- A file splits into tokens, its declarations are these and no others, these are among them, and no statement of the file
assigns one of the variables of the package that hold sets of characters or the addresses of the list, takes its address,
or calls a method of it other than `contains` and `Exists`. -/
def FileIs (file : List Nat) (has : List (List Tok)) (names : List (List String)) : Prop :=
  ∃ ts ds, lexLines file = some ts ∧ ds = topLevel ts.length ts ∧ ds.flatten = ts ∧ (∀ d ∈ has, d ∈ ds) ∧ ds.map declName = names ∧
    readsOnly setNames (.op ";") ts = true

/-- C79: strings.go. -/
theorem C79_strings : FileIs Files.stringsGo (fnToks stringsFns ++ (Source.decls.take 21).map Decl.toks) stringsNames :=
  fileCheck_sound (by decide +kernel)

/-- C79: net.go. -/
theorem C79_net : FileIs Files.netGo (fnToks netFns ++ ((Source.decls.drop 21).take 2).map Decl.toks) netNames :=
  fileCheck_sound (by decide +kernel)

/-- C79: fasttld.go. -/
theorem C79_fasttld : FileIs Files.fasttldGo (fnToks fasttldFns ++ ((Source.decls.drop 23).take 4).map Decl.toks) fasttldNames :=
  fileCheck_sound (by decide +kernel)

/-- C79: psl.go and print.go. -/
theorem C79_others : FileIs Files.pslGo (fnToks pslFns ++ (Source.decls.drop 27).map Decl.toks) pslNames ∧ FileIs Files.printGo (fnToks printFns) printNames :=
  ⟨fileCheck_sound (by decide +kernel), fileCheck_sound (by decide +kernel)⟩

/-- C79: every function that is run is one of these. -/
theorem C79_all : (∀ fn f, Source.program fn = some f → fn ∈ stringsFns ++ netFns ++ fasttldFns ++ pslFns ++ printFns) ∧ Source.decls.length = 28 := by
  constructor
  · intro fn f h
    cases fn <;> first | (decide; done) | exact absurd h (by simp [Source.program])
  · decide

/-! ## Concrete cases of the lexer -/

example : lexLines (lines! r##"	if x := f(`/\?#`, "。\x41\"", 'a', '\n'); x&^0x1F != 010 { // no ; here"##) =
    some [.id "if", .id "x", .op ":=", .id "f", .op "(", .str [47, 92, 63, 35], .op ",", .str [227, 128, 130, 65, 34], .op ",", .chr 97,
      .op ",", .chr 10, .op ")", .op ";", .id "x", .op "&^", .int 31, .op "!=", .int 8, .op "{"] := by decide +kernel
example : lexLines (lines! "return\nx++\n} else\n") = some [.id "return", .op ";", .id "x", .op "++", .op ";", .op "}", .id "else"] := by
  decide +kernel
-- a string without end, a comment over several lines
example : lexLines (lines! "x = \"a") = none ∧ lexLines (lines! "/* a") = none := by decide +kernel
-- assignments are noticed
example : (lexLines (lines! "slashes = s\n")).map (readsOnly setNames (.op ";")) = some false ∧
    (lexLines (lines! "slashes, err = f(x)\n")).map (readsOnly setNames (.op ";")) = some false ∧
    (lexLines (lines! "err, publicSuffixListSources = f(x)\n")).map (readsOnly setNames (.op ";")) = some false ∧
    (lexLines (lines! "publicSuffixListSources[0] = x\n")).map (readsOnly setNames (.op ";")) = some false ∧
    (lexLines (lines! "f(&slashes)\n")).map (readsOnly setNames (.op ";")) = some false ∧
    (lexLines (lines! "whitespaceRuneSet.Set(r)\n")).map (readsOnly setNames (.op ";")) = some false ∧
    (lexLines (lines! "f(whitespaceRuneSet, slashes.contains(c))\n")).map (readsOnly setNames (.op ";")) = some true := by decide +kernel

end Fasttld.Props
