import Verif.Model.GoText

/-!
# The text of the functions behind Extract

Written by tools/gen_source.py from strings.go, net.go and fasttld.go; `gen_source.py --check` compares.  For each function
its statements in the syntax of Model/GoLang.lean, and the tokens of the file.  The theorems say that these belong
together, and that the places of variables are right (Model/GoText.lean).
-/

namespace Fasttld.GoLang.Source
open Fasttld Fasttld.GoLang

/-- The constants and variables of the package that the functions use (strings.go, net.go, fasttld.go). -/
def decls : List Decl :=
  [(.const .alphabets .string (.strLit [65, 66, 67, 68, 69, 70, 71, 72, 73, 74, 75, 76, 77, 78, 79, 80, 81, 82, 83, 84, 85,
   86, 87, 88, 89, 90, 97, 98, 99, 100, 101, 102, 103, 104, 105, 106, 107, 108, 109, 110, 111, 112, 113, 114, 115, 116, 117,
   118, 119, 120, 121, 122])),
   (.const .numbers .string (.strLit [48, 49, 50, 51, 52, 53, 54, 55, 56, 57])),
   (.const .labelSeparators .string (.strLit [46, 227, 128, 130, 239, 188, 142, 239, 189, 161])),
   (.const .controlChars .string (.bin .add (.strLit [0, 1, 2, 3, 4, 5, 6, 7, 8, 9, 10, 11, 12, 13, 14, 15]) (.strLit [16,
   17, 18, 19, 20, 21, 22, 23, 24, 25, 26, 27, 28, 29, 30, 31]))),
   (.const .whitespace .string (.bin .add (.glob .controlChars) (.strLit [32, 194, 133, 194, 134, 194, 160, 225, 154, 128,
   226, 128, 139, 226, 128, 140, 226, 128, 141, 239, 187, 191]))),
   (.const .invalidHostNameChars .string (.bin .add (.glob .whitespace) (.strLit [33, 34, 35, 36, 38, 39, 40, 41, 42, 43, 44,
   47, 58, 59, 60, 61, 62, 63, 64, 91, 92, 93, 94, 95, 96, 123, 124, 125, 126, 205, 184, 211, 128, 219, 157, 225, 160, 142,
   226, 128, 165, 226, 128, 174, 226, 129, 171, 226, 134, 131, 226, 169, 180, 226, 191, 176, 239, 183, 144, 239, 188, 133,
   239, 188, 143, 239, 188, 154, 239, 191, 186]))),
   (.const .endOfHostWithPortDelimiters .string (.strLit [47, 92, 63, 35])),
   (.const .endOfHostDelimiters .string (.bin .add (.glob .endOfHostWithPortDelimiters) (.strLit [58]))),
   (.const .invalidUserInfoChars .string (.bin .add (.glob .endOfHostWithPortDelimiters) (.strLit [91, 93]))),
   (.var .numericSet .asciiSet (.call .makeASCIISet [(.glob .numbers)])),
   (.var .alphaNumericSet .asciiSet (.call .makeASCIISet [(.bin .add (.glob .alphabets) (.glob .numbers))])),
   (.var .endOfHostWithPortDelimitersSet .asciiSet (.call .makeASCIISet [(.glob .endOfHostWithPortDelimiters)])),
   (.var .endOfHostDelimitersSet .asciiSet (.call .makeASCIISet [(.glob .endOfHostDelimiters)])),
   (.var .invalidUserInfoCharsSet .asciiSet (.call .makeASCIISet [(.glob .invalidUserInfoChars)])),
   (.var .schemeFirstCharSet .asciiSet (.call .makeASCIISet [(.glob .alphabets)])),
   (.var .schemeRemainingCharSet .asciiSet (.call .makeASCIISet [(.bin .add (.bin .add (.glob .alphabets) (.glob .numbers))
   (.strLit [43, 45, 46]))])),
   (.var .slashes .asciiSet (.call .makeASCIISet [(.strLit [47, 92])])),
   (.var .labelSeparatorsRuneSet .intsetRune (.call .makeRuneSet [(.glob .labelSeparators)])),
   (.var .whitespaceRuneSet .intsetRune (.call .makeRuneSet [(.glob .whitespace)])),
   (.var .invalidHostNameCharsRuneSet .intsetRune (.call .makeRuneSet [(.glob .invalidHostNameChars)])),
   (.iota .trimMode [.trimBoth, .trimLeft, .trimRight]),
   (.group [(.iPv4len, some .int, (.intLit 4)), (.iPv6len, some .int, (.intLit 16)), (.lenDiff, none, (.bin .sub (.glob
   .iPv6len) (.glob .iPv4len)))]),
   (.const .big .int (.intLit 16777215)),
   (.const .defaultPSLFileName .string (.strLit [112, 117, 98, 108, 105, 99, 95, 115, 117, 102, 102, 105, 120, 95, 108, 105,
   115, 116, 46, 100, 97, 116])),
   (.const .largestPortNumber .int (.intLit 65535)),
   (.const .pslMaxAgeHours .float64 (.intLit 72)),
   (.iota .HostType [.None, .HostName, .IPv4, .IPv6]),
   (.strings .publicSuffixListSources [[104, 116, 116, 112, 115, 58, 47, 47, 112, 117, 98, 108, 105, 99, 115, 117, 102, 102,
   105, 120, 46, 111, 114, 103, 47, 108, 105, 115, 116, 47, 112, 117, 98, 108, 105, 99, 95, 115, 117, 102, 102, 105, 120, 95,
   108, 105, 115, 116, 46, 100, 97, 116], [104, 116, 116, 112, 115, 58, 47, 47, 114, 97, 119, 46, 103, 105, 116, 104, 117,
   98, 117, 115, 101, 114, 99, 111, 110, 116, 101, 110, 116, 46, 99, 111, 109, 47, 112, 117, 98, 108, 105, 99, 115, 117, 102,
   102, 105, 120, 47, 108, 105, 115, 116, 47, 109, 97, 115, 116, 101, 114, 47, 112, 117, 98, 108, 105, 99, 95, 115, 117, 102,
   102, 105, 120, 95, 108, 105, 115, 116, 46, 100, 97, 116]])]

/-- Their tokens. -/
def decls_tokens : List Tok :=
  [.id "const", .id "alphabets", .id "string", .op "=", .str [65, 66, 67, 68, 69, 70, 71, 72, 73, 74, 75, 76, 77, 78, 79, 80,
   81, 82, 83, 84, 85, 86, 87, 88, 89, 90, 97, 98, 99, 100, 101, 102, 103, 104, 105, 106, 107, 108, 109, 110, 111, 112, 113,
   114, 115, 116, 117, 118, 119, 120, 121, 122], .op ";", .id "const", .id "numbers", .id "string", .op "=", .str [48, 49,
   50, 51, 52, 53, 54, 55, 56, 57], .op ";", .id "const", .id "labelSeparators", .id "string", .op "=", .str [46, 227, 128,
   130, 239, 188, 142, 239, 189, 161], .op ";", .id "const", .id "controlChars", .id "string", .op "=", .str [0, 1, 2, 3, 4,
   5, 6, 7, 8, 9, 10, 11, 12, 13, 14, 15], .op "+", .str [16, 17, 18, 19, 20, 21, 22, 23, 24, 25, 26, 27, 28, 29, 30, 31],
   .op ";", .id "const", .id "whitespace", .id "string", .op "=", .id "controlChars", .op "+", .str [32, 194, 133, 194, 134,
   194, 160, 225, 154, 128, 226, 128, 139, 226, 128, 140, 226, 128, 141, 239, 187, 191], .op ";", .id "const", .id
   "invalidHostNameChars", .id "string", .op "=", .id "whitespace", .op "+", .str [33, 34, 35, 36, 38, 39, 40, 41, 42, 43,
   44, 47, 58, 59, 60, 61, 62, 63, 64, 91, 92, 93, 94, 95, 96, 123, 124, 125, 126, 205, 184, 211, 128, 219, 157, 225, 160,
   142, 226, 128, 165, 226, 128, 174, 226, 129, 171, 226, 134, 131, 226, 169, 180, 226, 191, 176, 239, 183, 144, 239, 188,
   133, 239, 188, 143, 239, 188, 154, 239, 191, 186], .op ";", .id "const", .id "endOfHostWithPortDelimiters", .id "string",
   .op "=", .str [47, 92, 63, 35], .op ";", .id "const", .id "endOfHostDelimiters", .id "string", .op "=", .id
   "endOfHostWithPortDelimiters", .op "+", .str [58], .op ";", .id "const", .id "invalidUserInfoChars", .id "string", .op
   "=", .id "endOfHostWithPortDelimiters", .op "+", .str [91, 93], .op ";", .id "var", .id "numericSet", .id "asciiSet", .op
   "=", .id "makeASCIISet", .op "(", .id "numbers", .op ")", .op ";", .id "var", .id "alphaNumericSet", .id "asciiSet", .op
   "=", .id "makeASCIISet", .op "(", .id "alphabets", .op "+", .id "numbers", .op ")", .op ";", .id "var", .id
   "endOfHostWithPortDelimitersSet", .id "asciiSet", .op "=", .id "makeASCIISet", .op "(", .id "endOfHostWithPortDelimiters",
   .op ")", .op ";", .id "var", .id "endOfHostDelimitersSet", .id "asciiSet", .op "=", .id "makeASCIISet", .op "(", .id
   "endOfHostDelimiters", .op ")", .op ";", .id "var", .id "invalidUserInfoCharsSet", .id "asciiSet", .op "=", .id
   "makeASCIISet", .op "(", .id "invalidUserInfoChars", .op ")", .op ";", .id "var", .id "schemeFirstCharSet", .id
   "asciiSet", .op "=", .id "makeASCIISet", .op "(", .id "alphabets", .op ")", .op ";", .id "var", .id
   "schemeRemainingCharSet", .id "asciiSet", .op "=", .id "makeASCIISet", .op "(", .id "alphabets", .op "+", .id "numbers",
   .op "+", .str [43, 45, 46], .op ")", .op ";", .id "var", .id "slashes", .id "asciiSet", .op "=", .id "makeASCIISet", .op
   "(", .str [47, 92], .op ")", .op ";", .id "var", .id "labelSeparatorsRuneSet", .op "*", .id "intset", .op ".", .id "Rune",
   .op "=", .id "makeRuneSet", .op "(", .id "labelSeparators", .op ")", .op ";", .id "var", .id "whitespaceRuneSet", .op "*",
   .id "intset", .op ".", .id "Rune", .op "=", .id "makeRuneSet", .op "(", .id "whitespace", .op ")", .op ";", .id "var", .id
   "invalidHostNameCharsRuneSet", .op "*", .id "intset", .op ".", .id "Rune", .op "=", .id "makeRuneSet", .op "(", .id
   "invalidHostNameChars", .op ")", .op ";", .id "const", .op "(", .id "trimBoth", .id "trimMode", .op "=", .id "iota", .op
   ";", .id "trimLeft", .op ";", .id "trimRight", .op ";", .op ")", .op ";", .id "const", .op "(", .id "iPv4len", .id "int",
   .op "=", .int 4, .op ";", .id "iPv6len", .id "int", .op "=", .int 16, .op ";", .id "lenDiff", .op "=", .id "iPv6len", .op
   "-", .id "iPv4len", .op ";", .op ")", .op ";", .id "const", .id "big", .id "int", .op "=", .int 16777215, .op ";", .id
   "const", .id "defaultPSLFileName", .id "string", .op "=", .str [112, 117, 98, 108, 105, 99, 95, 115, 117, 102, 102, 105,
   120, 95, 108, 105, 115, 116, 46, 100, 97, 116], .op ";", .id "const", .id "largestPortNumber", .id "int", .op "=", .int
   65535, .op ";", .id "const", .id "pslMaxAgeHours", .id "float64", .op "=", .int 72, .op ";", .id "const", .op "(", .id
   "None", .id "HostType", .op "=", .id "iota", .op ";", .id "HostName", .op ";", .id "IPv4", .op ";", .id "IPv6", .op ";",
   .op ")", .op ";", .id "var", .id "publicSuffixListSources", .op "=", .op "[", .op "]", .id "string", .op "{", .str [104,
   116, 116, 112, 115, 58, 47, 47, 112, 117, 98, 108, 105, 99, 115, 117, 102, 102, 105, 120, 46, 111, 114, 103, 47, 108, 105,
   115, 116, 47, 112, 117, 98, 108, 105, 99, 95, 115, 117, 102, 102, 105, 120, 95, 108, 105, 115, 116, 46, 100, 97, 116], .op
   ",", .str [104, 116, 116, 112, 115, 58, 47, 47, 114, 97, 119, 46, 103, 105, 116, 104, 117, 98, 117, 115, 101, 114, 99,
   111, 110, 116, 101, 110, 116, 46, 99, 111, 109, 47, 112, 117, 98, 108, 105, 99, 115, 117, 102, 102, 105, 120, 47, 108,
   105, 115, 116, 47, 109, 97, 115, 116, 101, 114, 47, 112, 117, 98, 108, 105, 99, 95, 115, 117, 102, 102, 105, 120, 95, 108,
   105, 115, 116, 46, 100, 97, 116], .op ",", .op "}", .op ";"]

theorem decls_text : decls.flatMap Decl.toks = decls_tokens := by decide +kernel

/-- strings.go:53-60: the body of a loop. -/
def makeASCIISet_loop1 : Stmt :=
  (.seq (.ite .skip (.bin .lt (.var 2 "c") .runeSelf) (.seq (.assignIndexOp .bitOr 1 "as" (.bin .div (.var 2 "c") (.intLit
  32)) (.bin .shl (.intLit 1) (.paren (.bin .mod (.var 2 "c") (.intLit 32))))) .skip) .skip) .skip)

/-- strings.go:53-60, statement 1. -/
def makeASCIISet_1 : Stmt :=
  (.range "_" "c" (.var 0 "chars") makeASCIISet_loop1)

/-- strings.go:53-60, statement 2. -/
def makeASCIISet_2 : Stmt :=
  (.ret [(.var 1 "as")])

/-- strings.go:53-60 -/
def makeASCIISet_func : Func where
  fn := .makeASCIISet
  params := [("chars", .string)]
  results := [(some "as", .asciiSet)]
  body := .seq makeASCIISet_1 <| .seq makeASCIISet_2 <| .skip

/-- strings.go:53-60 -/
def makeASCIISet_tokens : List Tok :=
  [.id "func", .id "makeASCIISet", .op "(", .id "chars", .id "string", .op ")", .op "(", .id "as", .id "asciiSet", .op ")",
   .op "{", .id "for", .id "_", .op ",", .id "c", .op ":=", .id "range", .id "chars", .op "{", .id "if", .id "c", .op "<",
   .id "utf8", .op ".", .id "RuneSelf", .op "{", .id "as", .op "[", .id "c", .op "/", .int 32, .op "]", .op "|=", .int 1, .op
   "<<", .op "(", .id "c", .op "%", .int 32, .op ")", .op ";", .op "}", .op ";", .op "}", .op ";", .id "return", .id "as",
   .op ";", .op "}", .op ";"]

theorem makeASCIISet_text : makeASCIISet_func.toks = makeASCIISet_tokens := by decide +kernel

theorem makeASCIISet_scoped : makeASCIISet_func.scoped = true := by decide +kernel

/-- strings.go:65-67, statement 1. -/
def contains_1 : Stmt :=
  (.ret [(.bin .ne (.paren (.bin .bitAnd (.index (.var 0 "as") (.bin .div (.var 1 "c") (.intLit 32))) (.paren (.bin .shl
  (.intLit 1) (.paren (.bin .mod (.var 1 "c") (.intLit 32))))))) (.intLit 0))])

/-- strings.go:65-67 -/
def contains_func : Func where
  fn := .contains
  recv := some ("as", .asciiSetPtr)
  params := [("c", .byte)]
  results := [(none, .bool)]
  body := .seq contains_1 <| .skip

/-- strings.go:65-67 -/
def contains_tokens : List Tok :=
  [.id "func", .op "(", .id "as", .op "*", .id "asciiSet", .op ")", .id "contains", .op "(", .id "c", .id "byte", .op ")",
   .id "bool", .op "{", .id "return", .op "(", .id "as", .op "[", .id "c", .op "/", .int 32, .op "]", .op "&", .op "(", .int
   1, .op "<<", .op "(", .id "c", .op "%", .int 32, .op ")", .op ")", .op ")", .op "!=", .int 0, .op ";", .op "}", .op ";"]

theorem contains_text : contains_func.toks = contains_tokens := by decide +kernel

theorem contains_scoped : contains_func.scoped = true := by decide +kernel

/-- strings.go:76-89: the body of a loop. -/
def makeRuneSet_loop1 : Stmt :=
  (.seq (.ite .skip (.bin .or (.bin .eq (.var 3 "idx") (.intLit 0)) (.bin .gt (.var 4 "r") (.var 2 "biggestRune"))) (.seq
  (.assign [(.var 2 "biggestRune")] [(.var 4 "r")]) .skip) .skip) .skip)

/-- strings.go:76-89: the body of a loop. -/
def makeRuneSet_loop2 : Stmt :=
  (.seq (.setMethod 1 "iset" (.var 3 "r")) .skip)

/-- strings.go:76-89, statement 1. -/
def makeRuneSet_1 : Stmt :=
  (.declare ["biggestRune"] .rune)

/-- strings.go:76-89, statement 2. -/
def makeRuneSet_2 : Stmt :=
  (.range "idx" "r" (.var 0 "s") makeRuneSet_loop1)

/-- strings.go:76-89, statement 3. -/
def makeRuneSet_3 : Stmt :=
  (.assign [(.var 1 "iset")] [(.call .NewRune [(.var 2 "biggestRune")])])

/-- strings.go:76-89, statement 4. -/
def makeRuneSet_4 : Stmt :=
  (.range "_" "r" (.var 0 "s") makeRuneSet_loop2)

/-- strings.go:76-89, statement 5. -/
def makeRuneSet_5 : Stmt :=
  (.retNamed [1] ["iset"])

/-- strings.go:76-89 -/
def makeRuneSet_func : Func where
  fn := .makeRuneSet
  params := [("s", .string)]
  results := [(some "iset", .intsetRune)]
  body := .seq makeRuneSet_1 <| .seq makeRuneSet_2 <| .seq makeRuneSet_3 <| .seq makeRuneSet_4 <| .seq makeRuneSet_5 <| .skip

/-- strings.go:76-89 -/
def makeRuneSet_tokens : List Tok :=
  [.id "func", .id "makeRuneSet", .op "(", .id "s", .id "string", .op ")", .op "(", .id "iset", .op "*", .id "intset", .op
   ".", .id "Rune", .op ")", .op "{", .id "var", .id "biggestRune", .id "rune", .op ";", .id "for", .id "idx", .op ",", .id
   "r", .op ":=", .id "range", .id "s", .op "{", .id "if", .id "idx", .op "==", .int 0, .op "||", .id "r", .op ">", .id
   "biggestRune", .op "{", .id "biggestRune", .op "=", .id "r", .op ";", .op "}", .op ";", .op "}", .op ";", .id "iset", .op
   "=", .id "intset", .op ".", .id "NewRune", .op "(", .id "biggestRune", .op ")", .op ";", .id "for", .id "_", .op ",", .id
   "r", .op ":=", .id "range", .id "s", .op "{", .id "iset", .op ".", .id "Set", .op "(", .id "r", .op ")", .op ";", .op "}",
   .op ";", .id "return", .op ";", .op "}", .op ";"]

theorem makeRuneSet_text : makeRuneSet_func.toks = makeRuneSet_tokens := by decide +kernel

theorem makeRuneSet_scoped : makeRuneSet_func.scoped = true := by decide +kernel

/-- strings.go:95-145: the body of a loop. -/
def getSchemeEndIndex_loop1 : Stmt :=
  (.seq (.ite .skip (.bin .eq (.var 3 "i") (.intLit 0)) (.seq (.ite .skip (.call .contains [(.glob .schemeFirstCharSet),
  (.index (.var 0 "s") (.var 3 "i"))]) (.seq .cont .skip) .skip) (.seq (.ite .skip (.call .contains [(.glob .slashes),
  (.index (.var 0 "s") (.var 3 "i"))]) (.seq (.incr 2 "slashCount") (.seq .cont .skip)) .skip) (.seq (.ret [(.neg (.intLit
  1))]) .skip))) .skip) (.seq (.ite .skip (.bin .eq (.var 2 "slashCount") (.intLit 0)) (.seq (.ite .skip (.not (.var 1
  "colon")) (.seq (.ite .skip (.call .contains [(.glob .schemeRemainingCharSet), (.index (.var 0 "s") (.var 3 "i"))]) (.seq
  .cont .skip) .skip) (.seq (.ite .skip (.bin .eq (.index (.var 0 "s") (.var 3 "i")) (.charLit 58)) (.seq (.assign [(.var 1
  "colon")] [(.boolLit true)]) (.seq .cont .skip)) .skip) .skip)) .skip) (.seq (.ite .skip (.call .contains [(.glob
  .slashes), (.index (.var 0 "s") (.var 3 "i"))]) (.seq (.incr 2 "slashCount") (.seq .cont .skip)) .skip) (.seq (.ret [(.neg
  (.intLit 1))]) .skip))) .skip) (.seq (.ite .skip (.call .contains [(.glob .slashes), (.index (.var 0 "s") (.var 3 "i"))])
  (.seq (.incr 2 "slashCount") (.seq .cont .skip)) .skip) (.seq (.ite .skip (.bin .lt (.var 2 "slashCount") (.intLit 2))
  (.seq (.ret [(.neg (.intLit 1))]) .skip) .skip) (.seq (.ret [(.var 3 "i")]) .skip)))))

/-- strings.go:95-145, statement 1. -/
def getSchemeEndIndex_1 : Stmt :=
  (.declare ["colon"] .bool)

/-- strings.go:95-145, statement 2. -/
def getSchemeEndIndex_2 : Stmt :=
  (.declare ["slashCount"] .int)

/-- strings.go:95-145, statement 3. -/
def getSchemeEndIndex_3 : Stmt :=
  (.loop (.define ["i"] [(.intLit 0)]) (.bin .lt (.var 3 "i") (.call .len [(.var 0 "s")])) (.incr 3 "i")
  getSchemeEndIndex_loop1)

/-- strings.go:95-145, statement 4. -/
def getSchemeEndIndex_4 : Stmt :=
  (.ite .skip (.bin .ge (.var 2 "slashCount") (.intLit 2)) (.seq (.ret [(.call .len [(.var 0 "s")])]) .skip) .skip)

/-- strings.go:95-145, statement 5. -/
def getSchemeEndIndex_5 : Stmt :=
  (.ret [(.neg (.intLit 1))])

/-- strings.go:95-145 -/
def getSchemeEndIndex_func : Func where
  fn := .getSchemeEndIndex
  params := [("s", .string)]
  results := [(none, .int)]
  body := .seq getSchemeEndIndex_1 <| .seq getSchemeEndIndex_2 <| .seq getSchemeEndIndex_3 <| .seq getSchemeEndIndex_4 <| .seq
    getSchemeEndIndex_5 <| .skip

/-- strings.go:95-145 -/
def getSchemeEndIndex_tokens : List Tok :=
  [.id "func", .id "getSchemeEndIndex", .op "(", .id "s", .id "string", .op ")", .id "int", .op "{", .id "var", .id "colon",
   .id "bool", .op ";", .id "var", .id "slashCount", .id "int", .op ";", .id "for", .id "i", .op ":=", .int 0, .op ";", .id
   "i", .op "<", .id "len", .op "(", .id "s", .op ")", .op ";", .id "i", .op "++", .op "{", .id "if", .id "i", .op "==", .int
   0, .op "{", .id "if", .id "schemeFirstCharSet", .op ".", .id "contains", .op "(", .id "s", .op "[", .id "i", .op "]", .op
   ")", .op "{", .id "continue", .op ";", .op "}", .op ";", .id "if", .id "slashes", .op ".", .id "contains", .op "(", .id
   "s", .op "[", .id "i", .op "]", .op ")", .op "{", .id "slashCount", .op "++", .op ";", .id "continue", .op ";", .op "}",
   .op ";", .id "return", .op "-", .int 1, .op ";", .op "}", .op ";", .id "if", .id "slashCount", .op "==", .int 0, .op "{",
   .id "if", .op "!", .id "colon", .op "{", .id "if", .id "schemeRemainingCharSet", .op ".", .id "contains", .op "(", .id
   "s", .op "[", .id "i", .op "]", .op ")", .op "{", .id "continue", .op ";", .op "}", .op ";", .id "if", .id "s", .op "[",
   .id "i", .op "]", .op "==", .chr 58, .op "{", .id "colon", .op "=", .id "true", .op ";", .id "continue", .op ";", .op "}",
   .op ";", .op "}", .op ";", .id "if", .id "slashes", .op ".", .id "contains", .op "(", .id "s", .op "[", .id "i", .op "]",
   .op ")", .op "{", .id "slashCount", .op "++", .op ";", .id "continue", .op ";", .op "}", .op ";", .id "return", .op "-",
   .int 1, .op ";", .op "}", .op ";", .id "if", .id "slashes", .op ".", .id "contains", .op "(", .id "s", .op "[", .id "i",
   .op "]", .op ")", .op "{", .id "slashCount", .op "++", .op ";", .id "continue", .op ";", .op "}", .op ";", .id "if", .id
   "slashCount", .op "<", .int 2, .op "{", .id "return", .op "-", .int 1, .op ";", .op "}", .op ";", .id "return", .id "i",
   .op ";", .op "}", .op ";", .id "if", .id "slashCount", .op ">=", .int 2, .op "{", .id "return", .id "len", .op "(", .id
   "s", .op ")", .op ";", .op "}", .op ";", .id "return", .op "-", .int 1, .op ";", .op "}", .op ";"]

theorem getSchemeEndIndex_text : getSchemeEndIndex_func.toks = getSchemeEndIndex_tokens := by decide +kernel

theorem getSchemeEndIndex_scoped : getSchemeEndIndex_func.scoped = true := by decide +kernel

/-- strings.go:152-159: the body of a loop. -/
def indexAnyASCII_loop1 : Stmt :=
  (.seq (.ite .skip (.call .contains [(.var 1 "as"), (.var 3 "b")]) (.seq (.ret [(.var 2 "i")]) .skip) .skip) .skip)

/-- strings.go:152-159, statement 1. -/
def indexAnyASCII_1 : Stmt :=
  (.range "i" "b" (.call .toBytes [(.var 0 "s")]) indexAnyASCII_loop1)

/-- strings.go:152-159, statement 2. -/
def indexAnyASCII_2 : Stmt :=
  (.ret [(.neg (.intLit 1))])

/-- strings.go:152-159 -/
def indexAnyASCII_func : Func where
  fn := .indexAnyASCII
  params := [("s", .string), ("as", .asciiSet)]
  results := [(none, .int)]
  body := .seq indexAnyASCII_1 <| .seq indexAnyASCII_2 <| .skip

/-- strings.go:152-159 -/
def indexAnyASCII_tokens : List Tok :=
  [.id "func", .id "indexAnyASCII", .op "(", .id "s", .id "string", .op ",", .id "as", .id "asciiSet", .op ")", .id "int",
   .op "{", .id "for", .id "i", .op ",", .id "b", .op ":=", .id "range", .op "[", .op "]", .id "byte", .op "(", .id "s", .op
   ")", .op "{", .id "if", .id "as", .op ".", .id "contains", .op "(", .id "b", .op ")", .op "{", .id "return", .id "i", .op
   ";", .op "}", .op ";", .op "}", .op ";", .id "return", .op "-", .int 1, .op ";", .op "}", .op ";"]

theorem indexAnyASCII_text : indexAnyASCII_func.toks = indexAnyASCII_tokens := by decide +kernel

theorem indexAnyASCII_scoped : indexAnyASCII_func.scoped = true := by decide +kernel

/-- strings.go:166-197: the body of a loop. -/
def hasInvalidChars_loop1 : Stmt :=
  (.seq (.ite .skip (.call .contains [(.glob .alphaNumericSet), (.call .byte [(.var 4 "c")])]) (.seq (.assign [(.var 1
  "isLabelSeparator")] [(.boolLit false)]) (.seq .cont .skip)) .skip) (.seq (.ite .skip (.bin .and (.bin .eq (.var 3 "idx")
  (.intLit 0)) (.paren (.bin .or (.bin .eq (.var 4 "c") (.charLit 45)) (.call .Exists [(.glob .labelSeparatorsRuneSet), (.var
  4 "c")])))) (.seq (.ret [(.boolLit true)]) .skip) .skip) (.seq (.ite .skip (.bin .and (.bin .eq (.var 3 "idx") (.var 2
  "lastByteIdx")) (.bin .eq (.var 4 "c") (.charLit 45))) (.seq (.ret [(.boolLit true)]) .skip) .skip) (.seq (.ite .skip
  (.call .Exists [(.glob .labelSeparatorsRuneSet), (.var 4 "c")]) (.seq (.ite .skip (.var 1 "isLabelSeparator") (.seq (.ret
  [(.boolLit true)]) .skip) .skip) (.seq (.assign [(.var 1 "isLabelSeparator")] [(.boolLit true)]) .skip)) (.seq (.assign
  [(.var 1 "isLabelSeparator")] [(.boolLit false)]) .skip)) (.seq (.ite .skip (.call .Exists [(.glob
  .invalidHostNameCharsRuneSet), (.var 4 "c")]) (.seq (.ret [(.boolLit true)]) .skip) .skip) .skip)))))

/-- strings.go:166-197, statement 1. -/
def hasInvalidChars_1 : Stmt :=
  (.declare ["isLabelSeparator"] .bool)

/-- strings.go:166-197, statement 2. -/
def hasInvalidChars_2 : Stmt :=
  (.define ["lastByteIdx"] [(.bin .sub (.call .len [(.var 0 "s")]) (.intLit 1))])

/-- strings.go:166-197, statement 3. -/
def hasInvalidChars_3 : Stmt :=
  (.range "idx" "c" (.var 0 "s") hasInvalidChars_loop1)

/-- strings.go:166-197, statement 4. -/
def hasInvalidChars_4 : Stmt :=
  (.ret [(.boolLit false)])

/-- strings.go:166-197 -/
def hasInvalidChars_func : Func where
  fn := .hasInvalidChars
  params := [("s", .string)]
  results := [(none, .bool)]
  body := .seq hasInvalidChars_1 <| .seq hasInvalidChars_2 <| .seq hasInvalidChars_3 <| .seq hasInvalidChars_4 <| .skip

/-- strings.go:166-197 -/
def hasInvalidChars_tokens : List Tok :=
  [.id "func", .id "hasInvalidChars", .op "(", .id "s", .id "string", .op ")", .id "bool", .op "{", .id "var", .id
   "isLabelSeparator", .id "bool", .op ";", .id "lastByteIdx", .op ":=", .id "len", .op "(", .id "s", .op ")", .op "-", .int
   1, .op ";", .id "for", .id "idx", .op ",", .id "c", .op ":=", .id "range", .id "s", .op "{", .id "if", .id
   "alphaNumericSet", .op ".", .id "contains", .op "(", .id "byte", .op "(", .id "c", .op ")", .op ")", .op "{", .id
   "isLabelSeparator", .op "=", .id "false", .op ";", .id "continue", .op ";", .op "}", .op ";", .id "if", .id "idx", .op
   "==", .int 0, .op "&&", .op "(", .id "c", .op "==", .chr 45, .op "||", .id "labelSeparatorsRuneSet", .op ".", .id
   "Exists", .op "(", .id "c", .op ")", .op ")", .op "{", .id "return", .id "true", .op ";", .op "}", .op ";", .id "if", .id
   "idx", .op "==", .id "lastByteIdx", .op "&&", .id "c", .op "==", .chr 45, .op "{", .id "return", .id "true", .op ";", .op
   "}", .op ";", .id "if", .id "labelSeparatorsRuneSet", .op ".", .id "Exists", .op "(", .id "c", .op ")", .op "{", .id "if",
   .id "isLabelSeparator", .op "{", .id "return", .id "true", .op ";", .op "}", .op ";", .id "isLabelSeparator", .op "=", .id
   "true", .op ";", .op "}", .id "else", .op "{", .id "isLabelSeparator", .op "=", .id "false", .op ";", .op "}", .op ";",
   .id "if", .id "invalidHostNameCharsRuneSet", .op ".", .id "Exists", .op "(", .id "c", .op ")", .op "{", .id "return", .id
   "true", .op ";", .op "}", .op ";", .op "}", .op ";", .id "return", .id "false", .op ";", .op "}", .op ";"]

theorem hasInvalidChars_text : hasInvalidChars_func.toks = hasInvalidChars_tokens := by decide +kernel

theorem hasInvalidChars_scoped : hasInvalidChars_func.scoped = true := by decide +kernel

/-- strings.go:204-213: the body of a loop. -/
def lastIndexAny_loop1 : Stmt :=
  (.seq (.define ["r", "size"] [(.call .DecodeLastRuneInString [(.slice (.var 0 "s") (.intLit 0) (.var 2 "i"))])]) (.seq
  (.assignOp .sub (.var 2 "i") (.var 4 "size")) (.seq (.ite .skip (.call .Exists [(.var 1 "chars"), (.var 3 "r")]) (.seq
  (.ret [(.var 2 "i")]) .skip) .skip) .skip)))

/-- strings.go:204-213, statement 1. -/
def lastIndexAny_1 : Stmt :=
  (.loop (.define ["i"] [(.call .len [(.var 0 "s")])]) (.bin .gt (.var 2 "i") (.intLit 0)) .skip lastIndexAny_loop1)

/-- strings.go:204-213, statement 2. -/
def lastIndexAny_2 : Stmt :=
  (.ret [(.neg (.intLit 1))])

/-- strings.go:204-213 -/
def lastIndexAny_func : Func where
  fn := .lastIndexAny
  params := [("s", .string), ("chars", .intsetRune)]
  results := [(none, .int)]
  body := .seq lastIndexAny_1 <| .seq lastIndexAny_2 <| .skip

/-- strings.go:204-213 -/
def lastIndexAny_tokens : List Tok :=
  [.id "func", .id "lastIndexAny", .op "(", .id "s", .id "string", .op ",", .id "chars", .op "*", .id "intset", .op ".", .id
   "Rune", .op ")", .id "int", .op "{", .id "for", .id "i", .op ":=", .id "len", .op "(", .id "s", .op ")", .op ";", .id "i",
   .op ">", .int 0, .op ";", .op "{", .id "r", .op ",", .id "size", .op ":=", .id "utf8", .op ".", .id
   "DecodeLastRuneInString", .op "(", .id "s", .op "[", .int 0, .op ":", .id "i", .op "]", .op ")", .op ";", .id "i", .op
   "-=", .id "size", .op ";", .id "if", .id "chars", .op ".", .id "Exists", .op "(", .id "r", .op ")", .op "{", .id "return",
   .id "i", .op ";", .op "}", .op ";", .op "}", .op ";", .id "return", .op "-", .int 1, .op ";", .op "}", .op ";"]

theorem lastIndexAny_text : lastIndexAny_func.toks = lastIndexAny_tokens := by decide +kernel

theorem lastIndexAny_scoped : lastIndexAny_func.scoped = true := by decide +kernel

/-- strings.go:223-233, statement 1. -/
def sepSize_1 : Stmt :=
  (.ite .skip (.bin .eq (.var 0 "r") (.intLit 46)) (.seq (.ret [(.intLit 1)]) .skip) .skip)

/-- strings.go:223-233, statement 2. -/
def sepSize_2 : Stmt :=
  (.ret [(.intLit 3)])

/-- strings.go:223-233 -/
def sepSize_func : Func where
  fn := .sepSize
  params := [("r", .byte)]
  results := [(none, .int)]
  body := .seq sepSize_1 <| .seq sepSize_2 <| .skip

/-- strings.go:223-233 -/
def sepSize_tokens : List Tok :=
  [.id "func", .id "sepSize", .op "(", .id "r", .id "byte", .op ")", .id "int", .op "{", .id "if", .id "r", .op "==", .int
   46, .op "{", .id "return", .int 1, .op ";", .op "}", .op ";", .id "return", .int 3, .op ";", .op "}", .op ";"]

theorem sepSize_text : sepSize_func.toks = sepSize_tokens := by decide +kernel

theorem sepSize_scoped : sepSize_func.scoped = true := by decide +kernel

/-- strings.go:238-245, statement 1. -/
def formatAsPunycode_1 : Stmt :=
  (.define ["asPunyCode", "err"] [(.call .idnaToPunyToASCII [(.var 0 "s")])])

/-- strings.go:238-245, statement 2. -/
def formatAsPunycode_2 : Stmt :=
  (.ite .skip (.bin .ne (.var 2 "err") .nil) (.seq (.expr (.call .Println [(.index (.call .SplitAfterN [(.call .Error [(.var
  2 "err")]), (.strLit [105, 100, 110, 97, 58, 32, 105, 110, 118, 97, 108, 105, 100, 32, 108, 97, 98, 101, 108]), (.intLit
  2)]) (.intLit 0))])) (.seq (.ret [(.strLit [])]) .skip)) .skip)

/-- strings.go:238-245, statement 3. -/
def formatAsPunycode_3 : Stmt :=
  (.ret [(.var 1 "asPunyCode")])

/-- strings.go:238-245 -/
def formatAsPunycode_func : Func where
  fn := .formatAsPunycode
  params := [("s", .string)]
  results := [(none, .string)]
  body := .seq formatAsPunycode_1 <| .seq formatAsPunycode_2 <| .seq formatAsPunycode_3 <| .skip

/-- strings.go:238-245 -/
def formatAsPunycode_tokens : List Tok :=
  [.id "func", .id "formatAsPunycode", .op "(", .id "s", .id "string", .op ")", .id "string", .op "{", .id "asPunyCode", .op
   ",", .id "err", .op ":=", .id "idnaToPuny", .op ".", .id "ToASCII", .op "(", .id "s", .op ")", .op ";", .id "if", .id
   "err", .op "!=", .id "nil", .op "{", .id "log", .op ".", .id "Println", .op "(", .id "strings", .op ".", .id
   "SplitAfterN", .op "(", .id "err", .op ".", .id "Error", .op "(", .op ")", .op ",", .str [105, 100, 110, 97, 58, 32, 105,
   110, 118, 97, 108, 105, 100, 32, 108, 97, 98, 101, 108], .op ",", .int 2, .op ")", .op "[", .int 0, .op "]", .op ")", .op
   ";", .id "return", .str [], .op ";", .op "}", .op ";", .id "return", .id "asPunyCode", .op ";", .op "}", .op ";"]

theorem formatAsPunycode_text : formatAsPunycode_func.toks = formatAsPunycode_tokens := by decide +kernel

theorem formatAsPunycode_scoped : formatAsPunycode_func.scoped = true := by decide +kernel

/-- strings.go:249-254, statement 1. -/
def indexLastByteBefore_1 : Stmt :=
  (.ite (.define ["firstNotAfterCharIdx"] [(.call .indexAnyASCII [(.var 0 "s"), (.var 2 "notAfterCharsSet")])]) (.bin .ne
  (.var 3 "firstNotAfterCharIdx") (.neg (.intLit 1))) (.seq (.ret [(.call .LastIndexByte [(.slice (.var 0 "s") (.intLit 0)
  (.var 3 "firstNotAfterCharIdx")), (.var 1 "b")])]) .skip) .skip)

/-- strings.go:249-254, statement 2. -/
def indexLastByteBefore_2 : Stmt :=
  (.ret [(.call .LastIndexByte [(.var 0 "s"), (.var 1 "b")])])

/-- strings.go:249-254 -/
def indexLastByteBefore_func : Func where
  fn := .indexLastByteBefore
  params := [("s", .string), ("b", .byte), ("notAfterCharsSet", .asciiSet)]
  results := [(none, .int)]
  body := .seq indexLastByteBefore_1 <| .seq indexLastByteBefore_2 <| .skip

/-- strings.go:249-254 -/
def indexLastByteBefore_tokens : List Tok :=
  [.id "func", .id "indexLastByteBefore", .op "(", .id "s", .id "string", .op ",", .id "b", .id "byte", .op ",", .id
   "notAfterCharsSet", .id "asciiSet", .op ")", .id "int", .op "{", .id "if", .id "firstNotAfterCharIdx", .op ":=", .id
   "indexAnyASCII", .op "(", .id "s", .op ",", .id "notAfterCharsSet", .op ")", .op ";", .id "firstNotAfterCharIdx", .op
   "!=", .op "-", .int 1, .op "{", .id "return", .id "strings", .op ".", .id "LastIndexByte", .op "(", .id "s", .op "[", .int
   0, .op ":", .id "firstNotAfterCharIdx", .op "]", .op ",", .id "b", .op ")", .op ";", .op "}", .op ";", .id "return", .id
   "strings", .op ".", .id "LastIndexByte", .op "(", .id "s", .op ",", .id "b", .op ")", .op ";", .op "}", .op ";"]

theorem indexLastByteBefore_text : indexLastByteBefore_func.toks = indexLastByteBefore_tokens := by decide +kernel

theorem indexLastByteBefore_scoped : indexLastByteBefore_func.scoped = true := by decide +kernel

/-- strings.go:266-307: the body of a loop. -/
def fastTrim_loop1 : Stmt :=
  (.seq (.assign [(.var 3 "startIdx")] [(.var 7 "idx")]) (.seq (.ite .skip (.not (.call .Exists [(.var 1 "charsToTrim"),
  (.var 8 "c")])) (.seq (.assign [(.var 6 "broken")] [(.boolLit true)]) (.seq .brk .skip)) .skip) (.seq (.assign [(.var 5
  "trimCharsExist")] [(.boolLit true)]) .skip)))

/-- strings.go:266-307: the body of a loop. -/
def fastTrim_loop2 : Stmt :=
  (.seq (.assign [(.var 4 "endIdx")] [(.var 7 "i")]) (.seq (.define ["r", "size"] [(.call .DecodeLastRuneInString [(.slice
  (.var 0 "s") (.intLit 0) (.var 7 "i"))])]) (.seq (.assignOp .sub (.var 7 "i") (.var 9 "size")) (.seq (.ite .skip (.not
  (.call .Exists [(.var 1 "charsToTrim"), (.var 8 "r")])) (.seq (.assign [(.var 6 "broken")] [(.boolLit true)]) (.seq .brk
  .skip)) .skip) (.seq (.assign [(.var 5 "trimCharsExist")] [(.boolLit true)]) .skip)))))

/-- strings.go:266-307, statement 1. -/
def fastTrim_1 : Stmt :=
  (.declare ["startIdx", "endIdx"] .int)

/-- strings.go:266-307, statement 2. -/
def fastTrim_2 : Stmt :=
  (.ite .skip (.bin .ne (.var 2 "mode") (.glob .trimRight)) (.seq (.declare ["trimCharsExist"] .bool) (.seq (.declare
  ["broken"] .bool) (.seq (.range "idx" "c" (.var 0 "s") fastTrim_loop1) (.seq (.ite .skip (.bin .and (.var 5
  "trimCharsExist") (.not (.var 6 "broken"))) (.seq (.ret [(.strLit [])]) .skip) .skip) .skip)))) .skip)

/-- strings.go:266-307, statement 3. -/
def fastTrim_3 : Stmt :=
  (.ite .skip (.bin .ne (.var 2 "mode") (.glob .trimLeft)) (.seq (.declare ["trimCharsExist"] .bool) (.seq (.declare
  ["broken"] .bool) (.seq (.loop (.define ["i"] [(.call .len [(.var 0 "s")])]) (.bin .gt (.var 7 "i") (.intLit 0)) .skip
  fastTrim_loop2) (.seq (.ite .skip (.bin .and (.var 5 "trimCharsExist") (.not (.var 6 "broken"))) (.seq (.ret [(.strLit
  [])]) .skip) .skip) .skip)))) (.seq (.assign [(.var 4 "endIdx")] [(.call .len [(.var 0 "s")])]) .skip))

/-- strings.go:266-307, statement 4. -/
def fastTrim_4 : Stmt :=
  (.ret [(.slice (.var 0 "s") (.var 3 "startIdx") (.var 4 "endIdx"))])

/-- strings.go:266-307 -/
def fastTrim_func : Func where
  fn := .fastTrim
  params := [("s", .string), ("charsToTrim", .intsetRune), ("mode", .trimMode)]
  results := [(none, .string)]
  body := .seq fastTrim_1 <| .seq fastTrim_2 <| .seq fastTrim_3 <| .seq fastTrim_4 <| .skip

/-- strings.go:266-307 -/
def fastTrim_tokens : List Tok :=
  [.id "func", .id "fastTrim", .op "(", .id "s", .id "string", .op ",", .id "charsToTrim", .op "*", .id "intset", .op ".",
   .id "Rune", .op ",", .id "mode", .id "trimMode", .op ")", .id "string", .op "{", .id "var", .id "startIdx", .op ",", .id
   "endIdx", .id "int", .op ";", .id "if", .id "mode", .op "!=", .id "trimRight", .op "{", .id "var", .id "trimCharsExist",
   .id "bool", .op ";", .id "var", .id "broken", .id "bool", .op ";", .id "for", .id "idx", .op ",", .id "c", .op ":=", .id
   "range", .id "s", .op "{", .id "startIdx", .op "=", .id "idx", .op ";", .id "if", .op "!", .id "charsToTrim", .op ".", .id
   "Exists", .op "(", .id "c", .op ")", .op "{", .id "broken", .op "=", .id "true", .op ";", .id "break", .op ";", .op "}",
   .op ";", .id "trimCharsExist", .op "=", .id "true", .op ";", .op "}", .op ";", .id "if", .id "trimCharsExist", .op "&&",
   .op "!", .id "broken", .op "{", .id "return", .str [], .op ";", .op "}", .op ";", .op "}", .op ";", .id "if", .id "mode",
   .op "!=", .id "trimLeft", .op "{", .id "var", .id "trimCharsExist", .id "bool", .op ";", .id "var", .id "broken", .id
   "bool", .op ";", .id "for", .id "i", .op ":=", .id "len", .op "(", .id "s", .op ")", .op ";", .id "i", .op ">", .int 0,
   .op ";", .op "{", .id "endIdx", .op "=", .id "i", .op ";", .id "r", .op ",", .id "size", .op ":=", .id "utf8", .op ".",
   .id "DecodeLastRuneInString", .op "(", .id "s", .op "[", .int 0, .op ":", .id "i", .op "]", .op ")", .op ";", .id "i", .op
   "-=", .id "size", .op ";", .id "if", .op "!", .id "charsToTrim", .op ".", .id "Exists", .op "(", .id "r", .op ")", .op
   "{", .id "broken", .op "=", .id "true", .op ";", .id "break", .op ";", .op "}", .op ";", .id "trimCharsExist", .op "=",
   .id "true", .op ";", .op "}", .op ";", .id "if", .id "trimCharsExist", .op "&&", .op "!", .id "broken", .op "{", .id
   "return", .str [], .op ";", .op "}", .op ";", .op "}", .id "else", .op "{", .id "endIdx", .op "=", .id "len", .op "(", .id
   "s", .op ")", .op ";", .op "}", .op ";", .id "return", .id "s", .op "[", .id "startIdx", .op ":", .id "endIdx", .op "]",
   .op ";", .op "}", .op ";"]

theorem fastTrim_text : fastTrim_func.toks = fastTrim_tokens := by decide +kernel

theorem fastTrim_scoped : fastTrim_func.scoped = true := by decide +kernel

/-- strings.go:216-220: the body of a loop. -/
def reverse_loop1 : Stmt :=
  (.seq (.assign [(.index 0 "input" (.var 1 "i")), (.index 0 "input" (.var 2 "j"))] [(.index (.var 0 "input") (.var 2 "j")),
  (.index (.var 0 "input") (.var 1 "i"))]) .skip)

/-- strings.go:216-220, statement 1. -/
def reverse_1 : Stmt :=
  (.loop (.define ["i", "j"] [(.intLit 0), (.bin .sub (.call .len [(.var 0 "input")]) (.intLit 1))]) (.bin .lt (.var 1 "i")
  (.var 2 "j")) (.assign [(.var 1 "i"), (.var 2 "j")] [(.bin .add (.var 1 "i") (.intLit 1)), (.bin .sub (.var 2 "j") (.intLit
  1))]) reverse_loop1)

/-- strings.go:216-220 -/
def reverse_func : Func where
  fn := .reverse
  params := [("input", .stringSlice)]
  results := []
  body := .seq reverse_1 <| .skip

/-- strings.go:216-220 -/
def reverse_tokens : List Tok :=
  [.id "func", .id "reverse", .op "(", .id "input", .op "[", .op "]", .id "string", .op ")", .op "{", .id "for", .id "i", .op
   ",", .id "j", .op ":=", .int 0, .op ",", .id "len", .op "(", .id "input", .op ")", .op "-", .int 1, .op ";", .id "i", .op
   "<", .id "j", .op ";", .id "i", .op ",", .id "j", .op "=", .id "i", .op "+", .int 1, .op ",", .id "j", .op "-", .int 1,
   .op "{", .id "input", .op "[", .id "i", .op "]", .op ",", .id "input", .op "[", .id "j", .op "]", .op "=", .id "input",
   .op "[", .id "j", .op "]", .op ",", .id "input", .op "[", .id "i", .op "]", .op ";", .op "}", .op ";", .op "}", .op ";"]

theorem reverse_text : reverse_func.toks = reverse_tokens := by decide +kernel

theorem reverse_scoped : reverse_func.scoped = true := by decide +kernel

/-- net.go:17-29: the body of a loop. -/
def dtoi_loop1 : Stmt :=
  (.seq (.assign [(.var 1 "n")] [(.bin .add (.bin .mul (.var 1 "n") (.intLit 10)) (.call .int [(.bin .sub (.index (.var 0
  "s") (.var 2 "i")) (.charLit 48))]))]) (.seq (.ite .skip (.bin .ge (.var 1 "n") (.glob .big)) (.seq (.ret [(.glob .big),
  (.var 2 "i"), (.boolLit false)]) .skip) .skip) .skip))

/-- net.go:17-29, statement 1. -/
def dtoi_1 : Stmt :=
  (.assign [(.var 1 "n")] [(.intLit 0)])

/-- net.go:17-29, statement 2. -/
def dtoi_2 : Stmt :=
  (.loop (.assign [(.var 2 "i")] [(.intLit 0)]) (.bin .and (.bin .and (.bin .lt (.var 2 "i") (.call .len [(.var 0 "s")]))
  (.bin .le (.charLit 48) (.index (.var 0 "s") (.var 2 "i")))) (.bin .le (.index (.var 0 "s") (.var 2 "i")) (.charLit 57)))
  (.incr 2 "i") dtoi_loop1)

/-- net.go:17-29, statement 3. -/
def dtoi_3 : Stmt :=
  (.ite .skip (.bin .eq (.var 2 "i") (.intLit 0)) (.seq (.ret [(.intLit 0), (.intLit 0), (.boolLit false)]) .skip) .skip)

/-- net.go:17-29, statement 4. -/
def dtoi_4 : Stmt :=
  (.ret [(.var 1 "n"), (.var 2 "i"), (.boolLit true)])

/-- net.go:17-29 -/
def dtoi_func : Func where
  fn := .dtoi
  params := [("s", .string)]
  results := [(some "n", .int), (some "i", .int), (some "ok", .bool)]
  body := .seq dtoi_1 <| .seq dtoi_2 <| .seq dtoi_3 <| .seq dtoi_4 <| .skip

/-- net.go:17-29 -/
def dtoi_tokens : List Tok :=
  [.id "func", .id "dtoi", .op "(", .id "s", .id "string", .op ")", .op "(", .id "n", .id "int", .op ",", .id "i", .id "int",
   .op ",", .id "ok", .id "bool", .op ")", .op "{", .id "n", .op "=", .int 0, .op ";", .id "for", .id "i", .op "=", .int 0,
   .op ";", .id "i", .op "<", .id "len", .op "(", .id "s", .op ")", .op "&&", .chr 48, .op "<=", .id "s", .op "[", .id "i",
   .op "]", .op "&&", .id "s", .op "[", .id "i", .op "]", .op "<=", .chr 57, .op ";", .id "i", .op "++", .op "{", .id "n",
   .op "=", .id "n", .op "*", .int 10, .op "+", .id "int", .op "(", .id "s", .op "[", .id "i", .op "]", .op "-", .chr 48, .op
   ")", .op ";", .id "if", .id "n", .op ">=", .id "big", .op "{", .id "return", .id "big", .op ",", .id "i", .op ",", .id
   "false", .op ";", .op "}", .op ";", .op "}", .op ";", .id "if", .id "i", .op "==", .int 0, .op "{", .id "return", .int 0,
   .op ",", .int 0, .op ",", .id "false", .op ";", .op "}", .op ";", .id "return", .id "n", .op ",", .id "i", .op ",", .id
   "true", .op ";", .op "}", .op ";"]

theorem dtoi_text : dtoi_func.toks = dtoi_tokens := by decide +kernel

theorem dtoi_scoped : dtoi_func.scoped = true := by decide +kernel

/-- net.go:33-56: the body of a loop. -/
def xtoi_loop1 : Stmt :=
  (.seq (.ite .skip (.bin .and (.bin .le (.charLit 48) (.index (.var 0 "s") (.var 2 "i"))) (.bin .le (.index (.var 0 "s")
  (.var 2 "i")) (.charLit 57))) (.seq (.assignOp .mul (.var 1 "n") (.intLit 16)) (.seq (.assignOp .add (.var 1 "n") (.call
  .int [(.bin .sub (.index (.var 0 "s") (.var 2 "i")) (.charLit 48))])) .skip)) (.ite .skip (.bin .and (.bin .le (.charLit
  97) (.index (.var 0 "s") (.var 2 "i"))) (.bin .le (.index (.var 0 "s") (.var 2 "i")) (.charLit 102))) (.seq (.assignOp .mul
  (.var 1 "n") (.intLit 16)) (.seq (.assignOp .add (.var 1 "n") (.bin .add (.call .int [(.bin .sub (.index (.var 0 "s") (.var
  2 "i")) (.charLit 97))]) (.intLit 10))) .skip)) (.ite .skip (.bin .and (.bin .le (.charLit 65) (.index (.var 0 "s") (.var 2
  "i"))) (.bin .le (.index (.var 0 "s") (.var 2 "i")) (.charLit 70))) (.seq (.assignOp .mul (.var 1 "n") (.intLit 16)) (.seq
  (.assignOp .add (.var 1 "n") (.bin .add (.call .int [(.bin .sub (.index (.var 0 "s") (.var 2 "i")) (.charLit 65))])
  (.intLit 10))) .skip)) (.seq .brk .skip)))) (.seq (.ite .skip (.bin .ge (.var 1 "n") (.glob .big)) (.seq (.ret [(.intLit
  0), (.var 2 "i"), (.boolLit false)]) .skip) .skip) .skip))

/-- net.go:33-56, statement 1. -/
def xtoi_1 : Stmt :=
  (.assign [(.var 1 "n")] [(.intLit 0)])

/-- net.go:33-56, statement 2. -/
def xtoi_2 : Stmt :=
  (.loop (.assign [(.var 2 "i")] [(.intLit 0)]) (.bin .lt (.var 2 "i") (.call .len [(.var 0 "s")])) (.incr 2 "i") xtoi_loop1)

/-- net.go:33-56, statement 3. -/
def xtoi_3 : Stmt :=
  (.ite .skip (.bin .eq (.var 2 "i") (.intLit 0)) (.seq (.ret [(.intLit 0), (.var 2 "i"), (.boolLit false)]) .skip) .skip)

/-- net.go:33-56, statement 4. -/
def xtoi_4 : Stmt :=
  (.ret [(.var 1 "n"), (.var 2 "i"), (.boolLit true)])

/-- net.go:33-56 -/
def xtoi_func : Func where
  fn := .xtoi
  params := [("s", .string)]
  results := [(some "n", .int), (some "i", .int), (some "ok", .bool)]
  body := .seq xtoi_1 <| .seq xtoi_2 <| .seq xtoi_3 <| .seq xtoi_4 <| .skip

/-- net.go:33-56 -/
def xtoi_tokens : List Tok :=
  [.id "func", .id "xtoi", .op "(", .id "s", .id "string", .op ")", .op "(", .id "n", .id "int", .op ",", .id "i", .id "int",
   .op ",", .id "ok", .id "bool", .op ")", .op "{", .id "n", .op "=", .int 0, .op ";", .id "for", .id "i", .op "=", .int 0,
   .op ";", .id "i", .op "<", .id "len", .op "(", .id "s", .op ")", .op ";", .id "i", .op "++", .op "{", .id "if", .chr 48,
   .op "<=", .id "s", .op "[", .id "i", .op "]", .op "&&", .id "s", .op "[", .id "i", .op "]", .op "<=", .chr 57, .op "{",
   .id "n", .op "*=", .int 16, .op ";", .id "n", .op "+=", .id "int", .op "(", .id "s", .op "[", .id "i", .op "]", .op "-",
   .chr 48, .op ")", .op ";", .op "}", .id "else", .id "if", .chr 97, .op "<=", .id "s", .op "[", .id "i", .op "]", .op "&&",
   .id "s", .op "[", .id "i", .op "]", .op "<=", .chr 102, .op "{", .id "n", .op "*=", .int 16, .op ";", .id "n", .op "+=",
   .id "int", .op "(", .id "s", .op "[", .id "i", .op "]", .op "-", .chr 97, .op ")", .op "+", .int 10, .op ";", .op "}", .id
   "else", .id "if", .chr 65, .op "<=", .id "s", .op "[", .id "i", .op "]", .op "&&", .id "s", .op "[", .id "i", .op "]", .op
   "<=", .chr 70, .op "{", .id "n", .op "*=", .int 16, .op ";", .id "n", .op "+=", .id "int", .op "(", .id "s", .op "[", .id
   "i", .op "]", .op "-", .chr 65, .op ")", .op "+", .int 10, .op ";", .op "}", .id "else", .op "{", .id "break", .op ";",
   .op "}", .op ";", .id "if", .id "n", .op ">=", .id "big", .op "{", .id "return", .int 0, .op ",", .id "i", .op ",", .id
   "false", .op ";", .op "}", .op ";", .op "}", .op ";", .id "if", .id "i", .op "==", .int 0, .op "{", .id "return", .int 0,
   .op ",", .id "i", .op ",", .id "false", .op ";", .op "}", .op ";", .id "return", .id "n", .op ",", .id "i", .op ",", .id
   "true", .op ";", .op "}", .op ";"]

theorem xtoi_text : xtoi_func.toks = xtoi_tokens := by decide +kernel

theorem xtoi_scoped : xtoi_func.scoped = true := by decide +kernel

/-- net.go:61-86: the body of a loop. -/
def isIPv4_loop1 : Stmt :=
  (.seq (.ite .skip (.bin .eq (.call .len [(.var 0 "s")]) (.intLit 0)) (.seq (.ret [(.boolLit false)]) .skip) .skip) (.seq
  (.ite .skip (.bin .gt (.var 1 "i") (.intLit 0)) (.seq (.define ["r", "size"] [(.call .DecodeRuneInString [(.var 0 "s")])])
  (.seq (.ite .skip (.not (.call .Exists [(.glob .labelSeparatorsRuneSet), (.var 2 "r")])) (.seq (.ret [(.boolLit false)])
  .skip) .skip) (.seq (.assign [(.var 0 "s")] [(.sliceFrom (.var 0 "s") (.var 3 "size"))]) .skip))) .skip) (.seq (.define
  ["n", "c", "ok"] [(.call .dtoi [(.var 0 "s")])]) (.seq (.ite .skip (.bin .or (.not (.var 4 "ok")) (.bin .gt (.var 2 "n")
  (.intLit 255))) (.seq (.ret [(.boolLit false)]) .skip) .skip) (.seq (.ite .skip (.bin .and (.bin .gt (.var 3 "c") (.intLit
  1)) (.bin .eq (.index (.var 0 "s") (.intLit 0)) (.charLit 48))) (.seq (.ret [(.boolLit false)]) .skip) .skip) (.seq
  (.assign [(.var 0 "s")] [(.sliceFrom (.var 0 "s") (.var 3 "c"))]) .skip))))))

/-- net.go:61-86, statement 1. -/
def isIPv4_1 : Stmt :=
  (.assign [(.var 0 "s")] [(.call .fastTrim [(.var 0 "s"), (.glob .labelSeparatorsRuneSet), (.glob .trimRight)])])

/-- net.go:61-86, statement 2. -/
def isIPv4_2 : Stmt :=
  (.loop (.define ["i"] [(.intLit 0)]) (.bin .lt (.var 1 "i") (.glob .iPv4len)) (.incr 1 "i") isIPv4_loop1)

/-- net.go:61-86, statement 3. -/
def isIPv4_3 : Stmt :=
  (.ret [(.bin .eq (.call .len [(.var 0 "s")]) (.intLit 0))])

/-- net.go:61-86 -/
def isIPv4_func : Func where
  fn := .isIPv4
  params := [("s", .string)]
  results := [(none, .bool)]
  body := .seq isIPv4_1 <| .seq isIPv4_2 <| .seq isIPv4_3 <| .skip

/-- net.go:61-86 -/
def isIPv4_tokens : List Tok :=
  [.id "func", .id "isIPv4", .op "(", .id "s", .id "string", .op ")", .id "bool", .op "{", .id "s", .op "=", .id "fastTrim",
   .op "(", .id "s", .op ",", .id "labelSeparatorsRuneSet", .op ",", .id "trimRight", .op ")", .op ";", .id "for", .id "i",
   .op ":=", .int 0, .op ";", .id "i", .op "<", .id "iPv4len", .op ";", .id "i", .op "++", .op "{", .id "if", .id "len", .op
   "(", .id "s", .op ")", .op "==", .int 0, .op "{", .id "return", .id "false", .op ";", .op "}", .op ";", .id "if", .id "i",
   .op ">", .int 0, .op "{", .id "r", .op ",", .id "size", .op ":=", .id "utf8", .op ".", .id "DecodeRuneInString", .op "(",
   .id "s", .op ")", .op ";", .id "if", .op "!", .id "labelSeparatorsRuneSet", .op ".", .id "Exists", .op "(", .id "r", .op
   ")", .op "{", .id "return", .id "false", .op ";", .op "}", .op ";", .id "s", .op "=", .id "s", .op "[", .id "size", .op
   ":", .op "]", .op ";", .op "}", .op ";", .id "n", .op ",", .id "c", .op ",", .id "ok", .op ":=", .id "dtoi", .op "(", .id
   "s", .op ")", .op ";", .id "if", .op "!", .id "ok", .op "||", .id "n", .op ">", .int 255, .op "{", .id "return", .id
   "false", .op ";", .op "}", .op ";", .id "if", .id "c", .op ">", .int 1, .op "&&", .id "s", .op "[", .int 0, .op "]", .op
   "==", .chr 48, .op "{", .id "return", .id "false", .op ";", .op "}", .op ";", .id "s", .op "=", .id "s", .op "[", .id "c",
   .op ":", .op "]", .op ";", .op "}", .op ";", .id "return", .id "len", .op "(", .id "s", .op ")", .op "==", .int 0, .op
   ";", .op "}", .op ";"]

theorem isIPv4_text : isIPv4_func.toks = isIPv4_tokens := by decide +kernel

theorem isIPv4_scoped : isIPv4_func.scoped = true := by decide +kernel

/-- net.go:90-173: the body of a loop. -/
def isIPv6_loop1 : Stmt :=
  (.seq (.define ["n", "c", "ok"] [(.call .xtoi [(.var 0 "s")])]) (.seq (.ite .skip (.bin .or (.not (.var 5 "ok")) (.bin .gt
  (.var 3 "n") (.intLit 65535))) (.seq (.ret [(.boolLit false)]) .skip) .skip) (.seq (.ite .skip (.bin .and (.bin .lt (.var 4
  "c") (.call .len [(.var 0 "s")])) (.call .Exists [(.glob .labelSeparatorsRuneSet), (.index (.call .toRunes [(.sliceFrom
  (.var 0 "s") (.var 4 "c"))]) (.intLit 0))])) (.seq (.ite .skip (.bin .and (.bin .lt (.var 1 "ellipsis") (.intLit 0)) (.bin
  .ne (.var 2 "i") (.glob .lenDiff))) (.seq (.ret [(.boolLit false)]) .skip) .skip) (.seq (.ite .skip (.bin .gt (.var 2 "i")
  (.glob .lenDiff)) (.seq (.ret [(.boolLit false)]) .skip) .skip) (.seq (.ite .skip (.not (.call .isIPv4 [(.var 0 "s")]))
  (.seq (.ret [(.boolLit false)]) .skip) .skip) (.seq (.assign [(.var 0 "s")] [(.strLit [])]) (.seq (.assignOp .add (.var 2
  "i") (.glob .iPv4len)) (.seq .brk .skip)))))) .skip) (.seq (.assignOp .add (.var 2 "i") (.intLit 2)) (.seq (.assign [(.var
  0 "s")] [(.sliceFrom (.var 0 "s") (.var 4 "c"))]) (.seq (.ite .skip (.bin .eq (.call .len [(.var 0 "s")]) (.intLit 0))
  (.seq .brk .skip) .skip) (.seq (.ite .skip (.bin .or (.bin .ne (.index (.var 0 "s") (.intLit 0)) (.charLit 58)) (.bin .eq
  (.call .len [(.var 0 "s")]) (.intLit 1))) (.seq (.ret [(.boolLit false)]) .skip) .skip) (.seq (.assign [(.var 0 "s")]
  [(.sliceFrom (.var 0 "s") (.intLit 1))]) (.seq (.ite .skip (.bin .eq (.index (.var 0 "s") (.intLit 0)) (.charLit 58)) (.seq
  (.ite .skip (.bin .ge (.var 1 "ellipsis") (.intLit 0)) (.seq (.ret [(.boolLit false)]) .skip) .skip) (.seq (.assign [(.var
  1 "ellipsis")] [(.var 2 "i")]) (.seq (.assign [(.var 0 "s")] [(.sliceFrom (.var 0 "s") (.intLit 1))]) (.seq (.ite .skip
  (.bin .eq (.call .len [(.var 0 "s")]) (.intLit 0)) (.seq .brk .skip) .skip) .skip)))) .skip) .skip)))))))))

/-- net.go:90-173, statement 1. -/
def isIPv6_1 : Stmt :=
  (.define ["ellipsis"] [(.neg (.intLit 1))])

/-- net.go:90-173, statement 2. -/
def isIPv6_2 : Stmt :=
  (.ite .skip (.bin .and (.bin .and (.bin .ge (.call .len [(.var 0 "s")]) (.intLit 2)) (.bin .eq (.index (.var 0 "s")
  (.intLit 0)) (.charLit 58))) (.bin .eq (.index (.var 0 "s") (.intLit 1)) (.charLit 58))) (.seq (.assign [(.var 1
  "ellipsis")] [(.intLit 0)]) (.seq (.assign [(.var 0 "s")] [(.sliceFrom (.var 0 "s") (.intLit 2))]) (.seq (.ite .skip (.bin
  .eq (.call .len [(.var 0 "s")]) (.intLit 0)) (.seq (.ret [(.boolLit true)]) .skip) .skip) .skip))) .skip)

/-- net.go:90-173, statement 3. -/
def isIPv6_3 : Stmt :=
  (.define ["i"] [(.intLit 0)])

/-- net.go:90-173, statement 4. -/
def isIPv6_4 : Stmt :=
  (.loop .skip (.bin .lt (.var 2 "i") (.glob .iPv6len)) .skip isIPv6_loop1)

/-- net.go:90-173, statement 5. -/
def isIPv6_5 : Stmt :=
  (.ite .skip (.bin .ne (.call .len [(.var 0 "s")]) (.intLit 0)) (.seq (.ret [(.boolLit false)]) .skip) .skip)

/-- net.go:90-173, statement 6. -/
def isIPv6_6 : Stmt :=
  (.ite .skip (.bin .lt (.var 2 "i") (.glob .iPv6len)) (.seq (.ite .skip (.bin .lt (.var 1 "ellipsis") (.intLit 0)) (.seq
  (.ret [(.boolLit false)]) .skip) .skip) .skip) (.ite .skip (.bin .ge (.var 1 "ellipsis") (.intLit 0)) (.seq (.ret
  [(.boolLit false)]) .skip) .skip))

/-- net.go:90-173, statement 7. -/
def isIPv6_7 : Stmt :=
  (.ret [(.boolLit true)])

/-- net.go:90-173 -/
def isIPv6_func : Func where
  fn := .isIPv6
  params := [("s", .string)]
  results := [(none, .bool)]
  body := .seq isIPv6_1 <| .seq isIPv6_2 <| .seq isIPv6_3 <| .seq isIPv6_4 <| .seq isIPv6_5 <| .seq isIPv6_6 <| .seq isIPv6_7 <|
    .skip

/-- net.go:90-173 -/
def isIPv6_tokens : List Tok :=
  [.id "func", .id "isIPv6", .op "(", .id "s", .id "string", .op ")", .id "bool", .op "{", .id "ellipsis", .op ":=", .op "-",
   .int 1, .op ";", .id "if", .id "len", .op "(", .id "s", .op ")", .op ">=", .int 2, .op "&&", .id "s", .op "[", .int 0, .op
   "]", .op "==", .chr 58, .op "&&", .id "s", .op "[", .int 1, .op "]", .op "==", .chr 58, .op "{", .id "ellipsis", .op "=",
   .int 0, .op ";", .id "s", .op "=", .id "s", .op "[", .int 2, .op ":", .op "]", .op ";", .id "if", .id "len", .op "(", .id
   "s", .op ")", .op "==", .int 0, .op "{", .id "return", .id "true", .op ";", .op "}", .op ";", .op "}", .op ";", .id "i",
   .op ":=", .int 0, .op ";", .id "for", .id "i", .op "<", .id "iPv6len", .op "{", .id "n", .op ",", .id "c", .op ",", .id
   "ok", .op ":=", .id "xtoi", .op "(", .id "s", .op ")", .op ";", .id "if", .op "!", .id "ok", .op "||", .id "n", .op ">",
   .int 65535, .op "{", .id "return", .id "false", .op ";", .op "}", .op ";", .id "if", .id "c", .op "<", .id "len", .op "(",
   .id "s", .op ")", .op "&&", .id "labelSeparatorsRuneSet", .op ".", .id "Exists", .op "(", .op "[", .op "]", .id "rune",
   .op "(", .id "s", .op "[", .id "c", .op ":", .op "]", .op ")", .op "[", .int 0, .op "]", .op ")", .op "{", .id "if", .id
   "ellipsis", .op "<", .int 0, .op "&&", .id "i", .op "!=", .id "lenDiff", .op "{", .id "return", .id "false", .op ";", .op
   "}", .op ";", .id "if", .id "i", .op ">", .id "lenDiff", .op "{", .id "return", .id "false", .op ";", .op "}", .op ";",
   .id "if", .op "!", .id "isIPv4", .op "(", .id "s", .op ")", .op "{", .id "return", .id "false", .op ";", .op "}", .op ";",
   .id "s", .op "=", .str [], .op ";", .id "i", .op "+=", .id "iPv4len", .op ";", .id "break", .op ";", .op "}", .op ";", .id
   "i", .op "+=", .int 2, .op ";", .id "s", .op "=", .id "s", .op "[", .id "c", .op ":", .op "]", .op ";", .id "if", .id
   "len", .op "(", .id "s", .op ")", .op "==", .int 0, .op "{", .id "break", .op ";", .op "}", .op ";", .id "if", .id "s",
   .op "[", .int 0, .op "]", .op "!=", .chr 58, .op "||", .id "len", .op "(", .id "s", .op ")", .op "==", .int 1, .op "{",
   .id "return", .id "false", .op ";", .op "}", .op ";", .id "s", .op "=", .id "s", .op "[", .int 1, .op ":", .op "]", .op
   ";", .id "if", .id "s", .op "[", .int 0, .op "]", .op "==", .chr 58, .op "{", .id "if", .id "ellipsis", .op ">=", .int 0,
   .op "{", .id "return", .id "false", .op ";", .op "}", .op ";", .id "ellipsis", .op "=", .id "i", .op ";", .id "s", .op
   "=", .id "s", .op "[", .int 1, .op ":", .op "]", .op ";", .id "if", .id "len", .op "(", .id "s", .op ")", .op "==", .int
   0, .op "{", .id "break", .op ";", .op "}", .op ";", .op "}", .op ";", .op "}", .op ";", .id "if", .id "len", .op "(", .id
   "s", .op ")", .op "!=", .int 0, .op "{", .id "return", .id "false", .op ";", .op "}", .op ";", .id "if", .id "i", .op "<",
   .id "iPv6len", .op "{", .id "if", .id "ellipsis", .op "<", .int 0, .op "{", .id "return", .id "false", .op ";", .op "}",
   .op ";", .op "}", .id "else", .id "if", .id "ellipsis", .op ">=", .int 0, .op "{", .id "return", .id "false", .op ";", .op
   "}", .op ";", .id "return", .id "true", .op ";", .op "}", .op ";"]

theorem isIPv6_text : isIPv6_func.toks = isIPv6_tokens := by decide +kernel

theorem isIPv6_scoped : isIPv6_func.scoped = true := by decide +kernel

/-- fasttld.go:142-400: the body of a loop. -/
def Extract_loop1 : Stmt :=
  (.seq (.ite .skip (.bin .eq (.var 8 "r") (.charLit 91)) (.seq (.ite .skip (.bin .gt (.var 7 "i") (.intLit 0)) (.seq (.ret
  [(.var 2 "urlParts"), (.call .errorsNew [(.strLit [111, 112, 101, 110, 105, 110, 103, 32, 115, 113, 117, 97, 114, 101, 32,
  98, 114, 97, 99, 107, 101, 116, 32, 105, 115, 32, 110, 111, 116, 32, 102, 105, 114, 115, 116, 32, 99, 104, 97, 114, 97, 99,
  116, 101, 114, 32, 111, 102, 32, 104, 111, 115, 116, 110, 97, 109, 101])])]) .skip) .skip) (.seq (.assign [(.var 4
  "openingSquareBracketIdx")] [(.var 7 "i")]) .skip)) .skip) (.seq (.ite .skip (.bin .eq (.var 8 "r") (.charLit 93)) (.seq
  (.assign [(.var 5 "closingSquareBracketIdx")] [(.var 7 "i")]) .skip) .skip) (.seq (.ite .skip (.bin .eq (.var 4
  "openingSquareBracketIdx") (.neg (.intLit 1))) (.seq (.ite .skip (.bin .ne (.var 5 "closingSquareBracketIdx") (.neg
  (.intLit 1))) (.seq (.ret [(.var 2 "urlParts"), (.call .errorsNew [(.strLit [99, 108, 111, 115, 105, 110, 103, 32, 115,
  113, 117, 97, 114, 101, 32, 98, 114, 97, 99, 107, 101, 116, 32, 112, 114, 101, 115, 101, 110, 116, 32, 98, 117, 116, 32,
  110, 111, 32, 111, 112, 101, 110, 105, 110, 103, 32, 115, 113, 117, 97, 114, 101, 32, 98, 114, 97, 99, 107, 101, 116])])])
  .skip) .skip) (.seq (.ite .skip (.call .contains [(.glob .endOfHostDelimitersSet), (.var 8 "r")]) (.seq (.assign [(.var 6
  "hostEndIdx")] [(.var 7 "i")]) (.seq .brk .skip)) .skip) .skip)) (.ite .skip (.bin .and (.bin .gt (.var 5
  "closingSquareBracketIdx") (.var 4 "openingSquareBracketIdx")) (.call .contains [(.glob .endOfHostWithPortDelimitersSet),
  (.var 8 "r")])) (.seq (.assign [(.var 6 "hostEndIdx")] [(.var 7 "i")]) (.seq .brk .skip)) .skip)) (.seq (.ite .skip (.bin
  .and (.bin .eq (.var 7 "i") (.bin .sub (.call .len [(.var 3 "netloc")]) (.intLit 1))) (.bin .lt (.var 5
  "closingSquareBracketIdx") (.var 4 "openingSquareBracketIdx"))) (.seq (.ret [(.var 2 "urlParts"), (.call .errorsNew
  [(.strLit [105, 110, 99, 111, 109, 112, 108, 101, 116, 101, 32, 115, 113, 117, 97, 114, 101, 32, 98, 114, 97, 99, 107, 101,
  116, 32, 112, 97, 105, 114])])]) .skip) .skip) .skip))))

/-- fasttld.go:142-400: the body of a loop. -/
def Extract_loop2 : Stmt :=
  (.seq (.declare ["label"] .string) (.seq (.assign [(.var 14 "previousSepIdx")] [(.var 15 "sepIdx")]) (.seq (.assign [(.var
  15 "sepIdx")] [(.call .lastIndexAny [(.slice (.var 3 "netloc") (.intLit 0) (.var 15 "sepIdx")), (.glob
  .labelSeparatorsRuneSet)])]) (.seq (.ite .skip (.bin .ne (.var 15 "sepIdx") (.neg (.intLit 1))) (.seq (.assign [(.var 18
  "label")] [(.slice (.var 3 "netloc") (.bin .add (.var 15 "sepIdx") (.call .sepSize [(.index (.var 3 "netloc") (.var 15
  "sepIdx"))])) (.var 14 "previousSepIdx"))]) (.seq (.ite .skip (.bin .eq (.call .len [(.var 18 "label")]) (.intLit 0)) (.seq
  (.ite .skip (.not (.var 12 "hasLabels")) (.seq (.assign [(.var 17 "suffixEndIdx")] [(.var 15 "sepIdx")]) (.seq .cont
  .skip)) .skip) (.seq (.ret [(.var 2 "urlParts"), (.call .errorsNew [(.strLit [105, 110, 118, 97, 108, 105, 100, 32, 99,
  111, 110, 115, 101, 99, 117, 116, 105, 118, 101, 32, 108, 97, 98, 101, 108, 32, 115, 101, 112, 97, 114, 97, 116, 111, 114,
  115, 32, 111, 110, 32, 108, 101, 102, 116, 45, 104, 97, 110, 100, 32, 115, 105, 100, 101, 32, 111, 102, 32, 97, 32, 108,
  97, 98, 101, 108])])]) .skip)) .skip) (.seq (.assign [(.var 12 "hasLabels")] [(.boolLit true)]) .skip))) (.seq (.assign
  [(.var 18 "label")] [(.slice (.var 3 "netloc") (.intLit 0) (.var 14 "previousSepIdx"))]) (.seq (.assign [(.var 13 "end")]
  [(.boolLit true)]) .skip))) (.seq (.ite (.define ["_", "ok"] [(.call .Get [(.field (.var 10 "node") .matches), (.strLit
  [42])])]) (.var 19 "ok") (.seq (.ite (.define ["_", "ok"] [(.call .Get [(.field (.var 10 "node") .matches), (.bin .add
  (.strLit [33]) (.var 18 "label"))])]) (.var 20 "ok") (.seq (.assign [(.var 15 "sepIdx")] [(.var 14 "previousSepIdx")])
  .skip) .skip) (.seq .brk .skip)) .skip) (.seq (.assign [(.var 18 "label"), .blank] [(.call .QueryUnescape [(.var 18
  "label")])]) (.seq (.ite (.define ["val", "ok"] [(.call .Get [(.field (.var 10 "node") .matches), (.var 18 "label")])])
  (.var 20 "ok") (.seq (.assign [(.var 16 "suffixStartIdx")] [(.var 15 "sepIdx")]) (.seq (.ite .skip (.bin .and (.not (.var
  11 "hasSuffix")) (.field (.var 19 "val") .end)) (.seq (.assign [(.var 17 "suffixEndIdx")] [(.var 14 "previousSepIdx")])
  (.seq (.assign [(.var 11 "hasSuffix")] [(.boolLit true)]) .skip)) .skip) (.seq (.assign [(.var 10 "node")] [(.var 19
  "val")]) (.seq (.ite .skip (.bin .eq (.call .Len [(.field (.var 19 "val") .matches)]) (.intLit 0)) (.seq .brk .skip) .skip)
  .skip)))) (.seq (.ite .skip (.bin .ne (.var 14 "previousSepIdx") (.call .len [(.var 3 "netloc")])) (.seq (.assign [(.var 15
  "sepIdx")] [(.var 14 "previousSepIdx")]) .skip) .skip) (.seq .brk .skip))) .skip)))))))

/-- fasttld.go:142-400, statement 1. -/
def Extract_1 : Stmt :=
  (.define ["urlParts"] [.zeroResult])

/-- fasttld.go:142-400, statement 2. -/
def Extract_2 : Stmt :=
  (.define ["netloc"] [(.call .fastTrim [(.field (.var 1 "e") .URL), (.glob .whitespaceRuneSet), (.glob .trimBoth)])])

/-- fasttld.go:142-400, statement 3. -/
def Extract_3 : Stmt :=
  (.ite (.define ["schemeEndIndex"] [(.call .getSchemeEndIndex [(.var 3 "netloc")])]) (.bin .ne (.var 4 "schemeEndIndex")
  (.neg (.intLit 1))) (.seq (.assign [(.field 2 "urlParts" .Scheme)] [(.slice (.var 3 "netloc") (.intLit 0) (.var 4
  "schemeEndIndex"))]) (.seq (.assign [(.var 3 "netloc")] [(.sliceFrom (.var 3 "netloc") (.var 4 "schemeEndIndex"))]) .skip))
  .skip)

/-- fasttld.go:142-400, statement 4. -/
def Extract_4 : Stmt :=
  (.ite (.define ["atIdx"] [(.call .indexLastByteBefore [(.var 3 "netloc"), (.charLit 64), (.glob
  .invalidUserInfoCharsSet)])]) (.bin .ne (.var 4 "atIdx") (.neg (.intLit 1))) (.seq (.assign [(.field 2 "urlParts"
  .UserInfo)] [(.slice (.var 3 "netloc") (.intLit 0) (.var 4 "atIdx"))]) (.seq (.assign [(.var 3 "netloc")] [(.sliceFrom
  (.var 3 "netloc") (.bin .add (.var 4 "atIdx") (.intLit 1)))]) .skip)) .skip)

/-- fasttld.go:142-400, statement 5. -/
def Extract_5 : Stmt :=
  (.define ["openingSquareBracketIdx"] [(.neg (.intLit 1))])

/-- fasttld.go:142-400, statement 6. -/
def Extract_6 : Stmt :=
  (.define ["closingSquareBracketIdx"] [(.neg (.intLit 1))])

/-- fasttld.go:142-400, statement 7. -/
def Extract_7 : Stmt :=
  (.define ["hostEndIdx"] [(.neg (.intLit 1))])

/-- fasttld.go:142-400, statement 8. -/
def Extract_8 : Stmt :=
  (.range "i" "r" (.call .toBytes [(.var 3 "netloc")]) Extract_loop1)

/-- fasttld.go:142-400, statement 9. -/
def Extract_9 : Stmt :=
  (.ite .skip (.bin .eq (.var 5 "closingSquareBracketIdx") (.bin .sub (.call .len [(.var 3 "netloc")]) (.intLit 1))) (.seq
  (.assign [(.var 6 "hostEndIdx")] [(.neg (.intLit 1))]) .skip) (.ite .skip (.bin .ne (.var 5 "closingSquareBracketIdx")
  (.neg (.intLit 1))) (.seq (.assign [(.var 6 "hostEndIdx")] [(.bin .add (.var 5 "closingSquareBracketIdx") (.intLit 1))])
  .skip) .skip))

/-- fasttld.go:142-400, statement 10. -/
def Extract_10 : Stmt :=
  (.ite .skip (.bin .gt (.var 5 "closingSquareBracketIdx") (.var 4 "openingSquareBracketIdx")) (.seq (.ite .skip (.not (.call
  .isIPv6 [(.slice (.var 3 "netloc") (.intLit 1) (.var 5 "closingSquareBracketIdx"))])) (.seq (.ret [(.var 2 "urlParts"),
  (.call .errorsNew [(.strLit [105, 110, 118, 97, 108, 105, 100, 32, 73, 80, 118, 54, 32, 97, 100, 100, 114, 101, 115,
  115])])]) .skip) .skip) (.seq (.ite .skip (.bin .ne (.var 6 "hostEndIdx") (.neg (.intLit 1))) (.seq (.define ["afterHost"]
  [(.sliceFrom (.var 3 "netloc") (.var 6 "hostEndIdx"))]) (.seq (.ite .skip (.bin .ne (.call .indexAnyASCII [(.var 7
  "afterHost"), (.glob .endOfHostDelimitersSet)]) (.intLit 0)) (.seq (.ret [(.var 2 "urlParts"), (.call .errorsNew [(.strLit
  [105, 110, 118, 97, 108, 105, 100, 32, 116, 114, 97, 105, 108, 105, 110, 103, 32, 99, 104, 97, 114, 97, 99, 116, 101, 114,
  115, 32, 97, 102, 116, 101, 114, 32, 73, 80, 118, 54, 32, 97, 100, 100, 114, 101, 115, 115])])]) .skip) .skip) .skip))
  .skip) (.seq (.assign [(.field 2 "urlParts" .HostType)] [(.glob .IPv6)]) (.seq (.assign [(.field 2 "urlParts" .Domain)]
  [(.slice (.var 3 "netloc") (.intLit 1) (.var 5 "closingSquareBracketIdx"))]) (.seq (.assign [(.field 2 "urlParts"
  .RegisteredDomain)] [(.slice (.var 3 "netloc") (.intLit 1) (.var 5 "closingSquareBracketIdx"))]) .skip))))) .skip)

/-- fasttld.go:142-400, statement 11. -/
def Extract_11 : Stmt :=
  (.declare ["afterHost"] .string)

/-- fasttld.go:142-400, statement 12. -/
def Extract_12 : Stmt :=
  (.ite .skip (.bin .ne (.var 6 "hostEndIdx") (.neg (.intLit 1))) (.seq (.assign [(.var 7 "afterHost")] [(.sliceFrom (.var 3
  "netloc") (.var 6 "hostEndIdx"))]) (.seq (.assign [(.var 3 "netloc")] [(.slice (.var 3 "netloc") (.intLit 0) (.var 6
  "hostEndIdx"))]) .skip)) .skip)

/-- fasttld.go:142-400, statement 13. -/
def Extract_13 : Stmt :=
  (.ite .skip (.bin .ne (.call .len [(.var 7 "afterHost")]) (.intLit 0)) (.seq (.define ["pathStartIndex"] [(.call
  .indexAnyASCII [(.var 7 "afterHost"), (.glob .endOfHostWithPortDelimitersSet)])]) (.seq (.ite .skip (.bin .eq (.index (.var
  7 "afterHost") (.intLit 0)) (.charLit 58)) (.seq (.declare ["maybePort"] .string) (.seq (.ite .skip (.bin .eq (.var 8
  "pathStartIndex") (.neg (.intLit 1))) (.seq (.assign [(.var 9 "maybePort")] [(.sliceFrom (.var 7 "afterHost") (.intLit
  1))]) .skip) (.seq (.assign [(.var 9 "maybePort")] [(.slice (.var 7 "afterHost") (.intLit 1) (.var 8 "pathStartIndex"))])
  .skip)) (.seq (.ite (.define ["port", "err"] [(.call .Atoi [(.var 9 "maybePort")])]) (.bin .and (.bin .and (.bin .eq (.var
  11 "err") .nil) (.bin .le (.intLit 0) (.var 10 "port"))) (.bin .le (.var 10 "port") (.glob .largestPortNumber))) (.seq
  (.assign [(.field 2 "urlParts" .Port)] [(.var 9 "maybePort")]) .skip) (.seq (.ret [(.var 2 "urlParts"), (.call .errorsNew
  [(.strLit [105, 110, 118, 97, 108, 105, 100, 32, 112, 111, 114, 116])])]) .skip)) .skip))) .skip) (.seq (.ite .skip (.bin
  .and (.bin .ne (.var 8 "pathStartIndex") (.neg (.intLit 1))) (.bin .ne (.var 8 "pathStartIndex") (.call .len [(.var 7
  "afterHost")]))) (.seq (.assign [(.field 2 "urlParts" .Path)] [(.sliceFrom (.var 7 "afterHost") (.var 8
  "pathStartIndex"))]) .skip) .skip) .skip))) .skip)

/-- fasttld.go:142-400, statement 14. -/
def Extract_14 : Stmt :=
  (.ite .skip (.bin .eq (.field (.var 2 "urlParts") .HostType) (.glob .IPv6)) (.seq (.ret [(.var 2 "urlParts"), .nil]) .skip)
  .skip)

/-- fasttld.go:142-400, statement 15. -/
def Extract_15 : Stmt :=
  (.define ["unescapedNetloc", "err"] [(.call .QueryUnescape [(.var 3 "netloc")])])

/-- fasttld.go:142-400, statement 16. -/
def Extract_16 : Stmt :=
  (.ite .skip (.bin .ne (.var 9 "err") .nil) (.seq (.ret [(.var 2 "urlParts"), (.var 9 "err")]) .skip) .skip)

/-- fasttld.go:142-400, statement 17. -/
def Extract_17 : Stmt :=
  (.ite .skip (.field (.var 1 "e") .ConvertURLToPunyCode) (.seq (.assign [(.var 3 "netloc")] [(.call .formatAsPunycode [(.var
  8 "unescapedNetloc")])]) .skip) (.ite (.define ["_", "err"] [(.call .ToUnicode [(.var 8 "unescapedNetloc")])]) (.bin .ne
  (.var 10 "err") .nil) (.seq (.expr (.call .Println [(.index (.call .SplitAfterN [(.call .Error [(.var 10 "err")]), (.strLit
  [105, 100, 110, 97, 58, 32, 105, 110, 118, 97, 108, 105, 100, 32, 108, 97, 98, 101, 108]), (.intLit 2)]) (.intLit 0))]))
  (.seq (.ret [(.var 2 "urlParts"), (.var 10 "err")]) .skip)) .skip))

/-- fasttld.go:142-400, statement 18. -/
def Extract_18 : Stmt :=
  (.define ["node"] [(.field (.var 0 "f") .tldTrie)])

/-- fasttld.go:142-400, statement 19. -/
def Extract_19 : Stmt :=
  (.declareGroup [("hasSuffix", .bool), ("hasLabels", .bool), ("end", .bool), ("previousSepIdx", .int)])

/-- fasttld.go:142-400, statement 20. -/
def Extract_20 : Stmt :=
  (.define ["sepIdx", "suffixStartIdx", "suffixEndIdx"] [(.call .len [(.var 3 "netloc")]), (.call .len [(.var 3 "netloc")]),
  (.call .len [(.var 3 "netloc")])])

/-- fasttld.go:142-400, statement 21. -/
def Extract_21 : Stmt :=
  (.loop .skip (.not (.var 13 "end")) .skip Extract_loop2)

/-- fasttld.go:142-400, statement 22. -/
def Extract_22 : Stmt :=
  (.ite .skip (.bin .and (.bin .and (.bin .ge (.call .len [(.var 3 "netloc")]) (.intLit 7)) (.call .contains [(.glob
  .numericSet), (.index (.var 3 "netloc") (.intLit 0))])) (.call .isIPv4 [(.var 3 "netloc")])) (.seq (.assign [(.field 2
  "urlParts" .HostType)] [(.glob .IPv4)]) (.seq (.assign [(.field 2 "urlParts" .Domain)] [(.slice (.var 3 "netloc") (.intLit
  0) (.var 14 "previousSepIdx"))]) (.seq (.assign [(.field 2 "urlParts" .RegisteredDomain)] [(.field (.var 2 "urlParts")
  .Domain)]) (.seq (.ret [(.var 2 "urlParts"), .nil]) .skip)))) .skip)

/-- fasttld.go:142-400, statement 23. -/
def Extract_23 : Stmt :=
  (.ite .skip (.bin .eq (.var 15 "sepIdx") (.neg (.intLit 1))) (.seq (.assign [(.var 15 "sepIdx"), (.var 16
  "suffixStartIdx")] [(.call .len [(.var 3 "netloc")]), (.call .len [(.var 3 "netloc")])]) .skip) .skip)

/-- fasttld.go:142-400, statement 24. -/
def Extract_24 : Stmt :=
  (.ite .skip (.var 11 "hasSuffix") (.seq (.ite .skip (.call .hasInvalidChars [(.slice (.var 3 "netloc") (.intLit 0) (.var 16
  "suffixStartIdx"))]) (.seq (.ret [(.var 2 "urlParts"), (.call .errorsNew [(.strLit [105, 110, 118, 97, 108, 105, 100, 32,
  99, 104, 97, 114, 97, 99, 116, 101, 114, 115, 32, 105, 110, 32, 104, 111, 115, 116, 110, 97, 109, 101])])]) .skip) .skip)
  .skip) (.seq (.ite .skip (.call .hasInvalidChars [(.slice (.var 3 "netloc") (.intLit 0) (.var 14 "previousSepIdx"))]) (.seq
  (.ret [(.var 2 "urlParts"), (.call .errorsNew [(.strLit [105, 110, 118, 97, 108, 105, 100, 32, 99, 104, 97, 114, 97, 99,
  116, 101, 114, 115, 32, 105, 110, 32, 104, 111, 115, 116, 110, 97, 109, 101])])]) .skip) .skip) .skip))

/-- fasttld.go:142-400, statement 25. -/
def Extract_25 : Stmt :=
  (.declare ["domainStartSepIdx"] .int)

/-- fasttld.go:142-400, statement 26. -/
def Extract_26 : Stmt :=
  (.ite .skip (.var 11 "hasSuffix") (.seq (.ite .skip (.bin .lt (.var 15 "sepIdx") (.call .len [(.var 3 "netloc")])) (.seq
  (.assign [(.field 2 "urlParts" .Suffix)] [(.slice (.var 3 "netloc") (.bin .add (.var 15 "sepIdx") (.call .sepSize [(.index
  (.var 3 "netloc") (.var 15 "sepIdx"))])) (.var 17 "suffixEndIdx"))]) (.seq (.assign [(.var 18 "domainStartSepIdx")] [(.call
  .lastIndexAny [(.slice (.var 3 "netloc") (.intLit 0) (.var 15 "sepIdx")), (.glob .labelSeparatorsRuneSet)])]) (.seq (.ite
  .skip (.bin .ne (.var 18 "domainStartSepIdx") (.neg (.intLit 1))) (.seq (.define ["domainStartIdx"] [(.bin .add (.var 18
  "domainStartSepIdx") (.call .sepSize [(.index (.var 3 "netloc") (.var 18 "domainStartSepIdx"))]))]) (.seq (.assign [(.field
  2 "urlParts" .Domain)] [(.slice (.var 3 "netloc") (.var 19 "domainStartIdx") (.var 15 "sepIdx"))]) (.seq (.assign [(.field
  2 "urlParts" .RegisteredDomain)] [(.slice (.var 3 "netloc") (.var 19 "domainStartIdx") (.var 17 "suffixEndIdx"))]) .skip)))
  (.seq (.assign [(.field 2 "urlParts" .Domain)] [(.slice (.var 3 "netloc") (.intLit 0) (.var 15 "sepIdx"))]) (.seq (.assign
  [(.field 2 "urlParts" .RegisteredDomain)] [(.slice (.var 3 "netloc") (.intLit 0) (.var 17 "suffixEndIdx"))]) .skip)))
  .skip))) (.seq (.assign [(.field 2 "urlParts" .Suffix)] [(.slice (.var 3 "netloc") (.intLit 0) (.var 17 "suffixEndIdx"))])
  .skip)) .skip) (.seq (.assign [(.var 18 "domainStartSepIdx")] [(.call .lastIndexAny [(.slice (.var 3 "netloc") (.intLit 0)
  (.var 17 "suffixEndIdx")), (.glob .labelSeparatorsRuneSet)])]) (.seq (.declare ["domainStartIdx"] .int) (.seq (.ite .skip
  (.bin .ne (.var 18 "domainStartSepIdx") (.neg (.intLit 1))) (.seq (.assign [(.var 19 "domainStartIdx")] [(.bin .add (.var
  18 "domainStartSepIdx") (.call .sepSize [(.index (.var 3 "netloc") (.var 18 "domainStartSepIdx"))]))]) .skip) .skip) (.seq
  (.assign [(.field 2 "urlParts" .Domain)] [(.slice (.var 3 "netloc") (.var 19 "domainStartIdx") (.var 17 "suffixEndIdx"))])
  .skip)))))

/-- fasttld.go:142-400, statement 27. -/
def Extract_27 : Stmt :=
  (.ite .skip (.bin .and (.not (.field (.var 1 "e") .IgnoreSubDomains)) (.bin .ne (.var 18 "domainStartSepIdx") (.neg
  (.intLit 1)))) (.seq (.assign [(.field 2 "urlParts" .SubDomain)] [(.slice (.var 3 "netloc") (.intLit 0) (.var 18
  "domainStartSepIdx"))]) .skip) .skip)

/-- fasttld.go:142-400, statement 28. -/
def Extract_28 : Stmt :=
  (.ite .skip (.bin .eq (.call .len [(.field (.var 2 "urlParts") .Domain)]) (.intLit 0)) (.seq (.ret [(.var 2 "urlParts"),
  (.call .errorsNew [(.strLit [101, 109, 112, 116, 121, 32, 100, 111, 109, 97, 105, 110])])]) .skip) .skip)

/-- fasttld.go:142-400, statement 29. -/
def Extract_29 : Stmt :=
  (.assign [(.field 2 "urlParts" .HostType)] [(.glob .HostName)])

/-- fasttld.go:142-400, statement 30. -/
def Extract_30 : Stmt :=
  (.ret [(.var 2 "urlParts"), .nil])

/-- fasttld.go:142-400 -/
def Extract_func : Func where
  fn := .Extract
  recv := some ("f", .FastTLD)
  params := [("e", .URLParams)]
  results := [(none, .ExtractResult), (none, .error)]
  body := .seq Extract_1 <| .seq Extract_2 <| .seq Extract_3 <| .seq Extract_4 <| .seq Extract_5 <| .seq Extract_6 <| .seq
    Extract_7 <| .seq Extract_8 <| .seq Extract_9 <| .seq Extract_10 <| .seq Extract_11 <| .seq Extract_12 <| .seq Extract_13
    <| .seq Extract_14 <| .seq Extract_15 <| .seq Extract_16 <| .seq Extract_17 <| .seq Extract_18 <| .seq Extract_19 <| .seq
    Extract_20 <| .seq Extract_21 <| .seq Extract_22 <| .seq Extract_23 <| .seq Extract_24 <| .seq Extract_25 <| .seq
    Extract_26 <| .seq Extract_27 <| .seq Extract_28 <| .seq Extract_29 <| .seq Extract_30 <| .skip

/-- fasttld.go:142-400 -/
def Extract_tokens : List Tok :=
  [.id "func", .op "(", .id "f", .op "*", .id "FastTLD", .op ")", .id "Extract", .op "(", .id "e", .id "URLParams", .op ")",
   .op "(", .id "ExtractResult", .op ",", .id "error", .op ")", .op "{", .id "urlParts", .op ":=", .id "ExtractResult", .op
   "{", .op "}", .op ";", .id "netloc", .op ":=", .id "fastTrim", .op "(", .id "e", .op ".", .id "URL", .op ",", .id
   "whitespaceRuneSet", .op ",", .id "trimBoth", .op ")", .op ";", .id "if", .id "schemeEndIndex", .op ":=", .id
   "getSchemeEndIndex", .op "(", .id "netloc", .op ")", .op ";", .id "schemeEndIndex", .op "!=", .op "-", .int 1, .op "{",
   .id "urlParts", .op ".", .id "Scheme", .op "=", .id "netloc", .op "[", .int 0, .op ":", .id "schemeEndIndex", .op "]", .op
   ";", .id "netloc", .op "=", .id "netloc", .op "[", .id "schemeEndIndex", .op ":", .op "]", .op ";", .op "}", .op ";", .id
   "if", .id "atIdx", .op ":=", .id "indexLastByteBefore", .op "(", .id "netloc", .op ",", .chr 64, .op ",", .id
   "invalidUserInfoCharsSet", .op ")", .op ";", .id "atIdx", .op "!=", .op "-", .int 1, .op "{", .id "urlParts", .op ".", .id
   "UserInfo", .op "=", .id "netloc", .op "[", .int 0, .op ":", .id "atIdx", .op "]", .op ";", .id "netloc", .op "=", .id
   "netloc", .op "[", .id "atIdx", .op "+", .int 1, .op ":", .op "]", .op ";", .op "}", .op ";", .id
   "openingSquareBracketIdx", .op ":=", .op "-", .int 1, .op ";", .id "closingSquareBracketIdx", .op ":=", .op "-", .int 1,
   .op ";", .id "hostEndIdx", .op ":=", .op "-", .int 1, .op ";", .id "for", .id "i", .op ",", .id "r", .op ":=", .id
   "range", .op "[", .op "]", .id "byte", .op "(", .id "netloc", .op ")", .op "{", .id "if", .id "r", .op "==", .chr 91, .op
   "{", .id "if", .id "i", .op ">", .int 0, .op "{", .id "return", .id "urlParts", .op ",", .id "errors", .op ".", .id "New",
   .op "(", .str [111, 112, 101, 110, 105, 110, 103, 32, 115, 113, 117, 97, 114, 101, 32, 98, 114, 97, 99, 107, 101, 116, 32,
   105, 115, 32, 110, 111, 116, 32, 102, 105, 114, 115, 116, 32, 99, 104, 97, 114, 97, 99, 116, 101, 114, 32, 111, 102, 32,
   104, 111, 115, 116, 110, 97, 109, 101], .op ")", .op ";", .op "}", .op ";", .id "openingSquareBracketIdx", .op "=", .id
   "i", .op ";", .op "}", .op ";", .id "if", .id "r", .op "==", .chr 93, .op "{", .id "closingSquareBracketIdx", .op "=", .id
   "i", .op ";", .op "}", .op ";", .id "if", .id "openingSquareBracketIdx", .op "==", .op "-", .int 1, .op "{", .id "if", .id
   "closingSquareBracketIdx", .op "!=", .op "-", .int 1, .op "{", .id "return", .id "urlParts", .op ",", .id "errors", .op
   ".", .id "New", .op "(", .str [99, 108, 111, 115, 105, 110, 103, 32, 115, 113, 117, 97, 114, 101, 32, 98, 114, 97, 99,
   107, 101, 116, 32, 112, 114, 101, 115, 101, 110, 116, 32, 98, 117, 116, 32, 110, 111, 32, 111, 112, 101, 110, 105, 110,
   103, 32, 115, 113, 117, 97, 114, 101, 32, 98, 114, 97, 99, 107, 101, 116], .op ")", .op ";", .op "}", .op ";", .id "if",
   .id "endOfHostDelimitersSet", .op ".", .id "contains", .op "(", .id "r", .op ")", .op "{", .id "hostEndIdx", .op "=", .id
   "i", .op ";", .id "break", .op ";", .op "}", .op ";", .op "}", .id "else", .id "if", .id "closingSquareBracketIdx", .op
   ">", .id "openingSquareBracketIdx", .op "&&", .id "endOfHostWithPortDelimitersSet", .op ".", .id "contains", .op "(", .id
   "r", .op ")", .op "{", .id "hostEndIdx", .op "=", .id "i", .op ";", .id "break", .op ";", .op "}", .op ";", .id "if", .id
   "i", .op "==", .id "len", .op "(", .id "netloc", .op ")", .op "-", .int 1, .op "&&", .id "closingSquareBracketIdx", .op
   "<", .id "openingSquareBracketIdx", .op "{", .id "return", .id "urlParts", .op ",", .id "errors", .op ".", .id "New", .op
   "(", .str [105, 110, 99, 111, 109, 112, 108, 101, 116, 101, 32, 115, 113, 117, 97, 114, 101, 32, 98, 114, 97, 99, 107,
   101, 116, 32, 112, 97, 105, 114], .op ")", .op ";", .op "}", .op ";", .op "}", .op ";", .id "if", .id
   "closingSquareBracketIdx", .op "==", .id "len", .op "(", .id "netloc", .op ")", .op "-", .int 1, .op "{", .id
   "hostEndIdx", .op "=", .op "-", .int 1, .op ";", .op "}", .id "else", .id "if", .id "closingSquareBracketIdx", .op "!=",
   .op "-", .int 1, .op "{", .id "hostEndIdx", .op "=", .id "closingSquareBracketIdx", .op "+", .int 1, .op ";", .op "}", .op
   ";", .id "if", .id "closingSquareBracketIdx", .op ">", .id "openingSquareBracketIdx", .op "{", .id "if", .op "!", .id
   "isIPv6", .op "(", .id "netloc", .op "[", .int 1, .op ":", .id "closingSquareBracketIdx", .op "]", .op ")", .op "{", .id
   "return", .id "urlParts", .op ",", .id "errors", .op ".", .id "New", .op "(", .str [105, 110, 118, 97, 108, 105, 100, 32,
   73, 80, 118, 54, 32, 97, 100, 100, 114, 101, 115, 115], .op ")", .op ";", .op "}", .op ";", .id "if", .id "hostEndIdx",
   .op "!=", .op "-", .int 1, .op "{", .id "afterHost", .op ":=", .id "netloc", .op "[", .id "hostEndIdx", .op ":", .op "]",
   .op ";", .id "if", .id "indexAnyASCII", .op "(", .id "afterHost", .op ",", .id "endOfHostDelimitersSet", .op ")", .op
   "!=", .int 0, .op "{", .id "return", .id "urlParts", .op ",", .id "errors", .op ".", .id "New", .op "(", .str [105, 110,
   118, 97, 108, 105, 100, 32, 116, 114, 97, 105, 108, 105, 110, 103, 32, 99, 104, 97, 114, 97, 99, 116, 101, 114, 115, 32,
   97, 102, 116, 101, 114, 32, 73, 80, 118, 54, 32, 97, 100, 100, 114, 101, 115, 115], .op ")", .op ";", .op "}", .op ";",
   .op "}", .op ";", .id "urlParts", .op ".", .id "HostType", .op "=", .id "IPv6", .op ";", .id "urlParts", .op ".", .id
   "Domain", .op "=", .id "netloc", .op "[", .int 1, .op ":", .id "closingSquareBracketIdx", .op "]", .op ";", .id
   "urlParts", .op ".", .id "RegisteredDomain", .op "=", .id "netloc", .op "[", .int 1, .op ":", .id
   "closingSquareBracketIdx", .op "]", .op ";", .op "}", .op ";", .id "var", .id "afterHost", .id "string", .op ";", .id
   "if", .id "hostEndIdx", .op "!=", .op "-", .int 1, .op "{", .id "afterHost", .op "=", .id "netloc", .op "[", .id
   "hostEndIdx", .op ":", .op "]", .op ";", .id "netloc", .op "=", .id "netloc", .op "[", .int 0, .op ":", .id "hostEndIdx",
   .op "]", .op ";", .op "}", .op ";", .id "if", .id "len", .op "(", .id "afterHost", .op ")", .op "!=", .int 0, .op "{", .id
   "pathStartIndex", .op ":=", .id "indexAnyASCII", .op "(", .id "afterHost", .op ",", .id "endOfHostWithPortDelimitersSet",
   .op ")", .op ";", .id "if", .id "afterHost", .op "[", .int 0, .op "]", .op "==", .chr 58, .op "{", .id "var", .id
   "maybePort", .id "string", .op ";", .id "if", .id "pathStartIndex", .op "==", .op "-", .int 1, .op "{", .id "maybePort",
   .op "=", .id "afterHost", .op "[", .int 1, .op ":", .op "]", .op ";", .op "}", .id "else", .op "{", .id "maybePort", .op
   "=", .id "afterHost", .op "[", .int 1, .op ":", .id "pathStartIndex", .op "]", .op ";", .op "}", .op ";", .id "if", .id
   "port", .op ",", .id "err", .op ":=", .id "strconv", .op ".", .id "Atoi", .op "(", .id "maybePort", .op ")", .op ";", .id
   "err", .op "==", .id "nil", .op "&&", .int 0, .op "<=", .id "port", .op "&&", .id "port", .op "<=", .id
   "largestPortNumber", .op "{", .id "urlParts", .op ".", .id "Port", .op "=", .id "maybePort", .op ";", .op "}", .id "else",
   .op "{", .id "return", .id "urlParts", .op ",", .id "errors", .op ".", .id "New", .op "(", .str [105, 110, 118, 97, 108,
   105, 100, 32, 112, 111, 114, 116], .op ")", .op ";", .op "}", .op ";", .op "}", .op ";", .id "if", .id "pathStartIndex",
   .op "!=", .op "-", .int 1, .op "&&", .id "pathStartIndex", .op "!=", .id "len", .op "(", .id "afterHost", .op ")", .op
   "{", .id "urlParts", .op ".", .id "Path", .op "=", .id "afterHost", .op "[", .id "pathStartIndex", .op ":", .op "]", .op
   ";", .op "}", .op ";", .op "}", .op ";", .id "if", .id "urlParts", .op ".", .id "HostType", .op "==", .id "IPv6", .op "{",
   .id "return", .id "urlParts", .op ",", .id "nil", .op ";", .op "}", .op ";", .id "unescapedNetloc", .op ",", .id "err",
   .op ":=", .id "url", .op ".", .id "QueryUnescape", .op "(", .id "netloc", .op ")", .op ";", .id "if", .id "err", .op "!=",
   .id "nil", .op "{", .id "return", .id "urlParts", .op ",", .id "err", .op ";", .op "}", .op ";", .id "if", .id "e", .op
   ".", .id "ConvertURLToPunyCode", .op "{", .id "netloc", .op "=", .id "formatAsPunycode", .op "(", .id "unescapedNetloc",
   .op ")", .op ";", .op "}", .id "else", .id "if", .id "_", .op ",", .id "err", .op ":=", .id "idna", .op ".", .id
   "ToUnicode", .op "(", .id "unescapedNetloc", .op ")", .op ";", .id "err", .op "!=", .id "nil", .op "{", .id "log", .op
   ".", .id "Println", .op "(", .id "strings", .op ".", .id "SplitAfterN", .op "(", .id "err", .op ".", .id "Error", .op "(",
   .op ")", .op ",", .str [105, 100, 110, 97, 58, 32, 105, 110, 118, 97, 108, 105, 100, 32, 108, 97, 98, 101, 108], .op ",",
   .int 2, .op ")", .op "[", .int 0, .op "]", .op ")", .op ";", .id "return", .id "urlParts", .op ",", .id "err", .op ";",
   .op "}", .op ";", .id "node", .op ":=", .id "f", .op ".", .id "tldTrie", .op ";", .id "var", .op "(", .id "hasSuffix", .id
   "bool", .op ";", .id "hasLabels", .id "bool", .op ";", .id "end", .id "bool", .op ";", .id "previousSepIdx", .id "int",
   .op ";", .op ")", .op ";", .id "sepIdx", .op ",", .id "suffixStartIdx", .op ",", .id "suffixEndIdx", .op ":=", .id "len",
   .op "(", .id "netloc", .op ")", .op ",", .id "len", .op "(", .id "netloc", .op ")", .op ",", .id "len", .op "(", .id
   "netloc", .op ")", .op ";", .id "for", .op "!", .id "end", .op "{", .id "var", .id "label", .id "string", .op ";", .id
   "previousSepIdx", .op "=", .id "sepIdx", .op ";", .id "sepIdx", .op "=", .id "lastIndexAny", .op "(", .id "netloc", .op
   "[", .int 0, .op ":", .id "sepIdx", .op "]", .op ",", .id "labelSeparatorsRuneSet", .op ")", .op ";", .id "if", .id
   "sepIdx", .op "!=", .op "-", .int 1, .op "{", .id "label", .op "=", .id "netloc", .op "[", .id "sepIdx", .op "+", .id
   "sepSize", .op "(", .id "netloc", .op "[", .id "sepIdx", .op "]", .op ")", .op ":", .id "previousSepIdx", .op "]", .op
   ";", .id "if", .id "len", .op "(", .id "label", .op ")", .op "==", .int 0, .op "{", .id "if", .op "!", .id "hasLabels",
   .op "{", .id "suffixEndIdx", .op "=", .id "sepIdx", .op ";", .id "continue", .op ";", .op "}", .op ";", .id "return", .id
   "urlParts", .op ",", .id "errors", .op ".", .id "New", .op "(", .str [105, 110, 118, 97, 108, 105, 100, 32, 99, 111, 110,
   115, 101, 99, 117, 116, 105, 118, 101, 32, 108, 97, 98, 101, 108, 32, 115, 101, 112, 97, 114, 97, 116, 111, 114, 115, 32,
   111, 110, 32, 108, 101, 102, 116, 45, 104, 97, 110, 100, 32, 115, 105, 100, 101, 32, 111, 102, 32, 97, 32, 108, 97, 98,
   101, 108], .op ")", .op ";", .op "}", .op ";", .id "hasLabels", .op "=", .id "true", .op ";", .op "}", .id "else", .op
   "{", .id "label", .op "=", .id "netloc", .op "[", .int 0, .op ":", .id "previousSepIdx", .op "]", .op ";", .id "end", .op
   "=", .id "true", .op ";", .op "}", .op ";", .id "if", .id "_", .op ",", .id "ok", .op ":=", .id "node", .op ".", .id
   "matches", .op ".", .id "Get", .op "(", .str [42], .op ")", .op ";", .id "ok", .op "{", .id "if", .id "_", .op ",", .id
   "ok", .op ":=", .id "node", .op ".", .id "matches", .op ".", .id "Get", .op "(", .str [33], .op "+", .id "label", .op ")",
   .op ";", .id "ok", .op "{", .id "sepIdx", .op "=", .id "previousSepIdx", .op ";", .op "}", .op ";", .id "break", .op ";",
   .op "}", .op ";", .id "label", .op ",", .id "_", .op "=", .id "url", .op ".", .id "QueryUnescape", .op "(", .id "label",
   .op ")", .op ";", .id "if", .id "val", .op ",", .id "ok", .op ":=", .id "node", .op ".", .id "matches", .op ".", .id
   "Get", .op "(", .id "label", .op ")", .op ";", .id "ok", .op "{", .id "suffixStartIdx", .op "=", .id "sepIdx", .op ";",
   .id "if", .op "!", .id "hasSuffix", .op "&&", .id "val", .op ".", .id "end", .op "{", .id "suffixEndIdx", .op "=", .id
   "previousSepIdx", .op ";", .id "hasSuffix", .op "=", .id "true", .op ";", .op "}", .op ";", .id "node", .op "=", .id
   "val", .op ";", .id "if", .id "val", .op ".", .id "matches", .op ".", .id "Len", .op "(", .op ")", .op "==", .int 0, .op
   "{", .id "break", .op ";", .op "}", .op ";", .op "}", .id "else", .op "{", .id "if", .id "previousSepIdx", .op "!=", .id
   "len", .op "(", .id "netloc", .op ")", .op "{", .id "sepIdx", .op "=", .id "previousSepIdx", .op ";", .op "}", .op ";",
   .id "break", .op ";", .op "}", .op ";", .op "}", .op ";", .id "if", .id "len", .op "(", .id "netloc", .op ")", .op ">=",
   .int 7, .op "&&", .id "numericSet", .op ".", .id "contains", .op "(", .id "netloc", .op "[", .int 0, .op "]", .op ")", .op
   "&&", .id "isIPv4", .op "(", .id "netloc", .op ")", .op "{", .id "urlParts", .op ".", .id "HostType", .op "=", .id "IPv4",
   .op ";", .id "urlParts", .op ".", .id "Domain", .op "=", .id "netloc", .op "[", .int 0, .op ":", .id "previousSepIdx", .op
   "]", .op ";", .id "urlParts", .op ".", .id "RegisteredDomain", .op "=", .id "urlParts", .op ".", .id "Domain", .op ";",
   .id "return", .id "urlParts", .op ",", .id "nil", .op ";", .op "}", .op ";", .id "if", .id "sepIdx", .op "==", .op "-",
   .int 1, .op "{", .id "sepIdx", .op ",", .id "suffixStartIdx", .op "=", .id "len", .op "(", .id "netloc", .op ")", .op ",",
   .id "len", .op "(", .id "netloc", .op ")", .op ";", .op "}", .op ";", .id "if", .id "hasSuffix", .op "{", .id "if", .id
   "hasInvalidChars", .op "(", .id "netloc", .op "[", .int 0, .op ":", .id "suffixStartIdx", .op "]", .op ")", .op "{", .id
   "return", .id "urlParts", .op ",", .id "errors", .op ".", .id "New", .op "(", .str [105, 110, 118, 97, 108, 105, 100, 32,
   99, 104, 97, 114, 97, 99, 116, 101, 114, 115, 32, 105, 110, 32, 104, 111, 115, 116, 110, 97, 109, 101], .op ")", .op ";",
   .op "}", .op ";", .op "}", .id "else", .op "{", .id "if", .id "hasInvalidChars", .op "(", .id "netloc", .op "[", .int 0,
   .op ":", .id "previousSepIdx", .op "]", .op ")", .op "{", .id "return", .id "urlParts", .op ",", .id "errors", .op ".",
   .id "New", .op "(", .str [105, 110, 118, 97, 108, 105, 100, 32, 99, 104, 97, 114, 97, 99, 116, 101, 114, 115, 32, 105,
   110, 32, 104, 111, 115, 116, 110, 97, 109, 101], .op ")", .op ";", .op "}", .op ";", .op "}", .op ";", .id "var", .id
   "domainStartSepIdx", .id "int", .op ";", .id "if", .id "hasSuffix", .op "{", .id "if", .id "sepIdx", .op "<", .id "len",
   .op "(", .id "netloc", .op ")", .op "{", .id "urlParts", .op ".", .id "Suffix", .op "=", .id "netloc", .op "[", .id
   "sepIdx", .op "+", .id "sepSize", .op "(", .id "netloc", .op "[", .id "sepIdx", .op "]", .op ")", .op ":", .id
   "suffixEndIdx", .op "]", .op ";", .id "domainStartSepIdx", .op "=", .id "lastIndexAny", .op "(", .id "netloc", .op "[",
   .int 0, .op ":", .id "sepIdx", .op "]", .op ",", .id "labelSeparatorsRuneSet", .op ")", .op ";", .id "if", .id
   "domainStartSepIdx", .op "!=", .op "-", .int 1, .op "{", .id "domainStartIdx", .op ":=", .id "domainStartSepIdx", .op "+",
   .id "sepSize", .op "(", .id "netloc", .op "[", .id "domainStartSepIdx", .op "]", .op ")", .op ";", .id "urlParts", .op
   ".", .id "Domain", .op "=", .id "netloc", .op "[", .id "domainStartIdx", .op ":", .id "sepIdx", .op "]", .op ";", .id
   "urlParts", .op ".", .id "RegisteredDomain", .op "=", .id "netloc", .op "[", .id "domainStartIdx", .op ":", .id
   "suffixEndIdx", .op "]", .op ";", .op "}", .id "else", .op "{", .id "urlParts", .op ".", .id "Domain", .op "=", .id
   "netloc", .op "[", .int 0, .op ":", .id "sepIdx", .op "]", .op ";", .id "urlParts", .op ".", .id "RegisteredDomain", .op
   "=", .id "netloc", .op "[", .int 0, .op ":", .id "suffixEndIdx", .op "]", .op ";", .op "}", .op ";", .op "}", .id "else",
   .op "{", .id "urlParts", .op ".", .id "Suffix", .op "=", .id "netloc", .op "[", .int 0, .op ":", .id "suffixEndIdx", .op
   "]", .op ";", .op "}", .op ";", .op "}", .id "else", .op "{", .id "domainStartSepIdx", .op "=", .id "lastIndexAny", .op
   "(", .id "netloc", .op "[", .int 0, .op ":", .id "suffixEndIdx", .op "]", .op ",", .id "labelSeparatorsRuneSet", .op ")",
   .op ";", .id "var", .id "domainStartIdx", .id "int", .op ";", .id "if", .id "domainStartSepIdx", .op "!=", .op "-", .int
   1, .op "{", .id "domainStartIdx", .op "=", .id "domainStartSepIdx", .op "+", .id "sepSize", .op "(", .id "netloc", .op
   "[", .id "domainStartSepIdx", .op "]", .op ")", .op ";", .op "}", .op ";", .id "urlParts", .op ".", .id "Domain", .op "=",
   .id "netloc", .op "[", .id "domainStartIdx", .op ":", .id "suffixEndIdx", .op "]", .op ";", .op "}", .op ";", .id "if",
   .op "!", .id "e", .op ".", .id "IgnoreSubDomains", .op "&&", .id "domainStartSepIdx", .op "!=", .op "-", .int 1, .op "{",
   .id "urlParts", .op ".", .id "SubDomain", .op "=", .id "netloc", .op "[", .int 0, .op ":", .id "domainStartSepIdx", .op
   "]", .op ";", .op "}", .op ";", .id "if", .id "len", .op "(", .id "urlParts", .op ".", .id "Domain", .op ")", .op "==",
   .int 0, .op "{", .id "return", .id "urlParts", .op ",", .id "errors", .op ".", .id "New", .op "(", .str [101, 109, 112,
   116, 121, 32, 100, 111, 109, 97, 105, 110], .op ")", .op ";", .op "}", .op ";", .id "urlParts", .op ".", .id "HostType",
   .op "=", .id "HostName", .op ";", .id "return", .id "urlParts", .op ",", .id "nil", .op ";", .op "}", .op ";"]

theorem Extract_text : Extract_func.toks = Extract_tokens := by decide +kernel

theorem Extract_scoped : Extract_func.scoped = true := by decide +kernel

/-- fasttld.go:85-96: the body of a loop. -/
def nestedDict_loop1 : Stmt :=
  (.seq (.ite (.define ["_", "ok"] [(.call .Get [(.field (.var 0 "dic") .matches), (.var 2 "key")])]) (.not (.var 3 "ok"))
  (.seq (.declare ["m"] .trieMap) (.seq (.expr (.call .Set [(.field (.var 0 "dic") .matches), (.var 2 "key"), (.newTrie (.var
  4 "m"))])) .skip)) .skip) (.seq (.assign [(.var 0 "dic"), .blank] [(.call .Get [(.field (.var 0 "dic") .matches), (.var 2
  "key")])]) .skip))

/-- fasttld.go:85-96, statement 1. -/
def nestedDict_1 : Stmt :=
  (.range "_" "key" (.var 1 "keys") nestedDict_loop1)

/-- fasttld.go:85-96, statement 2. -/
def nestedDict_2 : Stmt :=
  (.assign [(.field 0 "dic" .end)] [(.boolLit true)])

/-- fasttld.go:85-96 -/
def nestedDict_func : Func where
  fn := .nestedDict
  params := [("dic", .triePtr), ("keys", .stringSlice)]
  results := []
  body := .seq nestedDict_1 <| .seq nestedDict_2 <| .skip

/-- fasttld.go:85-96 -/
def nestedDict_tokens : List Tok :=
  [.id "func", .id "nestedDict", .op "(", .id "dic", .op "*", .id "trie", .op ",", .id "keys", .op "[", .op "]", .id
   "string", .op ")", .op "{", .id "for", .id "_", .op ",", .id "key", .op ":=", .id "range", .id "keys", .op "{", .id "if",
   .id "_", .op ",", .id "ok", .op ":=", .id "dic", .op ".", .id "matches", .op ".", .id "Get", .op "(", .id "key", .op ")",
   .op ";", .op "!", .id "ok", .op "{", .id "var", .id "m", .id "hashmap", .op ".", .id "Map", .op "[", .id "string", .op
   ",", .op "*", .id "trie", .op "]", .op ";", .id "dic", .op ".", .id "matches", .op ".", .id "Set", .op "(", .id "key", .op
   ",", .op "&", .id "trie", .op "{", .id "matches", .op ":", .id "m", .op "}", .op ")", .op ";", .op "}", .op ";", .id
   "dic", .op ",", .id "_", .op "=", .id "dic", .op ".", .id "matches", .op ".", .id "Get", .op "(", .id "key", .op ")", .op
   ";", .op "}", .op ";", .id "dic", .op ".", .id "end", .op "=", .id "true", .op ";", .op "}", .op ";"]

theorem nestedDict_text : nestedDict_func.toks = nestedDict_tokens := by decide +kernel

theorem nestedDict_scoped : nestedDict_func.scoped = true := by decide +kernel

/-- fasttld.go:101-139: the body of a loop. -/
def trieConstruct_loop1 : Stmt :=
  (.seq (.define ["sp"] [(.call .Split [(.var 7 "suffix"), (.strLit [46])])]) (.seq (.expr (.call .reverse [(.var 8 "sp")]))
  (.seq (.expr (.call .nestedDict [(.var 3 "tldTrie"), (.var 8 "sp")])) .skip)))

/-- fasttld.go:101-139: the body of a loop. -/
def trieConstruct_loop2 : Stmt :=
  (.seq (.ite (.define ["_", "ok"] [(.call .Get [(.field (.var 8 "value") .matches), (.strLit [42])])]) (.var 9 "ok") (.seq
  (.assign [(.field 8 "value" .end)] [(.boolLit true)]) .skip) .skip) (.seq (.ret [(.boolLit true)]) .skip))

/-- fasttld.go:101-139, statement 1. -/
def trieConstruct_1 : Stmt :=
  (.declare ["m"] .trieMap)

/-- fasttld.go:101-139, statement 2. -/
def trieConstruct_2 : Stmt :=
  (.define ["tldTrie"] [(.newTrie (.var 2 "m"))])

/-- fasttld.go:101-139, statement 3. -/
def trieConstruct_3 : Stmt :=
  (.declare ["suffixLists"] .suffixes)

/-- fasttld.go:101-139, statement 4. -/
def trieConstruct_4 : Stmt :=
  (.declare ["err"] .error)

/-- fasttld.go:101-139, statement 5. -/
def trieConstruct_5 : Stmt :=
  (.ite .skip (.bin .ne (.var 1 "cacheFilePath") (.strLit [])) (.seq (.assign [(.var 4 "suffixLists"), (.var 5 "err")]
  [(.call .getPublicSuffixList [(.var 1 "cacheFilePath")])]) .skip) (.seq (.assign [(.var 4 "suffixLists"), (.var 5 "err")]
  [(.call .getHardcodedPublicSuffixList [])]) .skip))

/-- fasttld.go:101-139, statement 6. -/
def trieConstruct_6 : Stmt :=
  (.ite .skip (.bin .ne (.var 5 "err") .nil) (.seq (.expr (.call .Println [(.var 5 "err")])) (.seq (.ret [(.var 3 "tldTrie"),
  (.var 5 "err")]) .skip)) .skip)

/-- fasttld.go:101-139, statement 7. -/
def trieConstruct_7 : Stmt :=
  (.declare ["suffixList"] .stringSlice)

/-- fasttld.go:101-139, statement 8. -/
def trieConstruct_8 : Stmt :=
  (.ite .skip (.var 0 "includePrivateSuffix") (.seq (.assign [(.var 6 "suffixList")] [(.field (.var 4 "suffixLists")
  .allSuffixes)]) .skip) (.seq (.assign [(.var 6 "suffixList")] [(.field (.var 4 "suffixLists") .publicSuffixes)]) .skip))

/-- fasttld.go:101-139, statement 9. -/
def trieConstruct_9 : Stmt :=
  (.range "_" "suffix" (.var 6 "suffixList") trieConstruct_loop1)

/-- fasttld.go:101-139, statement 10. -/
def trieConstruct_10 : Stmt :=
  (.scan (.field (.var 3 "tldTrie") .matches) "key" "value" trieConstruct_loop2)

/-- fasttld.go:101-139, statement 11. -/
def trieConstruct_11 : Stmt :=
  (.ret [(.var 3 "tldTrie"), .nil])

/-- fasttld.go:101-139 -/
def trieConstruct_func : Func where
  fn := .trieConstruct
  params := [("includePrivateSuffix", .bool), ("cacheFilePath", .string)]
  results := [(none, .triePtr), (none, .error)]
  body := .seq trieConstruct_1 <| .seq trieConstruct_2 <| .seq trieConstruct_3 <| .seq trieConstruct_4 <| .seq trieConstruct_5 <|
    .seq trieConstruct_6 <| .seq trieConstruct_7 <| .seq trieConstruct_8 <| .seq trieConstruct_9 <| .seq trieConstruct_10 <|
    .seq trieConstruct_11 <| .skip

/-- fasttld.go:101-139 -/
def trieConstruct_tokens : List Tok :=
  [.id "func", .id "trieConstruct", .op "(", .id "includePrivateSuffix", .id "bool", .op ",", .id "cacheFilePath", .id
   "string", .op ")", .op "(", .op "*", .id "trie", .op ",", .id "error", .op ")", .op "{", .id "var", .id "m", .id
   "hashmap", .op ".", .id "Map", .op "[", .id "string", .op ",", .op "*", .id "trie", .op "]", .op ";", .id "tldTrie", .op
   ":=", .op "&", .id "trie", .op "{", .id "matches", .op ":", .id "m", .op "}", .op ";", .id "var", .id "suffixLists", .id
   "suffixes", .op ";", .id "var", .id "err", .id "error", .op ";", .id "if", .id "cacheFilePath", .op "!=", .str [], .op
   "{", .id "suffixLists", .op ",", .id "err", .op "=", .id "getPublicSuffixList", .op "(", .id "cacheFilePath", .op ")", .op
   ";", .op "}", .id "else", .op "{", .id "suffixLists", .op ",", .id "err", .op "=", .id "getHardcodedPublicSuffixList", .op
   "(", .op ")", .op ";", .op "}", .op ";", .id "if", .id "err", .op "!=", .id "nil", .op "{", .id "log", .op ".", .id
   "Println", .op "(", .id "err", .op ")", .op ";", .id "return", .id "tldTrie", .op ",", .id "err", .op ";", .op "}", .op
   ";", .id "var", .id "suffixList", .op "[", .op "]", .id "string", .op ";", .id "if", .id "includePrivateSuffix", .op "{",
   .id "suffixList", .op "=", .id "suffixLists", .op ".", .id "allSuffixes", .op ";", .op "}", .id "else", .op "{", .id
   "suffixList", .op "=", .id "suffixLists", .op ".", .id "publicSuffixes", .op ";", .op "}", .op ";", .id "for", .id "_",
   .op ",", .id "suffix", .op ":=", .id "range", .id "suffixList", .op "{", .id "sp", .op ":=", .id "strings", .op ".", .id
   "Split", .op "(", .id "suffix", .op ",", .str [46], .op ")", .op ";", .id "reverse", .op "(", .id "sp", .op ")", .op ";",
   .id "nestedDict", .op "(", .id "tldTrie", .op ",", .id "sp", .op ")", .op ";", .op "}", .op ";", .id "tldTrie", .op ".",
   .id "matches", .op ".", .id "Scan", .op "(", .id "func", .op "(", .id "key", .id "string", .op ",", .id "value", .op "*",
   .id "trie", .op ")", .id "bool", .op "{", .id "if", .id "_", .op ",", .id "ok", .op ":=", .id "value", .op ".", .id
   "matches", .op ".", .id "Get", .op "(", .str [42], .op ")", .op ";", .id "ok", .op "{", .id "value", .op ".", .id "end",
   .op "=", .id "true", .op ";", .op "}", .op ";", .id "return", .id "true", .op ";", .op "}", .op ")", .op ";", .id
   "return", .id "tldTrie", .op ",", .id "nil", .op ";", .op "}", .op ";"]

theorem trieConstruct_text : trieConstruct_func.toks = trieConstruct_tokens := by decide +kernel

theorem trieConstruct_scoped : trieConstruct_func.scoped = true := by decide +kernel

/-- fasttld.go:403-434, statement 1. -/
def New_1 : Stmt :=
  (.define ["extractor"] [(.newFastTLD (.field (.var 0 "n") .CacheFilePath) .zeroTrie (.field (.var 0 "n")
  .IncludePrivateSuffix))])

/-- fasttld.go:403-434, statement 2. -/
def New_2 : Stmt :=
  (.ite (.define ["isValid", "_"] [(.call .checkCacheFile [(.field (.var 1 "extractor") .cacheFilePath)])]) (.not (.var 2
  "isValid")) (.seq (.define ["filesystem"] [.newOsFs]) (.seq (.define ["defaultCacheFolderPath"] [(.call .GetTempDir [(.var
  3 "filesystem"), (.strLit [])])]) (.seq (.define ["defaultCacheFilePath"] [(.bin .add (.var 4 "defaultCacheFolderPath")
  (.glob .defaultPSLFileName))]) (.seq (.define ["defaultCacheFolder", "err"] [(.call .Open [(.var 3 "filesystem"), (.var 4
  "defaultCacheFolderPath")])]) (.seq (.ite .skip (.bin .ne (.var 7 "err") .nil) (.seq (.ret [(.call .newHardcodedPSL [(.var
  7 "err"), (.var 0 "n")])]) .skip) .skip) (.seq (.defer .Close [(.var 6 "defaultCacheFolder")]) (.seq (.assign [(.field 1
  "extractor" .cacheFilePath)] [(.var 5 "defaultCacheFilePath")]) (.seq (.define ["isValid", "lastModifiedHours"] [(.call
  .checkCacheFile [(.field (.var 1 "extractor") .cacheFilePath)])]) (.seq (.ite .skip (.bin .or (.not (.var 8 "isValid"))
  (.bin .gt (.var 9 "lastModifiedHours") (.glob .pslMaxAgeHours))) (.seq (.ite (.define ["updateErr"] [(.call .Update [(.var
  1 "extractor")])]) (.bin .ne (.var 10 "updateErr") .nil) (.seq (.ret [(.call .newHardcodedPSL [(.var 7 "err"), (.var 0
  "n")])]) .skip) .skip) (.seq (.ret [(.var 1 "extractor"), (.var 7 "err")]) .skip)) .skip) .skip))))))))) .skip)

/-- fasttld.go:403-434, statement 3. -/
def New_3 : Stmt :=
  (.define ["tldTrie", "err"] [(.call .trieConstruct [(.field (.var 0 "n") .IncludePrivateSuffix), (.field (.var 1
  "extractor") .cacheFilePath)])])

/-- fasttld.go:403-434, statement 4. -/
def New_4 : Stmt :=
  (.ite .skip (.bin .ne (.var 3 "err") .nil) (.seq (.ret [(.call .newHardcodedPSL [(.var 3 "err"), (.var 0 "n")])]) .skip)
  .skip)

/-- fasttld.go:403-434, statement 5. -/
def New_5 : Stmt :=
  (.assign [(.field 1 "extractor" .tldTrie)] [(.var 2 "tldTrie")])

/-- fasttld.go:403-434, statement 6. -/
def New_6 : Stmt :=
  (.ret [(.var 1 "extractor"), (.var 3 "err")])

/-- fasttld.go:403-434 -/
def New_func : Func where
  fn := .New
  params := [("n", .SuffixListParams)]
  results := [(none, .FastTLD), (none, .error)]
  body := .seq New_1 <| .seq New_2 <| .seq New_3 <| .seq New_4 <| .seq New_5 <| .seq New_6 <| .skip

/-- fasttld.go:403-434 -/
def New_tokens : List Tok :=
  [.id "func", .id "New", .op "(", .id "n", .id "SuffixListParams", .op ")", .op "(", .op "*", .id "FastTLD", .op ",", .id
   "error", .op ")", .op "{", .id "extractor", .op ":=", .op "&", .id "FastTLD", .op "{", .id "cacheFilePath", .op ":", .id
   "n", .op ".", .id "CacheFilePath", .op ",", .id "tldTrie", .op ":", .op "&", .id "trie", .op "{", .op "}", .op ",", .id
   "includePrivateSuffix", .op ":", .id "n", .op ".", .id "IncludePrivateSuffix", .op "}", .op ";", .id "if", .id "isValid",
   .op ",", .id "_", .op ":=", .id "checkCacheFile", .op "(", .id "extractor", .op ".", .id "cacheFilePath", .op ")", .op
   ";", .op "!", .id "isValid", .op "{", .id "filesystem", .op ":=", .id "new", .op "(", .id "afero", .op ".", .id "OsFs",
   .op ")", .op ";", .id "defaultCacheFolderPath", .op ":=", .id "afero", .op ".", .id "GetTempDir", .op "(", .id
   "filesystem", .op ",", .str [], .op ")", .op ";", .id "defaultCacheFilePath", .op ":=", .id "defaultCacheFolderPath", .op
   "+", .id "defaultPSLFileName", .op ";", .id "defaultCacheFolder", .op ",", .id "err", .op ":=", .id "filesystem", .op ".",
   .id "Open", .op "(", .id "defaultCacheFolderPath", .op ")", .op ";", .id "if", .id "err", .op "!=", .id "nil", .op "{",
   .id "return", .id "newHardcodedPSL", .op "(", .id "err", .op ",", .id "n", .op ")", .op ";", .op "}", .op ";", .id
   "defer", .id "defaultCacheFolder", .op ".", .id "Close", .op "(", .op ")", .op ";", .id "extractor", .op ".", .id
   "cacheFilePath", .op "=", .id "defaultCacheFilePath", .op ";", .id "isValid", .op ",", .id "lastModifiedHours", .op ":=",
   .id "checkCacheFile", .op "(", .id "extractor", .op ".", .id "cacheFilePath", .op ")", .op ";", .id "if", .op "!", .id
   "isValid", .op "||", .id "lastModifiedHours", .op ">", .id "pslMaxAgeHours", .op "{", .id "if", .id "updateErr", .op ":=",
   .id "extractor", .op ".", .id "Update", .op "(", .op ")", .op ";", .id "updateErr", .op "!=", .id "nil", .op "{", .id
   "return", .id "newHardcodedPSL", .op "(", .id "err", .op ",", .id "n", .op ")", .op ";", .op "}", .op ";", .id "return",
   .id "extractor", .op ",", .id "err", .op ";", .op "}", .op ";", .op "}", .op ";", .id "tldTrie", .op ",", .id "err", .op
   ":=", .id "trieConstruct", .op "(", .id "n", .op ".", .id "IncludePrivateSuffix", .op ",", .id "extractor", .op ".", .id
   "cacheFilePath", .op ")", .op ";", .id "if", .id "err", .op "!=", .id "nil", .op "{", .id "return", .id "newHardcodedPSL",
   .op "(", .id "err", .op ",", .id "n", .op ")", .op ";", .op "}", .op ";", .id "extractor", .op ".", .id "tldTrie", .op
   "=", .id "tldTrie", .op ";", .id "return", .id "extractor", .op ",", .id "err", .op ";", .op "}", .op ";"]

theorem New_text : New_func.toks = New_tokens := by decide +kernel

theorem New_scoped : New_func.scoped = true := by decide +kernel

/-- psl.go:30-63, statement 1. -/
def processLine_1 : Stmt :=
  (.define ["line"] [(.call .TrimSpace [(.var 0 "rawLine")])])

/-- psl.go:30-63, statement 2. -/
def processLine_2 : Stmt :=
  (.ite .skip (.bin .eq (.strLit [47, 47, 32, 61, 61, 61, 66, 69, 71, 73, 78, 32, 80, 82, 73, 86, 65, 84, 69, 32, 68, 79, 77,
  65, 73, 78, 83, 61, 61, 61]) (.var 3 "line")) (.seq (.assign [(.var 2 "isPrivateSuffix")] [(.boolLit true)]) .skip) .skip)

/-- psl.go:30-63, statement 3. -/
def processLine_3 : Stmt :=
  (.ite .skip (.bin .or (.bin .eq (.call .len [(.var 3 "line")]) (.intLit 0)) (.call .HasPrefix [(.var 3 "line"), (.strLit
  [47, 47])])) (.seq (.ret [(.var 1 "psl"), (.var 2 "isPrivateSuffix")]) .skip) .skip)

/-- psl.go:30-63, statement 4. -/
def processLine_4 : Stmt :=
  (.define ["suffix", "err"] [(.call .ToASCII [(.var 3 "line")])])

/-- psl.go:30-63, statement 5. -/
def processLine_5 : Stmt :=
  (.ite .skip (.bin .ne (.var 5 "err") .nil) (.seq (.expr (.call .Println [(.var 3 "line"), (.charLit 124), (.var 5 "err")]))
  (.seq (.ret [(.var 1 "psl"), (.var 2 "isPrivateSuffix")]) .skip)) .skip)

/-- psl.go:30-63, statement 6. -/
def processLine_6 : Stmt :=
  (.ite .skip (.var 2 "isPrivateSuffix") (.seq (.assign [(.field 1 "psl" .privateSuffixes)] [(.call .append [(.field (.var 1
  "psl") .privateSuffixes), (.var 4 "suffix")])]) (.seq (.ite .skip (.bin .ne (.var 4 "suffix") (.var 3 "line")) (.seq
  (.assign [(.field 1 "psl" .privateSuffixes)] [(.call .append [(.field (.var 1 "psl") .privateSuffixes), (.var 3 "line")])])
  .skip) .skip) .skip)) (.seq (.assign [(.field 1 "psl" .publicSuffixes)] [(.call .append [(.field (.var 1 "psl")
  .publicSuffixes), (.var 4 "suffix")])]) (.seq (.ite .skip (.bin .ne (.var 4 "suffix") (.var 3 "line")) (.seq (.assign
  [(.field 1 "psl" .publicSuffixes)] [(.call .append [(.field (.var 1 "psl") .publicSuffixes), (.var 3 "line")])]) .skip)
  .skip) .skip)))

/-- psl.go:30-63, statement 7. -/
def processLine_7 : Stmt :=
  (.assign [(.field 1 "psl" .allSuffixes)] [(.call .append [(.field (.var 1 "psl") .allSuffixes), (.var 4 "suffix")])])

/-- psl.go:30-63, statement 8. -/
def processLine_8 : Stmt :=
  (.ite .skip (.bin .ne (.var 4 "suffix") (.var 3 "line")) (.seq (.assign [(.field 1 "psl" .allSuffixes)] [(.call .append
  [(.field (.var 1 "psl") .allSuffixes), (.var 3 "line")])]) .skip) .skip)

/-- psl.go:30-63, statement 9. -/
def processLine_9 : Stmt :=
  (.ret [(.var 1 "psl"), (.var 2 "isPrivateSuffix")])

/-- psl.go:30-63 -/
def processLine_func : Func where
  fn := .processLine
  params := [("rawLine", .string), ("psl", .suffixes), ("isPrivateSuffix", .bool)]
  results := [(none, .suffixes), (none, .bool)]
  body := .seq processLine_1 <| .seq processLine_2 <| .seq processLine_3 <| .seq processLine_4 <| .seq processLine_5 <| .seq
    processLine_6 <| .seq processLine_7 <| .seq processLine_8 <| .seq processLine_9 <| .skip

/-- psl.go:30-63 -/
def processLine_tokens : List Tok :=
  [.id "func", .id "processLine", .op "(", .id "rawLine", .id "string", .op ",", .id "psl", .id "suffixes", .op ",", .id
   "isPrivateSuffix", .id "bool", .op ")", .op "(", .id "suffixes", .op ",", .id "bool", .op ")", .op "{", .id "line", .op
   ":=", .id "strings", .op ".", .id "TrimSpace", .op "(", .id "rawLine", .op ")", .op ";", .id "if", .str [47, 47, 32, 61,
   61, 61, 66, 69, 71, 73, 78, 32, 80, 82, 73, 86, 65, 84, 69, 32, 68, 79, 77, 65, 73, 78, 83, 61, 61, 61], .op "==", .id
   "line", .op "{", .id "isPrivateSuffix", .op "=", .id "true", .op ";", .op "}", .op ";", .id "if", .id "len", .op "(", .id
   "line", .op ")", .op "==", .int 0, .op "||", .id "strings", .op ".", .id "HasPrefix", .op "(", .id "line", .op ",", .str
   [47, 47], .op ")", .op "{", .id "return", .id "psl", .op ",", .id "isPrivateSuffix", .op ";", .op "}", .op ";", .id
   "suffix", .op ",", .id "err", .op ":=", .id "idna", .op ".", .id "ToASCII", .op "(", .id "line", .op ")", .op ";", .id
   "if", .id "err", .op "!=", .id "nil", .op "{", .id "log", .op ".", .id "Println", .op "(", .id "line", .op ",", .chr 124,
   .op ",", .id "err", .op ")", .op ";", .id "return", .id "psl", .op ",", .id "isPrivateSuffix", .op ";", .op "}", .op ";",
   .id "if", .id "isPrivateSuffix", .op "{", .id "psl", .op ".", .id "privateSuffixes", .op "=", .id "append", .op "(", .id
   "psl", .op ".", .id "privateSuffixes", .op ",", .id "suffix", .op ")", .op ";", .id "if", .id "suffix", .op "!=", .id
   "line", .op "{", .id "psl", .op ".", .id "privateSuffixes", .op "=", .id "append", .op "(", .id "psl", .op ".", .id
   "privateSuffixes", .op ",", .id "line", .op ")", .op ";", .op "}", .op ";", .op "}", .id "else", .op "{", .id "psl", .op
   ".", .id "publicSuffixes", .op "=", .id "append", .op "(", .id "psl", .op ".", .id "publicSuffixes", .op ",", .id
   "suffix", .op ")", .op ";", .id "if", .id "suffix", .op "!=", .id "line", .op "{", .id "psl", .op ".", .id
   "publicSuffixes", .op "=", .id "append", .op "(", .id "psl", .op ".", .id "publicSuffixes", .op ",", .id "line", .op ")",
   .op ";", .op "}", .op ";", .op "}", .op ";", .id "psl", .op ".", .id "allSuffixes", .op "=", .id "append", .op "(", .id
   "psl", .op ".", .id "allSuffixes", .op ",", .id "suffix", .op ")", .op ";", .id "if", .id "suffix", .op "!=", .id "line",
   .op "{", .id "psl", .op ".", .id "allSuffixes", .op "=", .id "append", .op "(", .id "psl", .op ".", .id "allSuffixes", .op
   ",", .id "line", .op ")", .op ";", .op "}", .op ";", .id "return", .id "psl", .op ",", .id "isPrivateSuffix", .op ";", .op
   "}", .op ";"]

theorem processLine_text : processLine_func.toks = processLine_tokens := by decide +kernel

theorem processLine_scoped : processLine_func.scoped = true := by decide +kernel

/-- psl.go:72-84: the body of a loop. -/
def getPublicSuffixList_loop1 : Stmt :=
  (.seq (.assign [(.var 1 "psl"), (.var 4 "isPrivateSuffix")] [(.call .processLine [(.var 5 "line"), (.var 1 "psl"), (.var 4
  "isPrivateSuffix")])]) .skip)

/-- psl.go:72-84, statement 1. -/
def getPublicSuffixList_1 : Stmt :=
  (.declare ["psl"] .suffixes)

/-- psl.go:72-84, statement 2. -/
def getPublicSuffixList_2 : Stmt :=
  (.define ["b", "err"] [(.call .ReadFile [(.var 0 "cacheFilePath")])])

/-- psl.go:72-84, statement 3. -/
def getPublicSuffixList_3 : Stmt :=
  (.ite .skip (.bin .ne (.var 3 "err") .nil) (.seq (.expr (.call .Println [(.var 3 "err")])) (.seq (.ret [(.var 1 "psl"),
  (.var 3 "err")]) .skip)) .skip)

/-- psl.go:72-84, statement 4. -/
def getPublicSuffixList_4 : Stmt :=
  (.declare ["isPrivateSuffix"] .bool)

/-- psl.go:72-84, statement 5. -/
def getPublicSuffixList_5 : Stmt :=
  (.range "_" "line" (.call .Split [(.call .toStr [(.var 2 "b")]), (.strLit [10])]) getPublicSuffixList_loop1)

/-- psl.go:72-84, statement 6. -/
def getPublicSuffixList_6 : Stmt :=
  (.ret [(.var 1 "psl"), .nil])

/-- psl.go:72-84 -/
def getPublicSuffixList_func : Func where
  fn := .getPublicSuffixList
  params := [("cacheFilePath", .string)]
  results := [(none, .suffixes), (none, .error)]
  body := .seq getPublicSuffixList_1 <| .seq getPublicSuffixList_2 <| .seq getPublicSuffixList_3 <| .seq getPublicSuffixList_4 <|
    .seq getPublicSuffixList_5 <| .seq getPublicSuffixList_6 <| .skip

/-- psl.go:72-84 -/
def getPublicSuffixList_tokens : List Tok :=
  [.id "func", .id "getPublicSuffixList", .op "(", .id "cacheFilePath", .id "string", .op ")", .op "(", .id "suffixes", .op
   ",", .id "error", .op ")", .op "{", .id "var", .id "psl", .id "suffixes", .op ";", .id "b", .op ",", .id "err", .op ":=",
   .id "os", .op ".", .id "ReadFile", .op "(", .id "cacheFilePath", .op ")", .op ";", .id "if", .id "err", .op "!=", .id
   "nil", .op "{", .id "log", .op ".", .id "Println", .op "(", .id "err", .op ")", .op ";", .id "return", .id "psl", .op ",",
   .id "err", .op ";", .op "}", .op ";", .id "var", .id "isPrivateSuffix", .id "bool", .op ";", .id "for", .id "_", .op ",",
   .id "line", .op ":=", .id "range", .id "strings", .op ".", .id "Split", .op "(", .id "string", .op "(", .id "b", .op ")",
   .op ",", .str [10], .op ")", .op "{", .id "psl", .op ",", .id "isPrivateSuffix", .op "=", .id "processLine", .op "(", .id
   "line", .op ",", .id "psl", .op ",", .id "isPrivateSuffix", .op ")", .op ";", .op "}", .op ";", .id "return", .id "psl",
   .op ",", .id "nil", .op ";", .op "}", .op ";"]

theorem getPublicSuffixList_text : getPublicSuffixList_func.toks = getPublicSuffixList_tokens := by decide +kernel

theorem getPublicSuffixList_scoped : getPublicSuffixList_func.scoped = true := by decide +kernel

/-- psl.go:93-100: the body of a loop. -/
def getHardcodedPublicSuffixList_loop1 : Stmt :=
  (.seq (.assign [(.var 0 "psl"), (.var 1 "isPrivateSuffix")] [(.call .processLine [(.var 2 "line"), (.var 0 "psl"), (.var 1
  "isPrivateSuffix")])]) .skip)

/-- psl.go:93-100, statement 1. -/
def getHardcodedPublicSuffixList_1 : Stmt :=
  (.declare ["psl"] .suffixes)

/-- psl.go:93-100, statement 2. -/
def getHardcodedPublicSuffixList_2 : Stmt :=
  (.declare ["isPrivateSuffix"] .bool)

/-- psl.go:93-100, statement 3. -/
def getHardcodedPublicSuffixList_3 : Stmt :=
  (.range "_" "line" (.call .Split [.hardcodedPSL, (.strLit [10])]) getHardcodedPublicSuffixList_loop1)

/-- psl.go:93-100, statement 4. -/
def getHardcodedPublicSuffixList_4 : Stmt :=
  (.ret [(.var 0 "psl"), .nil])

/-- psl.go:93-100 -/
def getHardcodedPublicSuffixList_func : Func where
  fn := .getHardcodedPublicSuffixList
  params := []
  results := [(none, .suffixes), (none, .error)]
  body := .seq getHardcodedPublicSuffixList_1 <| .seq getHardcodedPublicSuffixList_2 <| .seq getHardcodedPublicSuffixList_3 <| .seq
    getHardcodedPublicSuffixList_4 <| .skip

/-- psl.go:93-100 -/
def getHardcodedPublicSuffixList_tokens : List Tok :=
  [.id "func", .id "getHardcodedPublicSuffixList", .op "(", .op ")", .op "(", .id "suffixes", .op ",", .id "error", .op ")",
   .op "{", .id "var", .id "psl", .id "suffixes", .op ";", .id "var", .id "isPrivateSuffix", .id "bool", .op ";", .id "for",
   .id "_", .op ",", .id "line", .op ":=", .id "range", .id "strings", .op ".", .id "Split", .op "(", .id "hardcodedPSL", .op
   ",", .str [10], .op ")", .op "{", .id "psl", .op ",", .id "isPrivateSuffix", .op "=", .id "processLine", .op "(", .id
   "line", .op ",", .id "psl", .op ",", .id "isPrivateSuffix", .op ")", .op ";", .op "}", .op ";", .id "return", .id "psl",
   .op ",", .id "nil", .op ";", .op "}", .op ";"]

theorem getHardcodedPublicSuffixList_text : getHardcodedPublicSuffixList_func.toks = getHardcodedPublicSuffixList_tokens := by decide +kernel

theorem getHardcodedPublicSuffixList_scoped : getHardcodedPublicSuffixList_func.scoped = true := by decide +kernel

/-- psl.go:168-173, statement 1. -/
def validPSLDelimiters_1 : Stmt :=
  (.ret [(.bin .and (.bin .and (.bin .and (.call .Contains [(.var 0 "contents"), (.call .toBytes [(.strLit [47, 47, 32, 61,
  61, 61, 66, 69, 71, 73, 78, 32, 73, 67, 65, 78, 78, 32, 68, 79, 77, 65, 73, 78, 83, 61, 61, 61])])]) (.call .Contains
  [(.var 0 "contents"), (.call .toBytes [(.strLit [47, 47, 32, 61, 61, 61, 69, 78, 68, 32, 73, 67, 65, 78, 78, 32, 68, 79,
  77, 65, 73, 78, 83, 61, 61, 61])])])) (.call .Contains [(.var 0 "contents"), (.call .toBytes [(.strLit [47, 47, 32, 61, 61,
  61, 66, 69, 71, 73, 78, 32, 80, 82, 73, 86, 65, 84, 69, 32, 68, 79, 77, 65, 73, 78, 83, 61, 61, 61])])])) (.call .Contains
  [(.var 0 "contents"), (.call .toBytes [(.strLit [47, 47, 32, 61, 61, 61, 69, 78, 68, 32, 80, 82, 73, 86, 65, 84, 69, 32,
  68, 79, 77, 65, 73, 78, 83, 61, 61, 61])])]))])

/-- psl.go:168-173 -/
def validPSLDelimiters_func : Func where
  fn := .validPSLDelimiters
  params := [("contents", .byteSlice)]
  results := [(none, .bool)]
  body := .seq validPSLDelimiters_1 <| .skip

/-- psl.go:168-173 -/
def validPSLDelimiters_tokens : List Tok :=
  [.id "func", .id "validPSLDelimiters", .op "(", .id "contents", .op "[", .op "]", .id "byte", .op ")", .id "bool", .op "{",
   .id "return", .id "bytes", .op ".", .id "Contains", .op "(", .id "contents", .op ",", .op "[", .op "]", .id "byte", .op
   "(", .str [47, 47, 32, 61, 61, 61, 66, 69, 71, 73, 78, 32, 73, 67, 65, 78, 78, 32, 68, 79, 77, 65, 73, 78, 83, 61, 61,
   61], .op ")", .op ")", .op "&&", .id "bytes", .op ".", .id "Contains", .op "(", .id "contents", .op ",", .op "[", .op "]",
   .id "byte", .op "(", .str [47, 47, 32, 61, 61, 61, 69, 78, 68, 32, 73, 67, 65, 78, 78, 32, 68, 79, 77, 65, 73, 78, 83, 61,
   61, 61], .op ")", .op ")", .op "&&", .id "bytes", .op ".", .id "Contains", .op "(", .id "contents", .op ",", .op "[", .op
   "]", .id "byte", .op "(", .str [47, 47, 32, 61, 61, 61, 66, 69, 71, 73, 78, 32, 80, 82, 73, 86, 65, 84, 69, 32, 68, 79,
   77, 65, 73, 78, 83, 61, 61, 61], .op ")", .op ")", .op "&&", .id "bytes", .op ".", .id "Contains", .op "(", .id
   "contents", .op ",", .op "[", .op "]", .id "byte", .op "(", .str [47, 47, 32, 61, 61, 61, 69, 78, 68, 32, 80, 82, 73, 86,
   65, 84, 69, 32, 68, 79, 77, 65, 73, 78, 83, 61, 61, 61], .op ")", .op ")", .op ";", .op "}", .op ";"]

theorem validPSLDelimiters_text : validPSLDelimiters_func.toks = validPSLDelimiters_tokens := by decide +kernel

theorem validPSLDelimiters_scoped : validPSLDelimiters_func.scoped = true := by decide +kernel

/-- psl.go:103-107, statement 1. -/
def newHardcodedPSL_1 : Stmt :=
  (.expr (.call .Println [(.var 0 "err"), (.strLit [70, 97, 108, 108, 98, 97, 99, 107, 32, 116, 111, 32, 104, 97, 114, 100,
  99, 111, 100, 101, 100, 32, 80, 117, 98, 108, 105, 99, 32, 83, 117, 102, 102, 105, 120, 32, 76, 105, 115, 116])]))

/-- psl.go:103-107, statement 2. -/
def newHardcodedPSL_2 : Stmt :=
  (.redefine ["tldTrie", "err"] [none, some 0] [(.call .trieConstruct [(.field (.var 1 "n") .IncludePrivateSuffix), (.strLit
  [])])])

/-- psl.go:103-107, statement 3. -/
def newHardcodedPSL_3 : Stmt :=
  (.ret [(.newFastTLD (.strLit []) (.var 2 "tldTrie") (.field (.var 1 "n") .IncludePrivateSuffix)), (.var 0 "err")])

/-- psl.go:103-107 -/
def newHardcodedPSL_func : Func where
  fn := .newHardcodedPSL
  params := [("err", .error), ("n", .SuffixListParams)]
  results := [(none, .FastTLD), (none, .error)]
  body := .seq newHardcodedPSL_1 <| .seq newHardcodedPSL_2 <| .seq newHardcodedPSL_3 <| .skip

/-- psl.go:103-107 -/
def newHardcodedPSL_tokens : List Tok :=
  [.id "func", .id "newHardcodedPSL", .op "(", .id "err", .id "error", .op ",", .id "n", .id "SuffixListParams", .op ")", .op
   "(", .op "*", .id "FastTLD", .op ",", .id "error", .op ")", .op "{", .id "log", .op ".", .id "Println", .op "(", .id
   "err", .op ",", .str [70, 97, 108, 108, 98, 97, 99, 107, 32, 116, 111, 32, 104, 97, 114, 100, 99, 111, 100, 101, 100, 32,
   80, 117, 98, 108, 105, 99, 32, 83, 117, 102, 102, 105, 120, 32, 76, 105, 115, 116], .op ")", .op ";", .id "tldTrie", .op
   ",", .id "err", .op ":=", .id "trieConstruct", .op "(", .id "n", .op ".", .id "IncludePrivateSuffix", .op ",", .str [],
   .op ")", .op ";", .id "return", .op "&", .id "FastTLD", .op "{", .id "cacheFilePath", .op ":", .str [], .op ",", .id
   "tldTrie", .op ":", .id "tldTrie", .op ",", .id "includePrivateSuffix", .op ":", .id "n", .op ".", .id
   "IncludePrivateSuffix", .op "}", .op ",", .id "err", .op ";", .op "}", .op ";"]

theorem newHardcodedPSL_text : newHardcodedPSL_func.toks = newHardcodedPSL_tokens := by decide +kernel

theorem newHardcodedPSL_scoped : newHardcodedPSL_func.scoped = true := by decide +kernel

/-- psl.go:110-125, statement 1. -/
def downloadFile_1 : Stmt :=
  (.declare ["bodyBytes"] .byteSlice)

/-- psl.go:110-125, statement 2. -/
def downloadFile_2 : Stmt :=
  (.define ["resp", "err"] [(.call .httpGet [(.var 0 "url")])])

/-- psl.go:110-125, statement 3. -/
def downloadFile_3 : Stmt :=
  (.ite .skip (.bin .ne (.var 3 "err") .nil) (.seq (.ret [(.var 1 "bodyBytes"), (.var 3 "err")]) .skip) .skip)

/-- psl.go:110-125, statement 4. -/
def downloadFile_4 : Stmt :=
  (.defer .Close [(.field (.var 2 "resp") .Body)])

/-- psl.go:110-125, statement 5. -/
def downloadFile_5 : Stmt :=
  (.ite .skip (.bin .eq (.field (.var 2 "resp") .StatusCode) (.known .StatusOK)) (.seq (.assign [(.var 1 "bodyBytes"), (.var
  3 "err")] [(.call .ReadAll [(.field (.var 2 "resp") .Body)])]) .skip) (.seq (.assign [(.var 3 "err")] [(.call .errorsNew
  [(.bin .add (.strLit [68, 111, 119, 110, 108, 111, 97, 100, 32, 102, 97, 105, 108, 101, 100, 44, 32, 72, 84, 84, 80, 32,
  115, 116, 97, 116, 117, 115, 32, 99, 111, 100, 101, 32, 58, 32]) (.call .Sprint [(.field (.var 2 "resp")
  .StatusCode)]))])]) .skip))

/-- psl.go:110-125, statement 6. -/
def downloadFile_6 : Stmt :=
  (.ret [(.var 1 "bodyBytes"), (.var 3 "err")])

/-- psl.go:110-125 -/
def downloadFile_func : Func where
  fn := .downloadFile
  params := [("url", .string)]
  results := [(none, .byteSlice), (none, .error)]
  body := .seq downloadFile_1 <| .seq downloadFile_2 <| .seq downloadFile_3 <| .seq downloadFile_4 <| .seq downloadFile_5 <| .seq
    downloadFile_6 <| .skip

/-- psl.go:110-125 -/
def downloadFile_tokens : List Tok :=
  [.id "func", .id "downloadFile", .op "(", .id "url", .id "string", .op ")", .op "(", .op "[", .op "]", .id "byte", .op ",",
   .id "error", .op ")", .op "{", .id "var", .id "bodyBytes", .op "[", .op "]", .id "byte", .op ";", .id "resp", .op ",", .id
   "err", .op ":=", .id "http", .op ".", .id "Get", .op "(", .id "url", .op ")", .op ";", .id "if", .id "err", .op "!=", .id
   "nil", .op "{", .id "return", .id "bodyBytes", .op ",", .id "err", .op ";", .op "}", .op ";", .id "defer", .id "resp", .op
   ".", .id "Body", .op ".", .id "Close", .op "(", .op ")", .op ";", .id "if", .id "resp", .op ".", .id "StatusCode", .op
   "==", .id "http", .op ".", .id "StatusOK", .op "{", .id "bodyBytes", .op ",", .id "err", .op "=", .id "afero", .op ".",
   .id "ReadAll", .op "(", .id "resp", .op ".", .id "Body", .op ")", .op ";", .op "}", .id "else", .op "{", .id "err", .op
   "=", .id "errors", .op ".", .id "New", .op "(", .str [68, 111, 119, 110, 108, 111, 97, 100, 32, 102, 97, 105, 108, 101,
   100, 44, 32, 72, 84, 84, 80, 32, 115, 116, 97, 116, 117, 115, 32, 99, 111, 100, 101, 32, 58, 32], .op "+", .id "fmt", .op
   ".", .id "Sprint", .op "(", .id "resp", .op ".", .id "StatusCode", .op ")", .op ")", .op ";", .op "}", .op ";", .id
   "return", .id "bodyBytes", .op ",", .id "err", .op ";", .op "}", .op ";"]

theorem downloadFile_text : downloadFile_func.toks = downloadFile_tokens := by decide +kernel

theorem downloadFile_scoped : downloadFile_func.scoped = true := by decide +kernel

/-- psl.go:138-140, statement 1. -/
def fileLastModifiedHours_1 : Stmt :=
  (.ret [(.call .Hours [(.call .Sub [(.call .Now []), (.call .ModTime [(.var 0 "fileinfo")])])])])

/-- psl.go:138-140 -/
def fileLastModifiedHours_func : Func where
  fn := .fileLastModifiedHours
  params := [("fileinfo", .osFileInfo)]
  results := [(none, .float64)]
  body := .seq fileLastModifiedHours_1 <| .skip

/-- psl.go:138-140 -/
def fileLastModifiedHours_tokens : List Tok :=
  [.id "func", .id "fileLastModifiedHours", .op "(", .id "fileinfo", .id "os", .op ".", .id "FileInfo", .op ")", .id
   "float64", .op "{", .id "return", .id "time", .op ".", .id "Now", .op "(", .op ")", .op ".", .id "Sub", .op "(", .id
   "fileinfo", .op ".", .id "ModTime", .op "(", .op ")", .op ")", .op ".", .id "Hours", .op "(", .op ")", .op ";", .op "}",
   .op ";"]

theorem fileLastModifiedHours_text : fileLastModifiedHours_func.toks = fileLastModifiedHours_tokens := by decide +kernel

theorem fileLastModifiedHours_scoped : fileLastModifiedHours_func.scoped = true := by decide +kernel

/-- psl.go:143-166: the body of a loop. -/
def update_loop1 : Stmt :=
  (.seq (.ite (.define ["bodyBytes", "err"] [(.call .downloadFile [(.var 2 "publicSuffixListSource")])]) (.bin .ne (.var 4
  "err") .nil) (.seq (.expr (.call .Println [(.var 4 "err")])) .skip) (.seq (.ite .skip (.not (.call .validPSLDelimiters
  [(.var 3 "bodyBytes")])) (.seq .cont .skip) .skip) (.seq (.ite (.define ["_", "err"] [(.call .Seek [(.var 0 "file"),
  (.intLit 0), (.intLit 0)])]) (.bin .ne (.var 5 "err") .nil) (.seq (.expr (.call .Println [(.var 5 "err")])) (.seq .cont
  .skip)) .skip) (.seq (.ite (.define ["_", "err"] [(.call .Write [(.var 0 "file"), (.var 3 "bodyBytes")])]) (.bin .ne (.var
  5 "err") .nil) (.seq (.expr (.call .Println [(.var 5 "err")])) (.seq .cont .skip)) .skip) (.seq (.expr (.call .Println
  [(.strLit [80, 117, 98, 108, 105, 99, 32, 83, 117, 102, 102, 105, 120, 32, 76, 105, 115, 116, 32, 117, 112, 100, 97, 116,
  101, 100, 46])])) (.seq (.ret [.nil]) .skip)))))) .skip)

/-- psl.go:143-166, statement 1. -/
def update_1 : Stmt :=
  (.range "_" "publicSuffixListSource" (.var 1 "publicSuffixListSources") update_loop1)

/-- psl.go:143-166, statement 2. -/
def update_2 : Stmt :=
  (.ret [(.call .errorsNew [(.strLit [102, 97, 105, 108, 101, 100, 32, 116, 111, 32, 102, 101, 116, 99, 104, 32, 97, 110,
  121, 32, 80, 117, 98, 108, 105, 99, 32, 83, 117, 102, 102, 105, 120, 32, 76, 105, 115, 116, 32, 102, 114, 111, 109, 32, 97,
  108, 108, 32, 109, 105, 114, 114, 111, 114, 115])])])

/-- psl.go:143-166 -/
def update_func : Func where
  fn := .update
  params := [("file", .aferoFile), ("publicSuffixListSources", .stringSlice)]
  results := [(none, .error)]
  body := .seq update_1 <| .seq update_2 <| .skip

/-- psl.go:143-166 -/
def update_tokens : List Tok :=
  [.id "func", .id "update", .op "(", .id "file", .id "afero", .op ".", .id "File", .op ",", .id "publicSuffixListSources",
   .op "[", .op "]", .id "string", .op ")", .id "error", .op "{", .id "for", .id "_", .op ",", .id "publicSuffixListSource",
   .op ":=", .id "range", .id "publicSuffixListSources", .op "{", .id "if", .id "bodyBytes", .op ",", .id "err", .op ":=",
   .id "downloadFile", .op "(", .id "publicSuffixListSource", .op ")", .op ";", .id "err", .op "!=", .id "nil", .op "{", .id
   "log", .op ".", .id "Println", .op "(", .id "err", .op ")", .op ";", .op "}", .id "else", .op "{", .id "if", .op "!", .id
   "validPSLDelimiters", .op "(", .id "bodyBytes", .op ")", .op "{", .id "continue", .op ";", .op "}", .op ";", .id "if", .id
   "_", .op ",", .id "err", .op ":=", .id "file", .op ".", .id "Seek", .op "(", .int 0, .op ",", .int 0, .op ")", .op ";",
   .id "err", .op "!=", .id "nil", .op "{", .id "log", .op ".", .id "Println", .op "(", .id "err", .op ")", .op ";", .id
   "continue", .op ";", .op "}", .op ";", .id "if", .id "_", .op ",", .id "err", .op ":=", .id "file", .op ".", .id "Write",
   .op "(", .id "bodyBytes", .op ")", .op ";", .id "err", .op "!=", .id "nil", .op "{", .id "log", .op ".", .id "Println",
   .op "(", .id "err", .op ")", .op ";", .id "continue", .op ";", .op "}", .op ";", .id "log", .op ".", .id "Println", .op
   "(", .str [80, 117, 98, 108, 105, 99, 32, 83, 117, 102, 102, 105, 120, 32, 76, 105, 115, 116, 32, 117, 112, 100, 97, 116,
   101, 100, 46], .op ")", .op ";", .id "return", .id "nil", .op ";", .op "}", .op ";", .op "}", .op ";", .id "return", .id
   "errors", .op ".", .id "New", .op "(", .str [102, 97, 105, 108, 101, 100, 32, 116, 111, 32, 102, 101, 116, 99, 104, 32,
   97, 110, 121, 32, 80, 117, 98, 108, 105, 99, 32, 83, 117, 102, 102, 105, 120, 32, 76, 105, 115, 116, 32, 102, 114, 111,
   109, 32, 97, 108, 108, 32, 109, 105, 114, 114, 111, 114, 115], .op ")", .op ";", .op "}", .op ";"]

theorem update_text : update_func.toks = update_tokens := by decide +kernel

theorem update_scoped : update_func.scoped = true := by decide +kernel

/-- psl.go:175-188, statement 1. -/
def checkCacheFile_1 : Stmt :=
  (.redefine ["cacheFilePath", "pathValidErr"] [some 0, none] [(.call .Abs [(.call .TrimSpace [(.var 0 "cacheFilePath")])])])

/-- psl.go:175-188, statement 2. -/
def checkCacheFile_2 : Stmt :=
  (.define ["stat", "fileinfoErr"] [(.call .Stat [(.var 0 "cacheFilePath")])])

/-- psl.go:175-188, statement 3. -/
def checkCacheFile_3 : Stmt :=
  (.declare ["lastModifiedHours"] .float64)

/-- psl.go:175-188, statement 4. -/
def checkCacheFile_4 : Stmt :=
  (.ite .skip (.bin .eq (.var 3 "fileinfoErr") .nil) (.seq (.assign [(.var 4 "lastModifiedHours")] [(.call
  .fileLastModifiedHours [(.var 2 "stat")])]) .skip) .skip)

/-- psl.go:175-188, statement 5. -/
def checkCacheFile_5 : Stmt :=
  (.declare ["validDelimiters"] .bool)

/-- psl.go:175-188, statement 6. -/
def checkCacheFile_6 : Stmt :=
  (.ite (.define ["contents", "err"] [(.call .ReadFile [(.var 0 "cacheFilePath")])]) (.bin .eq (.var 7 "err") .nil) (.seq
  (.assign [(.var 5 "validDelimiters")] [(.call .validPSLDelimiters [(.var 6 "contents")])]) .skip) .skip)

/-- psl.go:175-188, statement 7. -/
def checkCacheFile_7 : Stmt :=
  (.ret [(.bin .and (.bin .and (.bin .and (.bin .eq (.var 1 "pathValidErr") .nil) (.bin .eq (.var 3 "fileinfoErr") .nil))
  (.not (.call .IsDir [(.var 2 "stat")]))) (.var 5 "validDelimiters")), (.var 4 "lastModifiedHours")])

/-- psl.go:175-188 -/
def checkCacheFile_func : Func where
  fn := .checkCacheFile
  params := [("cacheFilePath", .string)]
  results := [(none, .bool), (none, .float64)]
  body := .seq checkCacheFile_1 <| .seq checkCacheFile_2 <| .seq checkCacheFile_3 <| .seq checkCacheFile_4 <| .seq checkCacheFile_5
    <| .seq checkCacheFile_6 <| .seq checkCacheFile_7 <| .skip

/-- psl.go:175-188 -/
def checkCacheFile_tokens : List Tok :=
  [.id "func", .id "checkCacheFile", .op "(", .id "cacheFilePath", .id "string", .op ")", .op "(", .id "bool", .op ",", .id
   "float64", .op ")", .op "{", .id "cacheFilePath", .op ",", .id "pathValidErr", .op ":=", .id "filepath", .op ".", .id
   "Abs", .op "(", .id "strings", .op ".", .id "TrimSpace", .op "(", .id "cacheFilePath", .op ")", .op ")", .op ";", .id
   "stat", .op ",", .id "fileinfoErr", .op ":=", .id "os", .op ".", .id "Stat", .op "(", .id "cacheFilePath", .op ")", .op
   ";", .id "var", .id "lastModifiedHours", .id "float64", .op ";", .id "if", .id "fileinfoErr", .op "==", .id "nil", .op
   "{", .id "lastModifiedHours", .op "=", .id "fileLastModifiedHours", .op "(", .id "stat", .op ")", .op ";", .op "}", .op
   ";", .id "var", .id "validDelimiters", .id "bool", .op ";", .id "if", .id "contents", .op ",", .id "err", .op ":=", .id
   "os", .op ".", .id "ReadFile", .op "(", .id "cacheFilePath", .op ")", .op ";", .id "err", .op "==", .id "nil", .op "{",
   .id "validDelimiters", .op "=", .id "validPSLDelimiters", .op "(", .id "contents", .op ")", .op ";", .op "}", .op ";", .id
   "return", .id "pathValidErr", .op "==", .id "nil", .op "&&", .id "fileinfoErr", .op "==", .id "nil", .op "&&", .op "!",
   .id "stat", .op ".", .id "IsDir", .op "(", .op ")", .op "&&", .id "validDelimiters", .op ",", .id "lastModifiedHours", .op
   ";", .op "}", .op ";"]

theorem checkCacheFile_text : checkCacheFile_func.toks = checkCacheFile_tokens := by decide +kernel

theorem checkCacheFile_scoped : checkCacheFile_func.scoped = true := by decide +kernel

/-- psl.go:192-213, statement 1. -/
def Update_1 : Stmt :=
  (.define ["filesystem"] [.newOsFs])

/-- psl.go:192-213, statement 2. -/
def Update_2 : Stmt :=
  (.define ["defaultCacheFilePath"] [(.bin .add (.call .GetTempDir [(.var 1 "filesystem"), (.strLit [])]) (.glob
  .defaultPSLFileName))])

/-- psl.go:192-213, statement 3. -/
def Update_3 : Stmt :=
  (.ite .skip (.bin .ne (.field (.var 0 "f") .cacheFilePath) (.var 2 "defaultCacheFilePath")) (.seq (.ret [(.call .errorsNew
  [(.strLit [78, 111, 45, 111, 112, 46, 32, 79, 110, 108, 121, 32, 100, 101, 102, 97, 117, 108, 116, 32, 80, 117, 98, 108,
  105, 99, 32, 83, 117, 102, 102, 105, 120, 32, 108, 105, 115, 116, 32, 102, 105, 108, 101, 32, 99, 97, 110, 32, 98, 101, 32,
  117, 112, 100, 97, 116, 101, 100])])]) .skip) .skip)

/-- psl.go:192-213, statement 4. -/
def Update_4 : Stmt :=
  (.define ["file", "err"] [(.call .OpenFile [(.var 2 "defaultCacheFilePath"), (.bin .bitOr (.known .O_CREATE) (.known
  .O_WRONLY)), (.intLit 420)])])

/-- psl.go:192-213, statement 5. -/
def Update_5 : Stmt :=
  (.ite .skip (.bin .ne (.var 4 "err") .nil) (.seq (.ret [(.var 4 "err")]) .skip) .skip)

/-- psl.go:192-213, statement 6. -/
def Update_6 : Stmt :=
  (.defer .Close [(.var 3 "file")])

/-- psl.go:192-213, statement 7. -/
def Update_7 : Stmt :=
  (.ite (.define ["updateErr"] [(.call .update [(.var 3 "file"), (.glob .publicSuffixListSources)])]) (.bin .ne (.var 5
  "updateErr") .nil) (.seq (.ret [(.var 5 "updateErr")]) .skip) .skip)

/-- psl.go:192-213, statement 8. -/
def Update_8 : Stmt :=
  (.redefine ["tldTrie", "err"] [none, some 4] [(.call .trieConstruct [(.field (.var 0 "f") .includePrivateSuffix), (.var 2
  "defaultCacheFilePath")])])

/-- psl.go:192-213, statement 9. -/
def Update_9 : Stmt :=
  (.ite .skip (.bin .eq (.var 4 "err") .nil) (.seq (.assign [(.field 0 "f" .tldTrie)] [(.var 5 "tldTrie")]) (.seq (.assign
  [(.field 0 "f" .cacheFilePath)] [(.var 2 "defaultCacheFilePath")]) .skip)) .skip)

/-- psl.go:192-213, statement 10. -/
def Update_10 : Stmt :=
  (.ret [(.var 4 "err")])

/-- psl.go:192-213 -/
def Update_func : Func where
  fn := .Update
  recv := some ("f", .FastTLD)
  params := []
  results := [(none, .error)]
  body := .seq Update_1 <| .seq Update_2 <| .seq Update_3 <| .seq Update_4 <| .seq Update_5 <| .seq Update_6 <| .seq Update_7 <|
    .seq Update_8 <| .seq Update_9 <| .seq Update_10 <| .skip

/-- psl.go:192-213 -/
def Update_tokens : List Tok :=
  [.id "func", .op "(", .id "f", .op "*", .id "FastTLD", .op ")", .id "Update", .op "(", .op ")", .id "error", .op "{", .id
   "filesystem", .op ":=", .id "new", .op "(", .id "afero", .op ".", .id "OsFs", .op ")", .op ";", .id
   "defaultCacheFilePath", .op ":=", .id "afero", .op ".", .id "GetTempDir", .op "(", .id "filesystem", .op ",", .str [], .op
   ")", .op "+", .id "defaultPSLFileName", .op ";", .id "if", .id "f", .op ".", .id "cacheFilePath", .op "!=", .id
   "defaultCacheFilePath", .op "{", .id "return", .id "errors", .op ".", .id "New", .op "(", .str [78, 111, 45, 111, 112, 46,
   32, 79, 110, 108, 121, 32, 100, 101, 102, 97, 117, 108, 116, 32, 80, 117, 98, 108, 105, 99, 32, 83, 117, 102, 102, 105,
   120, 32, 108, 105, 115, 116, 32, 102, 105, 108, 101, 32, 99, 97, 110, 32, 98, 101, 32, 117, 112, 100, 97, 116, 101, 100],
   .op ")", .op ";", .op "}", .op ";", .id "file", .op ",", .id "err", .op ":=", .id "os", .op ".", .id "OpenFile", .op "(",
   .id "defaultCacheFilePath", .op ",", .id "os", .op ".", .id "O_CREATE", .op "|", .id "os", .op ".", .id "O_WRONLY", .op
   ",", .int 420, .op ")", .op ";", .id "if", .id "err", .op "!=", .id "nil", .op "{", .id "return", .id "err", .op ";", .op
   "}", .op ";", .id "defer", .id "file", .op ".", .id "Close", .op "(", .op ")", .op ";", .id "if", .id "updateErr", .op
   ":=", .id "update", .op "(", .id "file", .op ",", .id "publicSuffixListSources", .op ")", .op ";", .id "updateErr", .op
   "!=", .id "nil", .op "{", .id "return", .id "updateErr", .op ";", .op "}", .op ";", .id "tldTrie", .op ",", .id "err", .op
   ":=", .id "trieConstruct", .op "(", .id "f", .op ".", .id "includePrivateSuffix", .op ",", .id "defaultCacheFilePath", .op
   ")", .op ";", .id "if", .id "err", .op "==", .id "nil", .op "{", .id "f", .op ".", .id "tldTrie", .op "=", .id "tldTrie",
   .op ";", .id "f", .op ".", .id "cacheFilePath", .op "=", .id "defaultCacheFilePath", .op ";", .op "}", .op ";", .id
   "return", .id "err", .op ";", .op "}", .op ";"]

theorem Update_text : Update_func.toks = Update_tokens := by decide +kernel

theorem Update_scoped : Update_func.scoped = true := by decide +kernel

/-- print.go:8-93, statement 1. -/
def PrintRes_1 : Stmt :=
  (.declareInit "leftAttrsFilled" (.attributes [(.known (.attr .fgHiYellow)), (.known (.attr .bold))]))

/-- print.go:8-93, statement 2. -/
def PrintRes_2 : Stmt :=
  (.declareInit "leftAttrsBlank" (.attributes [(.known (.attr .fgHiBlack))]))

/-- print.go:8-93, statement 3. -/
def PrintRes_3 : Stmt :=
  (.declareInit "rightAttrs" (.attributes [(.known (.attr .fgHiWhite))]))

/-- print.go:8-93, statement 4. -/
def PrintRes_4 : Stmt :=
  (.ite .skip (.bin .ne (.call .len [(.var 0 "url")]) (.intLit 0)) (.seq (.expr (.call .Print [(.call .colorNew [(.spreadArg
  (.var 2 "leftAttrsFilled"))]), (.strLit [32, 32, 32, 32, 32, 32, 32, 32, 32, 32, 32, 32, 32, 32, 117, 114, 108, 58, 32])]))
  .skip) (.seq (.expr (.call .Print [(.call .colorNew [(.spreadArg (.var 3 "leftAttrsBlank"))]), (.strLit [32, 32, 32, 32,
  32, 32, 32, 32, 32, 32, 32, 32, 32, 32, 117, 114, 108, 58, 32])])) .skip))

/-- print.go:8-93, statement 5. -/
def PrintRes_5 : Stmt :=
  (.expr (.call .colorPrintln [(.call .colorNew [(.spreadArg (.var 4 "rightAttrs"))]), (.var 0 "url")]))

/-- print.go:8-93, statement 6. -/
def PrintRes_6 : Stmt :=
  (.ite .skip (.bin .ne (.call .len [(.field (.var 1 "res") .Scheme)]) (.intLit 0)) (.seq (.expr (.call .Print [(.call
  .colorNew [(.spreadArg (.var 2 "leftAttrsFilled"))]), (.strLit [32, 32, 32, 32, 32, 32, 32, 32, 32, 32, 32, 115, 99, 104,
  101, 109, 101, 58, 32])])) .skip) (.seq (.expr (.call .Print [(.call .colorNew [(.spreadArg (.var 3 "leftAttrsBlank"))]),
  (.strLit [32, 32, 32, 32, 32, 32, 32, 32, 32, 32, 32, 115, 99, 104, 101, 109, 101, 58, 32])])) .skip))

/-- print.go:8-93, statement 7. -/
def PrintRes_7 : Stmt :=
  (.expr (.call .colorPrintln [(.call .colorNew [(.spreadArg (.var 4 "rightAttrs"))]), (.field (.var 1 "res") .Scheme)]))

/-- print.go:8-93, statement 8. -/
def PrintRes_8 : Stmt :=
  (.ite .skip (.bin .ne (.call .len [(.field (.var 1 "res") .UserInfo)]) (.intLit 0)) (.seq (.expr (.call .Print [(.call
  .colorNew [(.spreadArg (.var 2 "leftAttrsFilled"))]), (.strLit [32, 32, 32, 32, 32, 32, 32, 32, 32, 117, 115, 101, 114,
  105, 110, 102, 111, 58, 32])])) .skip) (.seq (.expr (.call .Print [(.call .colorNew [(.spreadArg (.var 3
  "leftAttrsBlank"))]), (.strLit [32, 32, 32, 32, 32, 32, 32, 32, 32, 117, 115, 101, 114, 105, 110, 102, 111, 58, 32])]))
  .skip))

/-- print.go:8-93, statement 9. -/
def PrintRes_9 : Stmt :=
  (.expr (.call .colorPrintln [(.call .colorNew [(.spreadArg (.var 4 "rightAttrs"))]), (.field (.var 1 "res") .UserInfo)]))

/-- print.go:8-93, statement 10. -/
def PrintRes_10 : Stmt :=
  (.ite .skip (.bin .ne (.call .len [(.field (.var 1 "res") .SubDomain)]) (.intLit 0)) (.seq (.expr (.call .Print [(.call
  .colorNew [(.spreadArg (.var 2 "leftAttrsFilled"))]), (.strLit [32, 32, 32, 32, 32, 32, 32, 32, 115, 117, 98, 100, 111,
  109, 97, 105, 110, 58, 32])])) .skip) (.seq (.expr (.call .Print [(.call .colorNew [(.spreadArg (.var 3
  "leftAttrsBlank"))]), (.strLit [32, 32, 32, 32, 32, 32, 32, 32, 115, 117, 98, 100, 111, 109, 97, 105, 110, 58, 32])]))
  .skip))

/-- print.go:8-93, statement 11. -/
def PrintRes_11 : Stmt :=
  (.expr (.call .colorPrintln [(.call .colorNew [(.spreadArg (.var 4 "rightAttrs"))]), (.field (.var 1 "res") .SubDomain)]))

/-- print.go:8-93, statement 12. -/
def PrintRes_12 : Stmt :=
  (.ite .skip (.bin .ne (.call .len [(.field (.var 1 "res") .Domain)]) (.intLit 0)) (.seq (.expr (.call .Print [(.call
  .colorNew [(.spreadArg (.var 2 "leftAttrsFilled"))]), (.strLit [32, 32, 32, 32, 32, 32, 32, 32, 32, 32, 32, 100, 111, 109,
  97, 105, 110, 58, 32])])) .skip) (.seq (.expr (.call .Print [(.call .colorNew [(.spreadArg (.var 3 "leftAttrsBlank"))]),
  (.strLit [32, 32, 32, 32, 32, 32, 32, 32, 32, 32, 32, 100, 111, 109, 97, 105, 110, 58, 32])])) .skip))

/-- print.go:8-93, statement 13. -/
def PrintRes_13 : Stmt :=
  (.expr (.call .colorPrintln [(.call .colorNew [(.spreadArg (.var 4 "rightAttrs"))]), (.field (.var 1 "res") .Domain)]))

/-- print.go:8-93, statement 14. -/
def PrintRes_14 : Stmt :=
  (.ite .skip (.bin .ne (.call .len [(.field (.var 1 "res") .Suffix)]) (.intLit 0)) (.seq (.expr (.call .Print [(.call
  .colorNew [(.spreadArg (.var 2 "leftAttrsFilled"))]), (.strLit [32, 32, 32, 32, 32, 32, 32, 32, 32, 32, 32, 115, 117, 102,
  102, 105, 120, 58, 32])])) .skip) (.seq (.expr (.call .Print [(.call .colorNew [(.spreadArg (.var 3 "leftAttrsBlank"))]),
  (.strLit [32, 32, 32, 32, 32, 32, 32, 32, 32, 32, 32, 115, 117, 102, 102, 105, 120, 58, 32])])) .skip))

/-- print.go:8-93, statement 15. -/
def PrintRes_15 : Stmt :=
  (.expr (.call .colorPrintln [(.call .colorNew [(.spreadArg (.var 4 "rightAttrs"))]), (.field (.var 1 "res") .Suffix)]))

/-- print.go:8-93, statement 16. -/
def PrintRes_16 : Stmt :=
  (.ite .skip (.bin .ne (.call .len [(.field (.var 1 "res") .RegisteredDomain)]) (.intLit 0)) (.seq (.expr (.call .Print
  [(.call .colorNew [(.spreadArg (.var 2 "leftAttrsFilled"))]), (.strLit [114, 101, 103, 105, 115, 116, 101, 114, 101, 100,
  32, 100, 111, 109, 97, 105, 110, 58, 32])])) .skip) (.seq (.expr (.call .Print [(.call .colorNew [(.spreadArg (.var 3
  "leftAttrsBlank"))]), (.strLit [114, 101, 103, 105, 115, 116, 101, 114, 101, 100, 32, 100, 111, 109, 97, 105, 110, 58,
  32])])) .skip))

/-- print.go:8-93, statement 17. -/
def PrintRes_17 : Stmt :=
  (.expr (.call .colorPrintln [(.call .colorNew [(.spreadArg (.var 4 "rightAttrs"))]), (.field (.var 1 "res")
  .RegisteredDomain)]))

/-- print.go:8-93, statement 18. -/
def PrintRes_18 : Stmt :=
  (.ite .skip (.bin .ne (.call .len [(.field (.var 1 "res") .Port)]) (.intLit 0)) (.seq (.expr (.call .Print [(.call
  .colorNew [(.spreadArg (.var 2 "leftAttrsFilled"))]), (.strLit [32, 32, 32, 32, 32, 32, 32, 32, 32, 32, 32, 32, 32, 112,
  111, 114, 116, 58, 32])])) .skip) (.seq (.expr (.call .Print [(.call .colorNew [(.spreadArg (.var 3 "leftAttrsBlank"))]),
  (.strLit [32, 32, 32, 32, 32, 32, 32, 32, 32, 32, 32, 32, 32, 112, 111, 114, 116, 58, 32])])) .skip))

/-- print.go:8-93, statement 19. -/
def PrintRes_19 : Stmt :=
  (.expr (.call .colorPrintln [(.call .colorNew [(.spreadArg (.var 4 "rightAttrs"))]), (.field (.var 1 "res") .Port)]))

/-- print.go:8-93, statement 20. -/
def PrintRes_20 : Stmt :=
  (.ite .skip (.bin .ne (.call .len [(.field (.var 1 "res") .Path)]) (.intLit 0)) (.seq (.expr (.call .Print [(.call
  .colorNew [(.spreadArg (.var 2 "leftAttrsFilled"))]), (.strLit [32, 32, 32, 32, 32, 32, 32, 32, 32, 32, 32, 32, 32, 112,
  97, 116, 104, 58, 32])])) .skip) (.seq (.expr (.call .Print [(.call .colorNew [(.spreadArg (.var 3 "leftAttrsBlank"))]),
  (.strLit [32, 32, 32, 32, 32, 32, 32, 32, 32, 32, 32, 32, 32, 112, 97, 116, 104, 58, 32])])) .skip))

/-- print.go:8-93, statement 21. -/
def PrintRes_21 : Stmt :=
  (.expr (.call .colorPrintln [(.call .colorNew [(.spreadArg (.var 4 "rightAttrs"))]), (.field (.var 1 "res") .Path)]))

/-- print.go:8-93, statement 22. -/
def PrintRes_22 : Stmt :=
  (.ite .skip (.bin .ne (.field (.var 1 "res") .HostType) (.intLit 0)) (.seq (.expr (.call .Print [(.call .colorNew [(.known
  (.attr .fgHiBlue)), (.known (.attr .bold))]), (.strLit [32, 32, 32, 32, 32, 32, 32, 32, 104, 111, 115, 116, 32, 116, 121,
  112, 101, 58, 32])])) .skip) (.seq (.expr (.call .Print [(.call .colorNew [(.spreadArg (.var 3 "leftAttrsBlank"))]),
  (.strLit [32, 32, 32, 32, 32, 32, 32, 32, 104, 111, 115, 116, 32, 116, 121, 112, 101, 58, 32])])) .skip))

/-- print.go:8-93, statement 23. -/
def PrintRes_23 : Stmt :=
  (.switch (.field (.var 1 "res") .HostType) (.case (.glob .HostName) (.seq (.expr (.call .colorPrintln [(.call .colorNew
  [(.spreadArg (.var 4 "rightAttrs"))]), (.strLit [104, 111, 115, 116, 110, 97, 109, 101])])) .skip) (.case (.glob .IPv4)
  (.seq (.expr (.call .colorPrintln [(.call .colorNew [(.spreadArg (.var 4 "rightAttrs"))]), (.strLit [105, 112, 118, 52, 32,
  97, 100, 100, 114, 101, 115, 115])])) .skip) (.case (.glob .IPv6) (.seq (.expr (.call .colorPrintln [(.call .colorNew
  [(.spreadArg (.var 4 "rightAttrs"))]), (.strLit [105, 112, 118, 54, 32, 97, 100, 100, 114, 101, 115, 115])])) .skip) (.dflt
  (.seq (.expr (.call .colorPrintln [(.call .colorNew [(.spreadArg (.var 4 "rightAttrs"))])])) .skip))))))

/-- print.go:8-93, statement 24. -/
def PrintRes_24 : Stmt :=
  (.expr (.call .colorPrintln [(.call .colorNew [])]))

/-- print.go:8-93 -/
def PrintRes_func : Func where
  fn := .PrintRes
  params := [("url", .string), ("res", .ExtractResult)]
  results := []
  body := .seq PrintRes_1 <| .seq PrintRes_2 <| .seq PrintRes_3 <| .seq PrintRes_4 <| .seq PrintRes_5 <| .seq PrintRes_6 <| .seq
    PrintRes_7 <| .seq PrintRes_8 <| .seq PrintRes_9 <| .seq PrintRes_10 <| .seq PrintRes_11 <| .seq PrintRes_12 <| .seq
    PrintRes_13 <| .seq PrintRes_14 <| .seq PrintRes_15 <| .seq PrintRes_16 <| .seq PrintRes_17 <| .seq PrintRes_18 <| .seq
    PrintRes_19 <| .seq PrintRes_20 <| .seq PrintRes_21 <| .seq PrintRes_22 <| .seq PrintRes_23 <| .seq PrintRes_24 <| .skip

/-- print.go:8-93 -/
def PrintRes_tokens : List Tok :=
  [.id "func", .id "PrintRes", .op "(", .id "url", .id "string", .op ",", .id "res", .id "ExtractResult", .op ")", .op "{",
   .id "var", .id "leftAttrsFilled", .op "=", .op "[", .op "]", .id "color", .op ".", .id "Attribute", .op "{", .id "color",
   .op ".", .id "FgHiYellow", .op ",", .id "color", .op ".", .id "Bold", .op "}", .op ";", .id "var", .id "leftAttrsBlank",
   .op "=", .op "[", .op "]", .id "color", .op ".", .id "Attribute", .op "{", .id "color", .op ".", .id "FgHiBlack", .op "}",
   .op ";", .id "var", .id "rightAttrs", .op "=", .op "[", .op "]", .id "color", .op ".", .id "Attribute", .op "{", .id
   "color", .op ".", .id "FgHiWhite", .op "}", .op ";", .id "if", .id "len", .op "(", .id "url", .op ")", .op "!=", .int 0,
   .op "{", .id "color", .op ".", .id "New", .op "(", .id "leftAttrsFilled", .op "...", .op ")", .op ".", .id "Print", .op
   "(", .str [32, 32, 32, 32, 32, 32, 32, 32, 32, 32, 32, 32, 32, 32, 117, 114, 108, 58, 32], .op ")", .op ";", .op "}", .id
   "else", .op "{", .id "color", .op ".", .id "New", .op "(", .id "leftAttrsBlank", .op "...", .op ")", .op ".", .id "Print",
   .op "(", .str [32, 32, 32, 32, 32, 32, 32, 32, 32, 32, 32, 32, 32, 32, 117, 114, 108, 58, 32], .op ")", .op ";", .op "}",
   .op ";", .id "color", .op ".", .id "New", .op "(", .id "rightAttrs", .op "...", .op ")", .op ".", .id "Println", .op "(",
   .id "url", .op ")", .op ";", .id "if", .id "len", .op "(", .id "res", .op ".", .id "Scheme", .op ")", .op "!=", .int 0,
   .op "{", .id "color", .op ".", .id "New", .op "(", .id "leftAttrsFilled", .op "...", .op ")", .op ".", .id "Print", .op
   "(", .str [32, 32, 32, 32, 32, 32, 32, 32, 32, 32, 32, 115, 99, 104, 101, 109, 101, 58, 32], .op ")", .op ";", .op "}",
   .id "else", .op "{", .id "color", .op ".", .id "New", .op "(", .id "leftAttrsBlank", .op "...", .op ")", .op ".", .id
   "Print", .op "(", .str [32, 32, 32, 32, 32, 32, 32, 32, 32, 32, 32, 115, 99, 104, 101, 109, 101, 58, 32], .op ")", .op
   ";", .op "}", .op ";", .id "color", .op ".", .id "New", .op "(", .id "rightAttrs", .op "...", .op ")", .op ".", .id
   "Println", .op "(", .id "res", .op ".", .id "Scheme", .op ")", .op ";", .id "if", .id "len", .op "(", .id "res", .op ".",
   .id "UserInfo", .op ")", .op "!=", .int 0, .op "{", .id "color", .op ".", .id "New", .op "(", .id "leftAttrsFilled", .op
   "...", .op ")", .op ".", .id "Print", .op "(", .str [32, 32, 32, 32, 32, 32, 32, 32, 32, 117, 115, 101, 114, 105, 110,
   102, 111, 58, 32], .op ")", .op ";", .op "}", .id "else", .op "{", .id "color", .op ".", .id "New", .op "(", .id
   "leftAttrsBlank", .op "...", .op ")", .op ".", .id "Print", .op "(", .str [32, 32, 32, 32, 32, 32, 32, 32, 32, 117, 115,
   101, 114, 105, 110, 102, 111, 58, 32], .op ")", .op ";", .op "}", .op ";", .id "color", .op ".", .id "New", .op "(", .id
   "rightAttrs", .op "...", .op ")", .op ".", .id "Println", .op "(", .id "res", .op ".", .id "UserInfo", .op ")", .op ";",
   .id "if", .id "len", .op "(", .id "res", .op ".", .id "SubDomain", .op ")", .op "!=", .int 0, .op "{", .id "color", .op
   ".", .id "New", .op "(", .id "leftAttrsFilled", .op "...", .op ")", .op ".", .id "Print", .op "(", .str [32, 32, 32, 32,
   32, 32, 32, 32, 115, 117, 98, 100, 111, 109, 97, 105, 110, 58, 32], .op ")", .op ";", .op "}", .id "else", .op "{", .id
   "color", .op ".", .id "New", .op "(", .id "leftAttrsBlank", .op "...", .op ")", .op ".", .id "Print", .op "(", .str [32,
   32, 32, 32, 32, 32, 32, 32, 115, 117, 98, 100, 111, 109, 97, 105, 110, 58, 32], .op ")", .op ";", .op "}", .op ";", .id
   "color", .op ".", .id "New", .op "(", .id "rightAttrs", .op "...", .op ")", .op ".", .id "Println", .op "(", .id "res",
   .op ".", .id "SubDomain", .op ")", .op ";", .id "if", .id "len", .op "(", .id "res", .op ".", .id "Domain", .op ")", .op
   "!=", .int 0, .op "{", .id "color", .op ".", .id "New", .op "(", .id "leftAttrsFilled", .op "...", .op ")", .op ".", .id
   "Print", .op "(", .str [32, 32, 32, 32, 32, 32, 32, 32, 32, 32, 32, 100, 111, 109, 97, 105, 110, 58, 32], .op ")", .op
   ";", .op "}", .id "else", .op "{", .id "color", .op ".", .id "New", .op "(", .id "leftAttrsBlank", .op "...", .op ")", .op
   ".", .id "Print", .op "(", .str [32, 32, 32, 32, 32, 32, 32, 32, 32, 32, 32, 100, 111, 109, 97, 105, 110, 58, 32], .op
   ")", .op ";", .op "}", .op ";", .id "color", .op ".", .id "New", .op "(", .id "rightAttrs", .op "...", .op ")", .op ".",
   .id "Println", .op "(", .id "res", .op ".", .id "Domain", .op ")", .op ";", .id "if", .id "len", .op "(", .id "res", .op
   ".", .id "Suffix", .op ")", .op "!=", .int 0, .op "{", .id "color", .op ".", .id "New", .op "(", .id "leftAttrsFilled",
   .op "...", .op ")", .op ".", .id "Print", .op "(", .str [32, 32, 32, 32, 32, 32, 32, 32, 32, 32, 32, 115, 117, 102, 102,
   105, 120, 58, 32], .op ")", .op ";", .op "}", .id "else", .op "{", .id "color", .op ".", .id "New", .op "(", .id
   "leftAttrsBlank", .op "...", .op ")", .op ".", .id "Print", .op "(", .str [32, 32, 32, 32, 32, 32, 32, 32, 32, 32, 32,
   115, 117, 102, 102, 105, 120, 58, 32], .op ")", .op ";", .op "}", .op ";", .id "color", .op ".", .id "New", .op "(", .id
   "rightAttrs", .op "...", .op ")", .op ".", .id "Println", .op "(", .id "res", .op ".", .id "Suffix", .op ")", .op ";", .id
   "if", .id "len", .op "(", .id "res", .op ".", .id "RegisteredDomain", .op ")", .op "!=", .int 0, .op "{", .id "color", .op
   ".", .id "New", .op "(", .id "leftAttrsFilled", .op "...", .op ")", .op ".", .id "Print", .op "(", .str [114, 101, 103,
   105, 115, 116, 101, 114, 101, 100, 32, 100, 111, 109, 97, 105, 110, 58, 32], .op ")", .op ";", .op "}", .id "else", .op
   "{", .id "color", .op ".", .id "New", .op "(", .id "leftAttrsBlank", .op "...", .op ")", .op ".", .id "Print", .op "(",
   .str [114, 101, 103, 105, 115, 116, 101, 114, 101, 100, 32, 100, 111, 109, 97, 105, 110, 58, 32], .op ")", .op ";", .op
   "}", .op ";", .id "color", .op ".", .id "New", .op "(", .id "rightAttrs", .op "...", .op ")", .op ".", .id "Println", .op
   "(", .id "res", .op ".", .id "RegisteredDomain", .op ")", .op ";", .id "if", .id "len", .op "(", .id "res", .op ".", .id
   "Port", .op ")", .op "!=", .int 0, .op "{", .id "color", .op ".", .id "New", .op "(", .id "leftAttrsFilled", .op "...",
   .op ")", .op ".", .id "Print", .op "(", .str [32, 32, 32, 32, 32, 32, 32, 32, 32, 32, 32, 32, 32, 112, 111, 114, 116, 58,
   32], .op ")", .op ";", .op "}", .id "else", .op "{", .id "color", .op ".", .id "New", .op "(", .id "leftAttrsBlank", .op
   "...", .op ")", .op ".", .id "Print", .op "(", .str [32, 32, 32, 32, 32, 32, 32, 32, 32, 32, 32, 32, 32, 112, 111, 114,
   116, 58, 32], .op ")", .op ";", .op "}", .op ";", .id "color", .op ".", .id "New", .op "(", .id "rightAttrs", .op "...",
   .op ")", .op ".", .id "Println", .op "(", .id "res", .op ".", .id "Port", .op ")", .op ";", .id "if", .id "len", .op "(",
   .id "res", .op ".", .id "Path", .op ")", .op "!=", .int 0, .op "{", .id "color", .op ".", .id "New", .op "(", .id
   "leftAttrsFilled", .op "...", .op ")", .op ".", .id "Print", .op "(", .str [32, 32, 32, 32, 32, 32, 32, 32, 32, 32, 32,
   32, 32, 112, 97, 116, 104, 58, 32], .op ")", .op ";", .op "}", .id "else", .op "{", .id "color", .op ".", .id "New", .op
   "(", .id "leftAttrsBlank", .op "...", .op ")", .op ".", .id "Print", .op "(", .str [32, 32, 32, 32, 32, 32, 32, 32, 32,
   32, 32, 32, 32, 112, 97, 116, 104, 58, 32], .op ")", .op ";", .op "}", .op ";", .id "color", .op ".", .id "New", .op "(",
   .id "rightAttrs", .op "...", .op ")", .op ".", .id "Println", .op "(", .id "res", .op ".", .id "Path", .op ")", .op ";",
   .id "if", .id "res", .op ".", .id "HostType", .op "!=", .int 0, .op "{", .id "color", .op ".", .id "New", .op "(", .id
   "color", .op ".", .id "FgHiBlue", .op ",", .id "color", .op ".", .id "Bold", .op ")", .op ".", .id "Print", .op "(", .str
   [32, 32, 32, 32, 32, 32, 32, 32, 104, 111, 115, 116, 32, 116, 121, 112, 101, 58, 32], .op ")", .op ";", .op "}", .id
   "else", .op "{", .id "color", .op ".", .id "New", .op "(", .id "leftAttrsBlank", .op "...", .op ")", .op ".", .id "Print",
   .op "(", .str [32, 32, 32, 32, 32, 32, 32, 32, 104, 111, 115, 116, 32, 116, 121, 112, 101, 58, 32], .op ")", .op ";", .op
   "}", .op ";", .id "switch", .id "res", .op ".", .id "HostType", .op "{", .id "case", .id "HostName", .op ":", .id "color",
   .op ".", .id "New", .op "(", .id "rightAttrs", .op "...", .op ")", .op ".", .id "Println", .op "(", .str [104, 111, 115,
   116, 110, 97, 109, 101], .op ")", .op ";", .id "case", .id "IPv4", .op ":", .id "color", .op ".", .id "New", .op "(", .id
   "rightAttrs", .op "...", .op ")", .op ".", .id "Println", .op "(", .str [105, 112, 118, 52, 32, 97, 100, 100, 114, 101,
   115, 115], .op ")", .op ";", .id "case", .id "IPv6", .op ":", .id "color", .op ".", .id "New", .op "(", .id "rightAttrs",
   .op "...", .op ")", .op ".", .id "Println", .op "(", .str [105, 112, 118, 54, 32, 97, 100, 100, 114, 101, 115, 115], .op
   ")", .op ";", .id "default", .op ":", .id "color", .op ".", .id "New", .op "(", .id "rightAttrs", .op "...", .op ")", .op
   ".", .id "Println", .op "(", .op ")", .op ";", .op "}", .op ";", .id "color", .op ".", .id "New", .op "(", .op ")", .op
   ".", .id "Println", .op "(", .op ")", .op ";", .op "}", .op ";"]

theorem PrintRes_text : PrintRes_func.toks = PrintRes_tokens := by decide +kernel

theorem PrintRes_scoped : PrintRes_func.scoped = true := by decide +kernel

/-- cmd/fasttld/extract.go:25-36, statement 1. -/
def Run_1 : Stmt :=
  (.define ["extractor", "err"] [(.inPackage (.call .New [(.inPackage (.newListParams (.glob .includePrivateSuffix)))]))])

/-- cmd/fasttld/extract.go:25-36, statement 2. -/
def Run_2 : Stmt :=
  (.ite .skip (.bin .ne (.var 3 "err") .nil) (.seq (.expr (.call .Fatal [(.var 3 "err")])) .skip) .skip)

/-- cmd/fasttld/extract.go:25-36, statement 3. -/
def Run_3 : Stmt :=
  (.redefine ["res", "err"] [none, some 3] [(.call .Extract [(.var 2 "extractor"), (.inPackage (.newParams (.index (.var 1
  "args") (.intLit 0)) (.glob .ignoreSubDomains) (.glob .toPunyCode)))])])

/-- cmd/fasttld/extract.go:25-36, statement 4. -/
def Run_4 : Stmt :=
  (.ite .skip (.bin .ne (.var 3 "err") .nil) (.seq (.expr (.call .Print [(.call .colorNew [(.known (.attr .fgHiRed)), (.known
  (.attr .bold))]), (.strLit [69, 114, 114, 111, 114, 58, 32])])) (.seq (.expr (.call .colorPrintln [(.call .colorNew
  [(.known (.attr .fgHiWhite))]), (.var 3 "err")])) .skip)) .skip)

/-- cmd/fasttld/extract.go:25-36, statement 5. -/
def Run_5 : Stmt :=
  (.expr (.inPackage (.call .PrintRes [(.index (.var 1 "args") (.intLit 0)), (.var 4 "res")])))

/-- cmd/fasttld/extract.go:25-36 -/
def Run_func : Func where
  fn := .Run
  params := [("cmd", .cobraCommand), ("args", .stringSlice)]
  results := []
  body := .seq Run_1 <| .seq Run_2 <| .seq Run_3 <| .seq Run_4 <| .seq Run_5 <| .skip

/-- cmd/fasttld/extract.go:25-36 -/
def Run_tokens : List Tok :=
  [.id "func", .op "(", .id "cmd", .op "*", .id "cobra", .op ".", .id "Command", .op ",", .id "args", .op "[", .op "]", .id
   "string", .op ")", .op "{", .id "extractor", .op ",", .id "err", .op ":=", .id "fasttld", .op ".", .id "New", .op "(", .id
   "fasttld", .op ".", .id "SuffixListParams", .op "{", .id "IncludePrivateSuffix", .op ":", .id "includePrivateSuffix", .op
   "}", .op ")", .op ";", .id "if", .id "err", .op "!=", .id "nil", .op "{", .id "log", .op ".", .id "Fatal", .op "(", .id
   "err", .op ")", .op ";", .op "}", .op ";", .id "res", .op ",", .id "err", .op ":=", .id "extractor", .op ".", .id
   "Extract", .op "(", .id "fasttld", .op ".", .id "URLParams", .op "{", .id "URL", .op ":", .id "args", .op "[", .int 0, .op
   "]", .op ",", .id "IgnoreSubDomains", .op ":", .id "ignoreSubDomains", .op ",", .id "ConvertURLToPunyCode", .op ":", .id
   "toPunyCode", .op "}", .op ")", .op ";", .id "if", .id "err", .op "!=", .id "nil", .op "{", .id "color", .op ".", .id
   "New", .op "(", .id "color", .op ".", .id "FgHiRed", .op ",", .id "color", .op ".", .id "Bold", .op ")", .op ".", .id
   "Print", .op "(", .str [69, 114, 114, 111, 114, 58, 32], .op ")", .op ";", .id "color", .op ".", .id "New", .op "(", .id
   "color", .op ".", .id "FgHiWhite", .op ")", .op ".", .id "Println", .op "(", .id "err", .op ")", .op ";", .op "}", .op
   ";", .id "fasttld", .op ".", .id "PrintRes", .op "(", .id "args", .op "[", .int 0, .op "]", .op ",", .id "res", .op ")",
   .op ";", .op "}"]

theorem Run_text : Run_func.litToks = Run_tokens := by decide +kernel

theorem Run_scoped : Run_func.scoped = true := by decide +kernel

/-- The functions with text. -/
def program : Fn → Option Func
  | .makeASCIISet => some makeASCIISet_func
  | .contains => some contains_func
  | .makeRuneSet => some makeRuneSet_func
  | .getSchemeEndIndex => some getSchemeEndIndex_func
  | .indexAnyASCII => some indexAnyASCII_func
  | .hasInvalidChars => some hasInvalidChars_func
  | .lastIndexAny => some lastIndexAny_func
  | .sepSize => some sepSize_func
  | .formatAsPunycode => some formatAsPunycode_func
  | .indexLastByteBefore => some indexLastByteBefore_func
  | .fastTrim => some fastTrim_func
  | .reverse => some reverse_func
  | .dtoi => some dtoi_func
  | .xtoi => some xtoi_func
  | .isIPv4 => some isIPv4_func
  | .isIPv6 => some isIPv6_func
  | .Extract => some Extract_func
  | .nestedDict => some nestedDict_func
  | .trieConstruct => some trieConstruct_func
  | .New => some New_func
  | .processLine => some processLine_func
  | .getPublicSuffixList => some getPublicSuffixList_func
  | .getHardcodedPublicSuffixList => some getHardcodedPublicSuffixList_func
  | .validPSLDelimiters => some validPSLDelimiters_func
  | .newHardcodedPSL => some newHardcodedPSL_func
  | .downloadFile => some downloadFile_func
  | .fileLastModifiedHours => some fileLastModifiedHours_func
  | .update => some update_func
  | .checkCacheFile => some checkCacheFile_func
  | .Update => some Update_func
  | .PrintRes => some PrintRes_func
  | _ => none

end Fasttld.GoLang.Source
