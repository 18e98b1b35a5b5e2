import Verif.Model.GoLang

/-!
# From the syntax back to the text

The tokens of a function in the syntax of Model/GoLang.lean, as the lexer of Go finds them (The Go Programming Language
Specification, Tokens and Semicolons: the line breaks after statements count as semicolons).  Model/Source.lean states
that they are the tokens of the files in /repo.  `scoped` checks the places of the variables.
-/

namespace Fasttld.GoLang
open Fasttld

/-- Tokens.  Of literals only the value. -/
inductive Tok
  | id (s : String)
  | int (n : Nat)
  | chr (n : Nat)
  | str (s : Bytes)
  | op (s : String)
  deriving DecidableEq, Repr

/-- The name of a constant or variable of the package. -/
def Glob.name : Glob → String
  | .labelSeparatorsRuneSet => "labelSeparatorsRuneSet"
  | .whitespaceRuneSet => "whitespaceRuneSet"
  | .invalidHostNameCharsRuneSet => "invalidHostNameCharsRuneSet"
  | .numericSet => "numericSet"
  | .alphaNumericSet => "alphaNumericSet"
  | .endOfHostWithPortDelimitersSet => "endOfHostWithPortDelimitersSet"
  | .endOfHostDelimitersSet => "endOfHostDelimitersSet"
  | .invalidUserInfoCharsSet => "invalidUserInfoCharsSet"
  | .schemeFirstCharSet => "schemeFirstCharSet"
  | .schemeRemainingCharSet => "schemeRemainingCharSet"
  | .slashes => "slashes"
  | .alphabets => "alphabets"
  | .numbers => "numbers"
  | .labelSeparators => "labelSeparators"
  | .controlChars => "controlChars"
  | .whitespace => "whitespace"
  | .invalidHostNameChars => "invalidHostNameChars"
  | .endOfHostWithPortDelimiters => "endOfHostWithPortDelimiters"
  | .endOfHostDelimiters => "endOfHostDelimiters"
  | .invalidUserInfoChars => "invalidUserInfoChars"
  | .trimBoth => "trimBoth"
  | .trimLeft => "trimLeft"
  | .trimRight => "trimRight"
  | .iPv4len => "iPv4len"
  | .iPv6len => "iPv6len"
  | .lenDiff => "lenDiff"
  | .big => "big"
  | .largestPortNumber => "largestPortNumber"
  | .None => "None"
  | .HostName => "HostName"
  | .IPv4 => "IPv4"
  | .IPv6 => "IPv6"
  | .defaultPSLFileName => "defaultPSLFileName"
  | .pslMaxAgeHours => "pslMaxAgeHours"
  | .publicSuffixListSources => "publicSuffixListSources"
  | .includePrivateSuffix => "includePrivateSuffix"
  | .ignoreSubDomains => "ignoreSubDomains"
  | .toPunyCode => "toPunyCode"

/-- The name of a field. -/
def Field.name : Field → String
  | .URL => "URL"
  | .IgnoreSubDomains => "IgnoreSubDomains"
  | .ConvertURLToPunyCode => "ConvertURLToPunyCode"
  | .tldTrie => "tldTrie"
  | .matches => "matches"
  | .end => "end"
  | .Scheme => "Scheme"
  | .UserInfo => "UserInfo"
  | .SubDomain => "SubDomain"
  | .Domain => "Domain"
  | .Suffix => "Suffix"
  | .RegisteredDomain => "RegisteredDomain"
  | .Port => "Port"
  | .Path => "Path"
  | .HostType => "HostType"
  | .publicSuffixes => "publicSuffixes"
  | .privateSuffixes => "privateSuffixes"
  | .allSuffixes => "allSuffixes"
  | .StatusCode => "StatusCode"
  | .Body => "Body"
  | .cacheFilePath => "cacheFilePath"
  | .includePrivateSuffix => "includePrivateSuffix"
  | .CacheFilePath => "CacheFilePath"
  | .IncludePrivateSuffix => "IncludePrivateSuffix"

/-- The tokens of a type. -/
def TypeName.toks : TypeName → List Tok
  | .bool => [.id "bool"]
  | .int => [.id "int"]
  | .byte => [.id "byte"]
  | .rune => [.id "rune"]
  | .byteSlice => [.op "[", .op "]", .id "byte"]
  | .suffixes => [.id "suffixes"]
  | .asciiSetPtr => [.op "*", .id "asciiSet"]
  | .string => [.id "string"]
  | .error => [.id "error"]
  | .asciiSet => [.id "asciiSet"]
  | .intsetRune => [.op "*", .id "intset", .op ".", .id "Rune"]
  | .trimMode => [.id "trimMode"]
  | .HostType => [.id "HostType"]
  | .FastTLD => [.op "*", .id "FastTLD"]
  | .URLParams => [.id "URLParams"]
  | .ExtractResult => [.id "ExtractResult"]
  | .stringSlice => [.op "[", .op "]", .id "string"]
  | .triePtr => [.op "*", .id "trie"]
  | .trieMap => [.id "hashmap", .op ".", .id "Map", .op "[", .id "string", .op ",", .op "*", .id "trie", .op "]"]
  | .float64 => [.id "float64"]
  | .osFileInfo => [.id "os", .op ".", .id "FileInfo"]
  | .aferoFile => [.id "afero", .op ".", .id "File"]
  | .SuffixListParams => [.id "SuffixListParams"]
  | .cobraCommand => [.op "*", .id "cobra", .op ".", .id "Command"]

/-- How a function is written: its tokens, or the name of a method. -/
inductive Written
  | fn (ts : List Tok)
  | method (name : String)

/-- A function of another package. -/
def fromPackage (p f : String) : Written := .fn [.id p, .op ".", .id f]

/-- How each function is written. -/
def Fn.written : Fn → Written
  | .len => .fn [.id "len"]
  | .byte => .fn [.id "byte"]
  | .int => .fn [.id "int"]
  | .toBytes => .fn [.op "[", .op "]", .id "byte"]
  | .toRunes => .fn [.op "[", .op "]", .id "rune"]
  | .toStr => .fn [.id "string"]
  | .append => .fn [.id "append"]
  | .NewRune => fromPackage "intset" "NewRune"
  | .TrimSpace => fromPackage "strings" "TrimSpace"
  | .HasPrefix => fromPackage "strings" "HasPrefix"
  | .Split => fromPackage "strings" "Split"
  | .ToASCII => fromPackage "idna" "ToASCII"
  | .Contains => fromPackage "bytes" "Contains"
  | .ReadFile => fromPackage "os" "ReadFile"
  | .processLine => .fn [.id "processLine"]
  | .getPublicSuffixList => .fn [.id "getPublicSuffixList"]
  | .getHardcodedPublicSuffixList => .fn [.id "getHardcodedPublicSuffixList"]
  | .validPSLDelimiters => .fn [.id "validPSLDelimiters"]
  | .DecodeRuneInString => fromPackage "utf8" "DecodeRuneInString"
  | .DecodeLastRuneInString => fromPackage "utf8" "DecodeLastRuneInString"
  | .LastIndexByte => fromPackage "strings" "LastIndexByte"
  | .SplitAfterN => fromPackage "strings" "SplitAfterN"
  | .Atoi => fromPackage "strconv" "Atoi"
  | .QueryUnescape => fromPackage "url" "QueryUnescape"
  | .ToUnicode => fromPackage "idna" "ToUnicode"
  | .errorsNew => fromPackage "errors" "New"
  | .Println => fromPackage "log" "Println"
  | .idnaToPunyToASCII => fromPackage "idnaToPuny" "ToASCII"
  | .contains => .method "contains"
  | .Exists => .method "Exists"
  | .Get => .method "Get"
  | .Len => .method "Len"
  | .Error => .method "Error"
  | .makeASCIISet => .fn [.id "makeASCIISet"]
  | .makeRuneSet => .fn [.id "makeRuneSet"]
  | .getSchemeEndIndex => .fn [.id "getSchemeEndIndex"]
  | .indexAnyASCII => .fn [.id "indexAnyASCII"]
  | .hasInvalidChars => .fn [.id "hasInvalidChars"]
  | .lastIndexAny => .fn [.id "lastIndexAny"]
  | .sepSize => .fn [.id "sepSize"]
  | .formatAsPunycode => .fn [.id "formatAsPunycode"]
  | .indexLastByteBefore => .fn [.id "indexLastByteBefore"]
  | .fastTrim => .fn [.id "fastTrim"]
  | .dtoi => .fn [.id "dtoi"]
  | .xtoi => .fn [.id "xtoi"]
  | .isIPv4 => .fn [.id "isIPv4"]
  | .isIPv6 => .fn [.id "isIPv6"]
  | .Extract => .method "Extract"
  | .Set => .method "Set"
  | .reverse => .fn [.id "reverse"]
  | .nestedDict => .fn [.id "nestedDict"]
  | .trieConstruct => .fn [.id "trieConstruct"]
  | .httpGet => fromPackage "http" "Get"
  | .ReadAll => fromPackage "afero" "ReadAll"
  | .Sprint => fromPackage "fmt" "Sprint"
  | .Abs => fromPackage "filepath" "Abs"
  | .Stat => fromPackage "os" "Stat"
  | .OpenFile => fromPackage "os" "OpenFile"
  | .GetTempDir => fromPackage "afero" "GetTempDir"
  | .Now => fromPackage "time" "Now"
  | .Sub => .method "Sub"
  | .ModTime => .method "ModTime"
  | .Hours => .method "Hours"
  | .IsDir => .method "IsDir"
  | .Seek => .method "Seek"
  | .Write => .method "Write"
  | .Close => .method "Close"
  | .Open => .method "Open"
  | .newHardcodedPSL => .fn [.id "newHardcodedPSL"]
  | .downloadFile => .fn [.id "downloadFile"]
  | .fileLastModifiedHours => .fn [.id "fileLastModifiedHours"]
  | .update => .fn [.id "update"]
  | .checkCacheFile => .fn [.id "checkCacheFile"]
  | .New => .fn [.id "New"]
  | .Update => .method "Update"
  | .colorNew => fromPackage "color" "New"
  | .Print => .method "Print"
  | .colorPrintln => .method "Println"
  | .Fatal => fromPackage "log" "Fatal"
  | .PrintRes => .fn [.id "PrintRes"]
  | .Run => .fn []

/-- Precedence and token of a binary operator. -/
def BinOp.prec : BinOp → Nat
  | .mul | .div | .mod | .shl | .bitAnd => 5
  | .add | .sub | .bitOr => 4
  | .eq | .ne | .lt | .le | .gt | .ge => 3
  | .and => 2
  | .or => 1

/-- The token of a binary operator. -/
def BinOp.text : BinOp → String
  | .add => "+"
  | .sub => "-"
  | .mul => "*"
  | .div => "/"
  | .mod => "%"
  | .shl => "<<"
  | .bitAnd => "&"
  | .bitOr => "|"
  | .eq => "=="
  | .ne => "!="
  | .lt => "<"
  | .le => "<="
  | .gt => ">"
  | .ge => ">="
  | .and => "&&"
  | .or => "||"

/-- The token of an assignment with operator. -/
def BinOp.assignText : BinOp → String
  | .add => "+="
  | .sub => "-="
  | .mul => "*="
  | .bitOr => "|="
  | _ => "?="

/-- Lists with commas between them. -/
def commas : List (List Tok) → List Tok
  | [] => []
  | [t] => t
  | t :: ts => t ++ .op "," :: commas ts

/-- The precedence of an expression. -/
def Expr.prec : Expr → Nat
  | .bin op _ _ => op.prec
  | .not _ | .neg _ | .newTrie _ | .zeroTrie | .newFastTLD _ _ _ => 6
  | _ => 7

/-- The name of an attribute. -/
def attrName : Attr → String
  | .fgHiYellow => "FgHiYellow"
  | .bold => "Bold"
  | .fgHiBlack => "FgHiBlack"
  | .fgHiWhite => "FgHiWhite"
  | .fgHiBlue => "FgHiBlue"
  | .fgHiRed => "FgHiRed"

/-- The tokens of a constant of another package. -/
def Known.toks : Known → List Tok
  | .StatusOK => [.id "http", .op ".", .id "StatusOK"]
  | .O_CREATE => [.id "os", .op ".", .id "O_CREATE"]
  | .O_WRONLY => [.id "os", .op ".", .id "O_WRONLY"]
  | .attr a => [.id "color", .op ".", .id (attrName a)]

/-- In parentheses if needed. -/
def parens (b : Bool) (ts : List Tok) : List Tok := if b then .op "(" :: ts ++ [.op ")"] else ts

/-- The tokens of a call; `b` if the receiver needs parentheses. -/
def Fn.callToks (f : Fn) (b : Bool) (args : List (List Tok)) : List Tok :=
  match f.written, args with
  | .fn ts, as => ts ++ .op "(" :: commas as ++ [.op ")"]
  | .method name, a :: as => parens b a ++ .op "." :: .id name :: .op "(" :: commas as ++ [.op ")"]
  | .method _, [] => []

mutual
/-- The tokens of an expression.  Parentheses that are needed because of the precedence of operators are written, so that
an expression that was not understood in the order of the precedences does not give the tokens it came from. -/
def Expr.toks : Expr → List Tok
  | .var _ name => [.id name]
  | .glob g => [.id g.name]
  | .intLit n => [.int n]
  | .charLit n => [.chr n]
  | .strLit s => [.str s]
  | .boolLit true => [.id "true"]
  | .boolLit false => [.id "false"]
  | .nil => [.id "nil"]
  | .paren e => .op "(" :: e.toks ++ [.op ")"]
  | .not e => .op "!" :: parens (e.prec < 6) e.toks
  | .neg e => .op "-" :: parens (e.prec < 6) e.toks
  | .bin op a b => parens (a.prec < op.prec) a.toks ++ .op op.text :: parens (b.prec ≤ op.prec) b.toks
  | .index s i => parens (s.prec < 7) s.toks ++ .op "[" :: i.toks ++ [.op "]"]
  | .slice s lo hi => parens (s.prec < 7) s.toks ++ .op "[" :: lo.toks ++ .op ":" :: hi.toks ++ [.op "]"]
  | .sliceFrom s lo => parens (s.prec < 7) s.toks ++ .op "[" :: lo.toks ++ [.op ":", .op "]"]
  | .field e f => parens (e.prec < 7) e.toks ++ [.op ".", .id f.name]
  | .zeroResult => [.id "ExtractResult", .op "{", .op "}"]
  | .runeSelf => [.id "utf8", .op ".", .id "RuneSelf"]
  | .hardcodedPSL => [.id "hardcodedPSL"]
  | .newTrie e => [.op "&", .id "trie", .op "{", .id "matches", .op ":"] ++ e.toks ++ [.op "}"]
  | .zeroTrie => [.op "&", .id "trie", .op "{", .op "}"]
  | .newFastTLD a b d => [.op "&", .id "FastTLD", .op "{", .id "cacheFilePath", .op ":"] ++ a.toks ++ [.op ",", .id "tldTrie", .op ":"] ++
      b.toks ++ [.op ",", .id "includePrivateSuffix", .op ":"] ++ d.toks ++ [.op "}"]
  | .newOsFs => [.id "new", .op "(", .id "afero", .op ".", .id "OsFs", .op ")"]
  | .known k => k.toks
  | .attributes es => [.op "[", .op "]", .id "color", .op ".", .id "Attribute", .op "{"] ++ commas (Expr.toksAll es) ++ [.op "}"]
  | .spreadArg e => parens (e.prec < 7) e.toks ++ [.op "..."]
  | .inPackage e => .id "fasttld" :: .op "." :: e.toks
  | .newListParams e => [.id "SuffixListParams", .op "{", .id "IncludePrivateSuffix", .op ":"] ++ e.toks ++ [.op "}"]
  | .newParams a b d => [.id "URLParams", .op "{", .id "URL", .op ":"] ++ a.toks ++ [.op ",", .id "IgnoreSubDomains", .op ":"] ++
      b.toks ++ [.op ",", .id "ConvertURLToPunyCode", .op ":"] ++ d.toks ++ [.op "}"]
  | .call f args => f.callToks (args.head?.any fun e => e.prec < 7) (Expr.toksAll args)

/-- The tokens of several expressions. -/
def Expr.toksAll : List Expr → List (List Tok)
  | [] => []
  | e :: es => e.toks :: Expr.toksAll es
end

/-- The tokens of a left-hand side. -/
def Lhs.toks : Lhs → List Tok
  | .blank => [.id "_"]
  | .var _ name => [.id name]
  | .field _ name f => [.id name, .op ".", .id f.name]
  | .index _ name i => .id name :: .op "[" :: i.toks ++ [.op "]"]

/-- Names with commas between them. -/
def namesToks (ns : List String) : List Tok := commas (ns.map fun n => [.id n])

/-- Whether there is nothing. -/
def Stmt.isSkip : Stmt → Bool
  | .skip => true
  | _ => false

/-- Whether this is `if`, which after `else` stands without braces. -/
def Stmt.isIf : Stmt → Bool
  | .ite _ _ _ _ => true
  | _ => false

/-- The tokens of a statement; those of a list of statements have a semicolon after each. -/
def Stmt.toks : Stmt → List Tok
  | .skip => []
  | .seq a b => a.toks ++ .op ";" :: b.toks
  | .block s => .op "{" :: s.toks ++ [.op "}"]
  | .assign ls es => commas (ls.map Lhs.toks) ++ .op "=" :: commas (Expr.toksAll es)
  | .assignOp op l e => l.toks ++ .op op.assignText :: e.toks
  | .assignIndexOp op _ name i e => .id name :: .op "[" :: i.toks ++ .op "]" :: .op op.assignText :: e.toks
  | .setMethod _ name e => .id name :: .op "." :: .id "Set" :: .op "(" :: e.toks ++ [.op ")"]
  | .incr _ name => [.id name, .op "++"]
  | .define ns es => namesToks ns ++ .op ":=" :: commas (Expr.toksAll es)
  | .redefine ns _ es => namesToks ns ++ .op ":=" :: commas (Expr.toksAll es)
  | .declare ns t => .id "var" :: namesToks ns ++ t.toks
  | .declareGroup l => .id "var" :: .op "(" :: l.flatMap (fun p => .id p.1 :: p.2.toks ++ [.op ";"]) ++ [.op ")"]
  | .ite init c a b =>
    .id "if" :: (if init.isSkip then [] else init.toks ++ [.op ";"]) ++ c.toks ++ .op "{" :: a.toks ++ .op "}" ::
      (if b.isSkip then [] else if b.isIf then .id "else" :: b.toks else .id "else" :: .op "{" :: b.toks ++ [.op "}"])
  | .loop init c post body =>
    .id "for" :: (if init.isSkip && post.isSkip then c.toks else init.toks ++ .op ";" :: c.toks ++ .op ";" :: post.toks) ++
      .op "{" :: body.toks ++ [.op "}"]
  | .range i v e body =>
    .id "for" :: namesToks [i, v] ++ .op ":=" :: .id "range" :: e.toks ++ .op "{" :: body.toks ++ [.op "}"]
  | .brk => [.id "break"]
  | .cont => [.id "continue"]
  | .ret es => .id "return" :: commas (Expr.toksAll es)
  | .retNamed _ _ => [.id "return"]
  | .expr e => e.toks
  | .scan e k v s => parens (e.prec < 7) e.toks ++ [.op ".", .id "Scan", .op "(", .id "func", .op "(", .id k, .id "string", .op ",", .id v] ++
      TypeName.triePtr.toks ++ [.op ")", .id "bool", .op "{"] ++ s.toks ++ [.op "}", .op ")"]
  | .defer f args => .id "defer" :: f.callToks (args.head?.any fun e => e.prec < 7) (Expr.toksAll args)
  | .declareInit n e => .id "var" :: .id n :: .op "=" :: e.toks
  | .switch e cs => .id "switch" :: e.toks ++ .op "{" :: cs.toks ++ [.op "}"]
  | .case e b r => .id "case" :: e.toks ++ .op ":" :: b.toks ++ r.toks
  | .dflt b => .id "default" :: .op ":" :: b.toks

/-- The tokens of a parameter. -/
def paramToks (p : String × TypeName) : List Tok := .id p.1 :: p.2.toks

/-- The tokens of the results. -/
def resultToks : List (Option String × TypeName) → List Tok
  | [] => []
  | [(none, t)] => t.toks
  | l => .op "(" :: commas (l.map fun p => (p.1.toList.map Tok.id) ++ p.2.toks) ++ [.op ")"]

/-- The name of a function of this package. -/
def Fn.nameTok (f : Fn) : List Tok :=
  match f.written with
  | .fn ts => ts
  | .method n => [.id n]

/-- The tokens of a function, without the semicolon after it. -/
def Func.litToks (f : Func) : List Tok :=
  .id "func" :: (f.recv.toList.flatMap fun p => .op "(" :: paramToks p ++ [.op ")"]) ++ f.fn.nameTok ++
    .op "(" :: commas (f.params.map paramToks) ++ .op ")" :: resultToks f.results ++ .op "{" :: f.body.toks ++ [.op "}"]

/-- The tokens of a function. -/
def Func.toks (f : Func) : List Tok := f.litToks ++ [.op ";"]

/-- The tokens of a declaration. -/
def Decl.toks : Decl → List Tok
  | .const g t e => .id "const" :: .id g.name :: t.toks ++ .op "=" :: e.toks ++ [.op ";"]
  | .var g t e => .id "var" :: .id g.name :: t.toks ++ .op "=" :: e.toks ++ [.op ";"]
  | .group l => .id "const" :: .op "(" ::
      l.flatMap (fun p => .id p.1.name :: (p.2.1.toList.flatMap TypeName.toks) ++ .op "=" :: p.2.2.toks ++ [.op ";"]) ++ [.op ")", .op ";"]
  | .iota t gs => .id "const" :: .op "(" ::
      (match gs with
      | [] => []
      | g :: gs => .id g.name :: t.toks ++ .op "=" :: .id "iota" :: .op ";" :: gs.flatMap fun h => [.id h.name, .op ";"]) ++
      [.op ")", .op ";"]
  | .strings g l => [.id "var", .id g.name, .op "=", .op "[", .op "]", .id "string", .op "{"] ++
      l.flatMap (fun s => [.str s, .op ","]) ++ [.op "}", .op ";"]

/-! ## Places of variables -/

/-- The place of the innermost declaration of a name. -/
def placeOf (name : String) (scope : List String) : Option Nat :=
  (scope.reverse.findIdx? (· == name)).map fun k => scope.length - 1 - k

mutual
/-- Whether the places in an expression are those of the innermost declarations. -/
def Expr.scoped (scope : List String) : Expr → Bool
  | .var n name => placeOf name scope == some n
  | .glob g => placeOf g.name scope == none
  | .hardcodedPSL => placeOf "hardcodedPSL" scope == none
  | .paren e | .not e | .neg e | .field e _ | .newTrie e | .spreadArg e | .inPackage e | .newListParams e => e.scoped scope
  | .bin _ a b | .index a b | .sliceFrom a b => a.scoped scope && b.scoped scope
  | .slice a b d | .newFastTLD a b d | .newParams a b d => a.scoped scope && b.scoped scope && d.scoped scope
  | .call _ args | .attributes args => Expr.scopedAll scope args
  | _ => true

/-- Several expressions. -/
def Expr.scopedAll (scope : List String) : List Expr → Bool
  | [] => true
  | e :: es => e.scoped scope && Expr.scopedAll scope es
end

/-- Left-hand sides. -/
def Lhs.scoped (scope : List String) : Lhs → Bool
  | .blank => true
  | .var n name | .field n name _ => placeOf name scope == some n
  | .index n name i => placeOf name scope == some n && i.scoped scope

/-- The names that get a place. -/
def named (ns : List String) : List String := ns.filter (· != "_")

/-- The places that a short declaration reuses: of the names declared already in the block that begins at place `st`. -/
def reused (st : Nat) (sc ns : List String) : List (Option Nat) :=
  ns.map fun n => if n != "_" && (sc.drop st).contains n then placeOf n sc else none

/-- Whether all these names can be declared in the block that begins at place `st`. -/
def allNew (st : Nat) (sc ns : List String) : Bool := ns.all fun n => !(sc.drop st).contains n

/-- The scope after a statement, if its places are right; `st` is the place at which the block begins that it stands in. -/
def Stmt.scope : Stmt → (st : Nat) → List String → Option (List String)
  | .skip, _, sc | .brk, _, sc | .cont, _, sc => some sc
  | .seq a b, st, sc => (a.scope st sc).bind fun sc => b.scope st sc
  | .block s, _, sc => (s.scope sc.length sc).map fun _ => sc
  | .assign ls es, _, sc => if ls.all (Lhs.scoped sc) && Expr.scopedAll sc es then some sc else none
  | .assignOp _ l e, _, sc => if l.scoped sc && e.scoped sc then some sc else none
  | .assignIndexOp _ n name i e, _, sc => if placeOf name sc == some n && i.scoped sc && e.scoped sc then some sc else none
  | .setMethod n name e, _, sc => if placeOf name sc == some n && e.scoped sc then some sc else none
  | .retNamed ns names, _, sc => if names.map (placeOf · sc) == ns.map some then some sc else none
  | .incr n name, _, sc => if placeOf name sc == some n then some sc else none
  | .define ns es, st, sc => if Expr.scopedAll sc es && allNew st sc (named ns) then some (sc ++ named ns) else none
  | .redefine ns olds es, st, sc =>
      if Expr.scopedAll sc es && olds == reused st sc ns && !allNew st sc ns then
        some (sc ++ (named ns).filter fun n => !(sc.drop st).contains n) else none
  | .declare ns _, st, sc => if allNew st sc ns then some (sc ++ ns) else none
  | .declareGroup l, st, sc => if allNew st sc (l.map Prod.fst) then some (sc ++ l.map Prod.fst) else none
  | .ite init e a b, _, sc => (init.scope sc.length sc).bind fun sc' =>
      if e.scoped sc' then (a.scope sc'.length sc').bind fun _ => (b.scope sc'.length sc').map fun _ => sc else none
  | .loop init e post body, _, sc => (init.scope sc.length sc).bind fun sc' =>
      if e.scoped sc' then (body.scope sc'.length sc').bind fun _ => (post.scope sc'.length sc').map fun _ => sc else none
  | .range i v e body, _, sc => if e.scoped sc then
      (body.scope (sc ++ named [i, v]).length (sc ++ named [i, v])).map fun _ => sc else none
  | .ret es, _, sc => if Expr.scopedAll sc es then some sc else none
  | .expr e, _, sc => if e.scoped sc then some sc else none
  | .scan e k v s, _, sc => if e.scoped sc then (s.scope sc.length (sc ++ GoLang.named [k, v])).map fun _ => sc else none
  | .defer _ args, _, sc => if Expr.scopedAll sc args then some sc else none
  | .declareInit n e, st, sc => if e.scoped sc && allNew st sc [n] && n != "_" then some (sc ++ [n]) else none
  | .switch e cs, _, sc => if e.scoped sc then (cs.scope (sc ++ [""]).length (sc ++ [""])).map fun _ => sc else none
  | .case e b r, _, sc => if e.scoped sc then (b.scope sc.length sc).bind fun _ => (r.scope sc.length sc).map fun _ => sc else none
  | .dflt b, _, sc => (b.scope sc.length sc).map fun _ => sc

/-- The names that `return` without expressions returns. -/
def Stmt.named : Stmt → List (List String)
  | .seq a b => a.named ++ b.named
  | .block s => s.named
  | .ite _ _ a b => a.named ++ b.named
  | .loop _ _ _ s => s.named
  | .range _ _ _ s | .scan _ _ _ s | .switch _ s | .dflt s => s.named
  | .case _ a b => a.named ++ b.named
  | .retNamed _ names => [names]
  | _ => []

/-- Whether all places in a function are those of the innermost declarations, and `return` without expressions returns the
results with names. -/
def Func.scoped (f : Func) : Bool :=
  f.body.named.all (fun ns => ns == f.results.filterMap Prod.fst && f.results.all fun p => p.1.isSome) &&
  (f.body.scope 0 (f.recv.toList.map Prod.fst ++ f.params.map Prod.fst ++ f.results.filterMap Prod.fst)).isSome

end Fasttld.GoLang
