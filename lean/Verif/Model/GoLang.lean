import Verif.Model.Errors
import Verif.Model.Log
import Verif.Model.Memory

/-!
# A part of the language Go

Syntax and meaning of the part of Go in which the functions behind `Extract` are written.  Model/Source.lean has their
text in this syntax, made from the files in /repo by tools/gen_source.py; Props/Source.lean proves that it means what the
other modules of Model/ say.  From The Go Programming Language Specification:

* variables are declared at a place and live to the end of the block (Blocks, Declarations and scope); a state is the list
  of the values of the variables that live, and a variable is named by its place in this list;
* `int` has `w` bits and arithmetic wraps around (Integer overflow), `byte` has 8 bits and `rune` 32; constants without
  type take the type of the other operand (Constants);
* index and slice expressions out of range panic (Index expressions, Slice expressions): the traps `indexRange` and `sliceBounds`;
* `&&` and `||` evaluate their right operand only if needed (Logical operators);
* `range` evaluates its expression once; over a string it goes through the code points (For statements with range clause);
* arrays are values; a set of runes under construction is one, too, because only one variable points to it;
* `break` and `continue` are for the innermost loop; `goto`, labels, closures do not occur; `switch` and the library for
  colours have a meaning in Model/GoSys.lean only.

What is not typed correctly has no meaning (`stuck`); so has, in this model, the use of anything not needed here.
Loops and calls have fuel; running out of it is the trap `outOfFuel`.

Here nothing points to anything that is changed: slices, sets and tries are values.  Model/GoMem.lean has the meaning for
functions that change what a pointer or a slice points to, Model/GoSys.lean for those that call the operating system and
`defer`; the syntax for it is here, and has no meaning here.
-/

namespace Fasttld.GoLang
open Fasttld

/-- Types of numbers; `const` is the type of constants without type. -/
inductive NumTy
  | const
  | int
  | byte
  | rune
  | uint32
  deriving DecidableEq, Repr

/-- The number that arithmetic of a type gives for the integer `z`; `w` is the size of `int` in bits. -/
def NumTy.wrap (w : Nat) : NumTy → Int → Int
  | .const, z => z
  | .int, z => z.bmod (2 ^ w)
  | .byte, z => z % 256
  | .rune, z => z.bmod (2 ^ 32)
  | .uint32, z => z % 2 ^ 32

/-- The type of an operation on two numbers. -/
def NumTy.join : NumTy → NumTy → Option NumTy
  | .const, t => some t
  | t, .const => some t
  | .int, .int => some .int
  | .byte, .byte => some .byte
  | .rune, .rune => some .rune
  | .uint32, .uint32 => some .uint32
  | _, _ => none

/-- Values. -/
inductive Val
  | num (t : NumTy) (z : Int)
  | bool (b : Bool)
  | str (s : Bytes)
  /-- `[]byte` -/
  | bytes (s : Bytes)
  /-- `[]rune` -/
  | runes (s : List Nat)
  /-- `[]string` -/
  | strs (l : List Bytes)
  /-- `error`; `none` is `nil` -/
  | err (e : Option Bytes)
  /-- `asciiSet` -/
  | ascii (as : AsciiSet)
  /-- `*intset.Rune` -/
  | runeSet (rs : RuneSet)
  /-- `*trie` -/
  | node (t : Trie)
  /-- `hashmap.Map[string, *trie]`, of this node -/
  | map (t : Trie)
  /-- `*FastTLD` -/
  | fastTLD (t : Trie)
  /-- `HostType` -/
  | hostType (h : HostType)
  /-- `suffixes` -/
  | suffixes (p : Suffixes)
  | result (r : ExtractResult)
  | params (e : URLParams)
  /-- several values, of a call -/
  | tuple (vs : List Val)
  -- values that point to memory, for Model/GoMem.lean
  /-- `*trie`, other than nil -/
  | ptr (r : Ref)
  /-- `hashmap.Map[string, *trie]`, that of the node `r` -/
  | mapAt (r : Ref)
  /-- `hashmap.Map[string, *trie]`, the zero value -/
  | emptyMap
  /-- `[]string`, all elements of the array number `a` -/
  | array (a : Nat)
  /-- `*FastTLD` -/
  | ext
  -- values for Model/GoSys.lean
  /-- `*FastTLD`, the structure number `i` -/
  | obj (i : Nat)
  /-- `SuffixListParams` -/
  | listParams (n : SuffixListParams)
  /-- `*http.Response`: the status code, what can be read, whether this ends without error, and the text of this error -/
  | response (code : Nat) (body : Bytes) (complete : Bool) (text : Bytes)
  /-- `io.ReadCloser`, the body of a response -/
  | body (b : Bytes) (complete : Bool) (text : Bytes)
  /-- `*os.File` -/
  | file (handle : Nat)
  /-- `afero.File`, the temporary folder -/
  | folder
  /-- `*afero.OsFs` -/
  | osFs
  /-- `os.FileInfo` -/
  | fileInfo (i : FileInfo)
  /-- `time.Time`, in nanoseconds -/
  | time (t : Int)
  /-- `time.Duration` -/
  | duration (d : Int)
  /-- `float64` -/
  | float (x : Rat)
  /-- `color.Attribute` -/
  | attr (a : Attr)
  /-- `[]color.Attribute` -/
  | attrs (l : List Attr)
  /-- `*color.Color` -/
  | color (l : List Attr)
  /-- `*cobra.Command`, which is not used -/
  | command

/-- What stops a program. -/
inductive Trap
  | fault (f : Fault)
  | stuck
  deriving DecidableEq

/-- A computation that may be stopped. -/
abbrev Comp := Except Trap

/-- From the functions of the model. -/
def ofGo {α : Type} : Go α → Comp α
  | .ok a => .ok a
  | .error f => .error (.fault f)

/-! ## Syntax -/

/-- Constants and variables of the package. -/
inductive Glob
  | labelSeparatorsRuneSet | whitespaceRuneSet | invalidHostNameCharsRuneSet
  | numericSet | alphaNumericSet | endOfHostWithPortDelimitersSet | endOfHostDelimitersSet | invalidUserInfoCharsSet
  | schemeFirstCharSet | schemeRemainingCharSet | slashes
  | alphabets | numbers | labelSeparators | controlChars | whitespace | invalidHostNameChars | endOfHostWithPortDelimiters
  | endOfHostDelimiters | invalidUserInfoChars
  | trimBoth | trimLeft | trimRight
  | iPv4len | iPv6len | lenDiff | big | largestPortNumber
  | None | HostName | IPv4 | IPv6
  | defaultPSLFileName | pslMaxAgeHours | publicSuffixListSources
  -- of cmd/fasttld
  | includePrivateSuffix | ignoreSubDomains | toPunyCode
  deriving DecidableEq, Repr

/-- Functions: of the language, of other packages, of this one. -/
inductive Fn
  | len | byte | int | toBytes | toRunes | toStr | append
  | DecodeRuneInString | DecodeLastRuneInString | LastIndexByte | SplitAfterN | Atoi | QueryUnescape | ToUnicode | errorsNew | Println
  | NewRune | TrimSpace | HasPrefix | Split | ToASCII | Contains | ReadFile
  -- methods
  | Exists | Get | Len | Error | idnaToPunyToASCII
  -- this package
  | makeASCIISet | contains | makeRuneSet
  | getSchemeEndIndex | indexAnyASCII | hasInvalidChars | lastIndexAny | sepSize | formatAsPunycode | indexLastByteBefore
  | fastTrim | dtoi | xtoi | isIPv4 | isIPv6 | Extract
  | processLine | getPublicSuffixList | getHardcodedPublicSuffixList | validPSLDelimiters
  -- with memory
  | Set | reverse | nestedDict | trieConstruct
  -- with the operating system
  | httpGet | ReadAll | Sprint | Abs | Stat | OpenFile | GetTempDir | Now
  | Sub | ModTime | Hours | IsDir | Seek | Write | Close | Open
  | newHardcodedPSL | downloadFile | fileLastModifiedHours | update | checkCacheFile | Update | New
  -- printing
  | colorNew | Print | colorPrintln | Fatal | PrintRes
  /-- the function without name of cmd/fasttld/extract.go -/
  | Run
  deriving DecidableEq, Repr

/-- Fields of structures. -/
inductive Field
  | URL | IgnoreSubDomains | ConvertURLToPunyCode | tldTrie | matches | end
  | Scheme | UserInfo | SubDomain | Domain | Suffix | RegisteredDomain | Port | Path | HostType
  | publicSuffixes | privateSuffixes | allSuffixes
  | StatusCode | Body | cacheFilePath | includePrivateSuffix | CacheFilePath | IncludePrivateSuffix
  deriving DecidableEq, Repr

/-- Types. -/
inductive TypeName
  | bool | int | byte | rune | string | error | byteSlice | suffixes | asciiSet | asciiSetPtr | intsetRune | trimMode | HostType | FastTLD | URLParams | ExtractResult
  | stringSlice | triePtr | trieMap
  | float64 | osFileInfo | aferoFile | SuffixListParams | cobraCommand
  deriving DecidableEq, Repr

/-- Binary operators. -/
inductive BinOp
  | add | sub | mul | div | mod | shl | bitAnd | bitOr | eq | ne | lt | le | gt | ge | and | or
  deriving DecidableEq, Repr

/-- Constants of other packages. -/
inductive Known
  /-- `http.StatusOK` -/
  | StatusOK
  /-- `os.O_CREATE` -/
  | O_CREATE
  /-- `os.O_WRONLY` -/
  | O_WRONLY
  /-- `color.FgHiYellow` and the like -/
  | attr (a : Attr)
  deriving DecidableEq, Repr

/-- Expressions.  A variable has its place in the list of variables that live, and its name. -/
inductive Expr
  | var (place : Nat) (name : String)
  | glob (g : Glob)
  | intLit (n : Nat)
  | charLit (n : Nat)
  | strLit (s : Bytes)
  | boolLit (b : Bool)
  | nil
  | paren (e : Expr)
  | not (e : Expr)
  | neg (e : Expr)
  | bin (op : BinOp) (a b : Expr)
  | index (s i : Expr)
  /-- `s[lo:hi]` -/
  | slice (s lo hi : Expr)
  /-- `s[lo:]` -/
  | sliceFrom (s lo : Expr)
  | field (e : Expr) (f : Field)
  /-- `ExtractResult{}` -/
  | zeroResult
  /-- `utf8.RuneSelf` -/
  | runeSelf
  /-- the constant of fallback.go -/
  | hardcodedPSL
  /-- `&trie{matches: e}` -/
  | newTrie (e : Expr)
  /-- `&trie{}` -/
  | zeroTrie
  /-- `&FastTLD{cacheFilePath: path, tldTrie: trie, includePrivateSuffix: incl}` -/
  | newFastTLD (path trie incl : Expr)
  /-- `new(afero.OsFs)` -/
  | newOsFs
  | known (k : Known)
  /-- `[]color.Attribute{…}` -/
  | attributes (es : List Expr)
  /-- `e...`, an argument -/
  | spreadArg (e : Expr)
  /-- `fasttld.` before something of this package -/
  | inPackage (e : Expr)
  /-- `SuffixListParams{IncludePrivateSuffix: incl}` -/
  | newListParams (incl : Expr)
  /-- `URLParams{URL: url, IgnoreSubDomains: ignore, ConvertURLToPunyCode: puny}` -/
  | newParams (url ignore puny : Expr)
  | call (f : Fn) (args : List Expr)

/-- What stands on the left of an assignment. -/
inductive Lhs
  | blank
  | var (place : Nat) (name : String)
  | field (place : Nat) (name : String) (f : Field)
  /-- `x[i]` -/
  | index (place : Nat) (name : String) (i : Expr)

/-- Statements. -/
inductive Stmt
  | skip
  | seq (a b : Stmt)
  | block (s : Stmt)
  /-- `x, y = …` -/
  | assign (ls : List Lhs) (es : List Expr)
  /-- `x += e` and the like -/
  | assignOp (op : BinOp) (l : Lhs) (e : Expr)
  /-- `x[i] += e` and the like -/
  | assignIndexOp (op : BinOp) (place : Nat) (name : String) (i e : Expr)
  /-- `x.Set(e)`, where nothing else has the pointer `x` -/
  | setMethod (place : Nat) (name : String) (e : Expr)
  /-- `x++` -/
  | incr (place : Nat) (name : String)
  /-- `x, y := …`; all are new, except `_` -/
  | define (names : List String) (es : List Expr)
  /-- `x, y := …`, where some are declared already in the same block, at these places -/
  | redefine (names : List String) (olds : List (Option Nat)) (es : List Expr)
  /-- `var x, y T` -/
  | declare (names : List String) (t : TypeName)
  /-- `var ( x T … )`, one variable in each line -/
  | declareGroup (l : List (String × TypeName))
  /-- `if c { a } else { b }` and `if init; c { a } else { b }` -/
  | ite (init : Stmt) (c : Expr) (a b : Stmt)
  /-- `for init; c; post { body }` -/
  | loop (init : Stmt) (c : Expr) (post body : Stmt)
  /-- `for i, v := range e { body }` -/
  | range (i v : String) (e : Expr) (body : Stmt)
  | brk
  | cont
  | ret (es : List Expr)
  /-- `return` in a function whose results have names: these are the results -/
  | retNamed (places : List Nat) (names : List String)
  /-- an expression for its effect: `log.Println(…)`, which is not modelled -/
  | expr (e : Expr)
  /-- `e.Scan(func(key string, value *trie) bool { body })` -/
  | scan (e : Expr) (key value : String) (body : Stmt)
  /-- `defer f(…)` -/
  | defer (f : Fn) (args : List Expr)
  /-- `var x = e` -/
  | declareInit (name : String) (e : Expr)
  /-- `switch e { cases }`; the value of `e` is at the last place, without a name -/
  | switch (e : Expr) (cases : Stmt)
  /-- `case e: body` and the cases after it -/
  | case (e : Expr) (body rest : Stmt)
  /-- `default: body`, the last one -/
  | dflt (body : Stmt)

/-! ## Meaning -/

/-- The texts of errors of the IDNA library, the constant `hardcodedPSL` of fallback.go, and what reading a file gives: its
contents or the text of an error. -/
structure Lib extends IdnaTexts where
  hardcodedPSL : Bytes
  readFile : Bytes → Except Bytes Bytes

/-- What the meaning depends on besides the text: the number of bits of `int`, the IDNA library and other things outside, which characters are printable, the values of the package. -/
structure Ctx where
  w : Nat
  idna : Idna
  texts : Lib
  isPrint : Nat → Bool
  glob : Glob → Val

/-- The values of the variables that live, in the order of their declarations. -/
abbrev Vars := List Val

/-- `e.f` -/
def getField : Val → Field → Comp Val
  | .params e, .URL => .ok (.str e.url)
  | .params e, .IgnoreSubDomains => .ok (.bool e.ignoreSubDomains)
  | .params e, .ConvertURLToPunyCode => .ok (.bool e.convertURLToPunyCode)
  | .fastTLD t, .tldTrie => .ok (.node t)
  | .node t, .matches => .ok (.map t)
  | .node t, .end => .ok (.bool t.isEnd)
  | .result r, .Domain => .ok (.str r.domain)
  | .result r, .HostType => .ok (.hostType r.hostType)
  | .suffixes p, .publicSuffixes => .ok (.strs p.publicSuffixes)
  | .suffixes p, .privateSuffixes => .ok (.strs p.privateSuffixes)
  | .suffixes p, .allSuffixes => .ok (.strs p.allSuffixes)
  | _, _ => .error .stuck

/-- `e.f = v` -/
def setField : Val → Field → Val → Comp Val
  | .result r, .Scheme, .str s => .ok (.result { r with scheme := s })
  | .result r, .UserInfo, .str s => .ok (.result { r with userInfo := s })
  | .result r, .SubDomain, .str s => .ok (.result { r with subDomain := s })
  | .result r, .Domain, .str s => .ok (.result { r with domain := s })
  | .result r, .Suffix, .str s => .ok (.result { r with suffix := s })
  | .result r, .RegisteredDomain, .str s => .ok (.result { r with registeredDomain := s })
  | .result r, .Port, .str s => .ok (.result { r with port := s })
  | .result r, .Path, .str s => .ok (.result { r with path := s })
  | .result r, .HostType, .hostType h => .ok (.result { r with hostType := h })
  | .suffixes p, .publicSuffixes, .strs l => .ok (.suffixes { p with publicSuffixes := l })
  | .suffixes p, .privateSuffixes, .strs l => .ok (.suffixes { p with privateSuffixes := l })
  | .suffixes p, .allSuffixes, .strs l => .ok (.suffixes { p with allSuffixes := l })
  | _, _, _ => .error .stuck

/-- Numbers: an operation and the type of its result. -/
def arith (w : Nat) (t u : NumTy) (z : Int) : Comp Val :=
  match t.join u with
  | some s => .ok (.num s (s.wrap w z))
  | none => .error .stuck

/-- Numbers: a comparison. -/
def compare (t u : NumTy) (b : Bool) : Comp Val :=
  match t.join u with
  | some _ => .ok (.bool b)
  | none => .error .stuck

/-- `x << k`: the type is that of `x`; for a constant without type it is found later (Operators). -/
def shiftLeft (w : Nat) (t : NumTy) (x k : Int) : Comp Val :=
  if 0 ≤ k then .ok (.num t (t.wrap w (x * 2 ^ k.toNat))) else .error .stuck

/-- Binary operators, except `&&` and `||`, which see. -/
def binOp (w : Nat) : BinOp → Val → Val → Comp Val
  | .add, .num t x, .num u y => arith w t u (x + y)
  | .add, .str x, .str y => .ok (.str (x ++ y))
  | .sub, .num t x, .num u y => arith w t u (x - y)
  | .mul, .num t x, .num u y => arith w t u (x * y)
  | .div, .num t x, .num u y => if y = 0 then .error .stuck else arith w t u (x.tdiv y)
  | .mod, .num t x, .num u y => if y = 0 then .error .stuck else arith w t u (x.tmod y)
  | .shl, .num t x, .num _ k => shiftLeft w t x k
  | .bitAnd, .num t x, .num u y => arith w t u (x.toNat &&& y.toNat : Nat)   -- of numbers that are not negative
  | .bitOr, .num t x, .num u y => arith w t u (x.toNat ||| y.toNat : Nat)
  | .eq, .num t x, .num u y => compare t u (decide (x = y))
  | .ne, .num t x, .num u y => compare t u (decide (x ≠ y))
  | .lt, .num t x, .num u y => compare t u (decide (x < y))
  | .le, .num t x, .num u y => compare t u (decide (x ≤ y))
  | .gt, .num t x, .num u y => compare t u (decide (x > y))
  | .ge, .num t x, .num u y => compare t u (decide (x ≥ y))
  | .eq, .str x, .str y => .ok (.bool (decide (x = y)))
  | .ne, .str x, .str y => .ok (.bool (decide (x ≠ y)))
  | .eq, .hostType x, .hostType y => .ok (.bool (decide (x = y)))
  | .eq, .err x, .err none => .ok (.bool (decide (x = none)))
  | .ne, .err x, .err none => .ok (.bool (decide (x ≠ none)))
  | _, _, _ => .error .stuck

/-- `s[i]` -/
def indexVal : Val → Val → Comp Val
  | .str s, .num _ i => (ofGo (Fasttld.index s i)).map fun b => .num .byte b.toNat
  | .runes s, .num _ i =>
    if 0 ≤ i then
      match s[i.toNat]? with
      | some c => .ok (.num .rune c)
      | none => .error (.fault .indexRange)
    else .error (.fault .indexRange)
  | .strs s, .num _ i =>
    if 0 ≤ i then
      match s[i.toNat]? with
      | some c => .ok (.str c)
      | none => .error (.fault .indexRange)
    else .error (.fault .indexRange)
  | .ascii as, .num _ i =>
    if 0 ≤ i then
      match as[i.toNat]? with
      | some c => .ok (.num .uint32 c.toNat)
      | none => .error (.fault .indexRange)
    else .error (.fault .indexRange)
  | _, _ => .error .stuck

/-- `x[i] = v` for an array, which is a value. -/
def setIndex : Val → Val → Val → Comp Val
  | .ascii as, .num _ i, .num .uint32 v =>
    if h : 0 ≤ i ∧ i.toNat < 8 then .ok (.ascii (as.set i.toNat (BitVec.ofNat 32 v.toNat) h.2)) else .error (.fault .indexRange)
  | _, _, _ => .error .stuck

/-- `x.Set(r)` -/
def addRune : Val → Val → Comp Val
  | .runeSet rs, .num .rune z => .ok (.runeSet (rs ++ [z.toNat]))
  | _, _ => .error .stuck

/-- `s[lo:hi]` -/
def sliceVal : Val → Val → Val → Comp Val
  | .str s, .num _ lo, .num _ hi => (ofGo (Fasttld.slice s lo hi)).map .str
  | _, _, _ => .error .stuck

/-- `len(s)` -/
def lenVal : Val → Comp Val
  | .str s => .ok (.num .int s.length)
  | .bytes s => .ok (.num .int s.length)
  | _ => .error .stuck

/-- `strconv.Atoi` for an `int` of `w` bits: the number, or none on a syntax or range error. -/
def atoiNum (w : Nat) (s : Bytes) : Option Int :=
  match s with
  | 45 :: t => (atoiDigits t).bind fun n => if n ≤ 2 ^ (w - 1) then some (-(n : Int)) else none
  | 43 :: t => (atoiDigits t).bind fun n => if n < 2 ^ (w - 1) then some (n : Int) else none
  | t => (atoiDigits t).bind fun n => if n < 2 ^ (w - 1) then some (n : Int) else none

/-- The two results of `strconv.Atoi`; the text of the error is not used. -/
def atoiW (w : Nat) (s : Bytes) : Val :=
  match atoiNum w s with
  | some z => .tuple [.num .int z, .err none]
  | none => .tuple [.num .int 0, .err (some [])]

/-- `strings.SplitAfterN(s, sep, n)` for a nonempty `sep` and `n ≥ 0`: at most `n` parts, each but the last up to the end of the first
`sep` in what is left. -/
def splitAfterN (sep : Bytes) : Nat → Bytes → List Bytes
  | 0, _ => []
  | 1, s => [s]
  | n + 2, s => splitAfterFirst sep s :: if bytesContains sep s then splitAfterN sep (n + 1) (s.drop (splitAfterFirst sep s).length) else []

/-- Functions of the language and of other packages.  Of idna, whether there is an error and its text, the result without
error.  `append` gives a new slice: in Go it may share its array with the old one, of which nothing is seen unless both are
appended to. -/
def builtin (c : Ctx) : Fn → List Val → Comp Val
  | .len, [v] => lenVal v
  | .byte, [.num _ z] => .ok (.num .byte (z % 256))
  | .int, [.num _ z] => .ok (.num .int (NumTy.int.wrap c.w z))
  | .toBytes, [.str s] => .ok (.bytes s)
  | .toRunes, [.str s] => .ok (.runes ((rangeString s).map Prod.snd))
  | .DecodeRuneInString, [.str s] => .ok (.tuple [.num .rune (decodeRune s).1, .num .int (decodeRune s).2])
  | .DecodeLastRuneInString, [.str s] => .ok (.tuple [.num .rune (decodeLastRune s).1, .num .int (decodeLastRune s).2])
  | .LastIndexByte, [.str s, .num .byte z] => .ok (.num .int (lastIndexByte s (UInt8.ofNat z.toNat)))
  | .SplitAfterN, [.str s, .str sep, .num _ z] => if sep ≠ [] ∧ 0 ≤ z then .ok (.strs (splitAfterN sep z.toNat s)) else .error .stuck
  | .Atoi, [.str s] => .ok (atoiW c.w s)
  | .QueryUnescape, [.str s] =>
    match queryUnescape s with
    | .ok t => .ok (.tuple [.str t, .err none])
    | .error esc => .ok (.tuple [.str [], .err (some ((Err.badEscape esc).text c.isPrint))])
  | .ToUnicode, [.str s] => .ok (.tuple [.str s, .err (c.idna.toUnicodeErr s)])   -- the text is not used
  | .idnaToPunyToASCII, [.str s] =>
    match c.idna.lookupASCII s with
    | some t => .ok (.tuple [.str t, .err none])
    | none => .ok (.tuple [.str [], .err (some (c.texts.lookupASCII s))])
  | .errorsNew, [.str s] => .ok (.err (some s))
  | .Println, _ => .ok (.tuple [])
  | .toStr, [.bytes s] => .ok (.str s)
  | .append, [.strs l, .str s] => .ok (.strs (l ++ [s]))
  | .NewRune, [.num .rune _] => .ok (.runeSet [])   -- the number is a hint for the size
  | .TrimSpace, [.str s] => .ok (.str (trimSpace s))
  | .HasPrefix, [.str s, .str p] => .ok (.bool (p.isPrefixOf s))
  | .Split, [.str s, .str [b]] => .ok (.strs (splitByte b s))   -- for a separator of one byte
  | .ToASCII, [.str s] =>
    match c.idna.toASCII s with
    | some t => .ok (.tuple [.str t, .err none])
    | none => .ok (.tuple [.str [], .err (some (c.texts.toASCII s))])
  | .Contains, [.bytes s, .bytes p] => .ok (.bool (bytesContains p s))
  | .ReadFile, [.str s] =>
    match c.texts.readFile s with
    | .ok t => .ok (.tuple [.bytes t, .err none])
    | .error e => .ok (.tuple [.bytes [], .err (some e)])
  | .Exists, [.runeSet rs, .num .rune z] => .ok (.bool (rs.exists z.toNat))
  | .Get, [.map t, .str k] =>
    match t.get k with
    | some n => .ok (.tuple [.node n, .bool true])
    | none => .ok (.tuple [.err none, .bool false])   -- `nil`
  | .Len, [.map t] => .ok (.num .int t.kids.length)
  | .Error, [.err (some s)] => .ok (.str s)
  | _, _ => .error .stuck

/-- `if x { a } else { b }` -/
def Val.cond {α : Type} (x : Val) (a b : Comp α) : Comp α :=
  match x with
  | .bool true => a
  | .bool false => b
  | _ => .error .stuck

/-- `!x` -/
def Val.not : Val → Comp Val
  | .bool b => .ok (.bool !b)
  | _ => .error .stuck

/-- `-x` -/
def Val.neg (w : Nat) : Val → Comp Val
  | .num t z => .ok (.num t (t.wrap w (-z)))
  | _ => .error .stuck

/-- The variable at a place. -/
def getVar (vs : Vars) (n : Nat) : Comp Val :=
  match vs[n]? with
  | some v => .ok v
  | none => .error .stuck

variable (c : Ctx) (callFn : Fn → List Val → Comp Val)

mutual
/-- The value of an expression. -/
def eval : Expr → Vars → Comp Val
  | .var n _, vs => getVar vs n
  | .glob g, _ => .ok (c.glob g)
  | .intLit n, _ => .ok (.num .const n)
  | .charLit n, _ => .ok (.num .const n)
  | .strLit s, _ => .ok (.str s)
  | .boolLit b, _ => .ok (.bool b)
  | .nil, _ => .ok (.err none)
  | .paren e, vs => eval e vs
  | .not e, vs => (eval e vs).bind Val.not
  | .neg e, vs => (eval e vs).bind (Val.neg c.w)
  | .bin .and a b, vs => (eval a vs).bind fun v => v.cond (eval b vs) (.ok (.bool false))
  | .bin .or a b, vs => (eval a vs).bind fun v => v.cond (.ok (.bool true)) (eval b vs)
  | .bin op a b, vs => (eval a vs).bind fun x => (eval b vs).bind fun y => binOp c.w op x y
  | .index s i, vs => (eval s vs).bind fun x => (eval i vs).bind fun y => indexVal x y
  | .slice s lo hi, vs => (eval s vs).bind fun x => (eval lo vs).bind fun y => (eval hi vs).bind fun z => sliceVal x y z
  | .sliceFrom s lo, vs => (eval s vs).bind fun x => (eval lo vs).bind fun y => (lenVal x).bind fun z => sliceVal x y z
  | .field e f, vs => (eval e vs).bind fun v => getField v f
  | .zeroResult, _ => .ok (.result {})
  | .runeSelf, _ => .ok (.num .const 128)
  | .hardcodedPSL, _ => .ok (.str c.texts.hardcodedPSL)
  | .newTrie _, _ | .zeroTrie, _ | .newFastTLD _ _ _, _ | .newOsFs, _ | .known _, _ | .attributes _, _ | .spreadArg _, _ | .inPackage _, _
  | .newListParams _, _ | .newParams _ _ _, _ => .error .stuck
  | .call f args, vs => (evals args vs).bind fun xs => callFn f xs

/-- The values of several expressions, from left to right. -/
def evals : List Expr → Vars → Comp (List Val)
  | [], _ => .ok []
  | e :: es, vs => (eval e vs).bind fun x => (evals es vs).bind fun xs => .ok (x :: xs)
end

/-- The values of one call, or several values. -/
def spread : List Val → List Val
  | [.tuple ys] => ys
  | xs => xs

/-- The values on the right of an assignment: one for each expression, or those of one call. -/
def rhs (es : List Expr) (vs : Vars) : Comp (List Val) :=
  (evals c callFn es vs).bind fun xs => .ok (spread xs)

/-- A constant without type becomes an `int` when a variable is declared with it. -/
def typed : Val → Val
  | .num .const z => .num .int z
  | v => v

/-- A value for a variable that has the value `old`: a constant without type takes its type. -/
def typedAs : Val → Val → Val
  | .num t _, .num .const z => .num t z
  | _, v => v

/-- One assignment. -/
def assign1 (l : Lhs) (v : Val) (vs : Vars) : Comp Vars :=
  match l with
  | .blank => .ok vs
  | .var n _ => (getVar vs n).bind fun old => .ok (vs.set n (typedAs old v))
  | .field n _ f => (getVar vs n).bind fun old => (setField old f v).bind fun new => .ok (vs.set n new)
  | .index _ _ _ => .error .stuck

/-- Several. -/
def assignAll : List Lhs → List Val → Vars → Comp Vars
  | [], [], vs => .ok vs
  | l :: ls, x :: xs, vs => (assign1 l x vs).bind fun vs => assignAll ls xs vs
  | _, _, _ => .error .stuck

/-- New variables. -/
def defineAll : List String → List Val → Vars → Comp Vars
  | [], [], vs => .ok vs
  | n :: ns, x :: xs, vs => defineAll ns xs (if n = "_" then vs else vs ++ [typed x])
  | _, _, _ => .error .stuck

/-- The value of a left-hand side. -/
def lhsVal (l : Lhs) (vs : Vars) : Comp Val :=
  match l with
  | .var n _ => getVar vs n
  | _ => .error .stuck

/-- Zero values; other types are not declared without a value. -/
def TypeName.zero : TypeName → Val
  | .bool => .bool false
  | .int => .num .int 0
  | .byte => .num .byte 0
  | .rune => .num .rune 0
  | .string => .str []
  | .suffixes => .suffixes ⟨[], [], []⟩
  | .stringSlice => .strs []
  | .trieMap => .emptyMap
  | .asciiSet => .ascii (Vector.replicate 8 0#32)
  | .byteSlice => .bytes []
  | .float64 => .float 0
  | _ => .err none

/-- A value for a parameter or result of a type: a constant without type takes it. -/
def TypeName.conv : TypeName → Val → Val
  | .byte, .num .const z => .num .byte z
  | .rune, .num .const z => .num .rune z
  | .float64, .num .const z => .float z
  | _, .num .const z => .num .int z
  | _, v => v

/-- How a statement ends. -/
inductive Out
  | norm (vs : Vars)
  | brk (vs : Vars)
  | cont (vs : Vars)
  | ret (xs : List Val)

/-- The end of a block in which there were `n` variables before: those declared in it are gone. -/
def Out.leave (n : Nat) : Out → Out
  | .norm vs => .norm (vs.take n)
  | .brk vs => .brk (vs.take n)
  | .cont vs => .cont (vs.take n)
  | .ret xs => .ret xs

/-- What comes after a statement. -/
def Out.andThen (k : Vars → Comp Out) : Out → Comp Out
  | .norm vs => k vs
  | o => .ok o

/-- What comes after the first part of `if` and `for`, which does not jump. -/
def Out.only (k : Vars → Comp Out) : Out → Comp Out
  | .norm vs => k vs
  | _ => .error .stuck

/-- What comes after the body of a loop: `k` is the next round. -/
def Out.iterate (k : Vars → Comp Out) : Out → Comp Out
  | .norm vs | .cont vs => k vs
  | .brk vs => .ok (.norm vs)
  | .ret xs => .ok (.ret xs)

/-- `for` with a condition and a statement after each round. -/
def whileLoop (cond : Vars → Comp Val) (post body : Vars → Comp Out) : (fuel : Nat) → Vars → Comp Out
  | 0, _ => .error (.fault .outOfFuel)
  | fuel + 1, vs => (cond vs).bind fun x =>
    x.cond ((body vs).bind (Out.iterate fun vs => (post vs).bind (Out.only fun vs => whileLoop cond post body fuel vs)))
      (.ok (.norm vs))

/-- `for range` over these values. -/
def rangeLoop (body : Vars → Comp Out) : List (List Val) → Vars → Comp Out
  | [], vs => .ok (.norm vs)
  | x :: xs, vs => (body (vs ++ x)).bind fun o => (o.leave vs.length).iterate fun vs => rangeLoop body xs vs

/-- `i, v := range …`: the variables with a name. -/
def bindings (i v : String) (x y : Val) : List Val :=
  (if i = "_" then [] else [x]) ++ (if v = "_" then [] else [y])

/-- Numbers with their positions. -/
def enumFrom : Nat → Bytes → List (Nat × UInt8)
  | _, [] => []
  | n, b :: bs => (n, b) :: enumFrom (n + 1) bs

/-- Strings with their positions. -/
def enumStrs : Nat → List Bytes → List (Nat × Bytes)
  | _, [] => []
  | n, b :: bs => (n, b) :: enumStrs (n + 1) bs

/-- The pairs that `range` goes through. -/
def rangeOver : Val → Comp (List (Val × Val))
  | .bytes s => .ok ((enumFrom 0 s).map fun p => (.num .int p.1, .num .byte p.2.toNat))
  | .str s => .ok ((rangeString s).map fun p => (.num .int p.1, .num .rune p.2))
  | .strs l => .ok ((enumStrs 0 l).map fun p => (.num .int p.1, .str p.2))
  | _ => .error .stuck

/-- The meaning of a statement. -/
def exec (fuel : Nat) : Stmt → Vars → Comp Out
  | .skip, vs => .ok (.norm vs)
  | .seq a b, vs => (exec fuel a vs).bind (Out.andThen fun vs => exec fuel b vs)
  | .block s, vs => (exec fuel s vs).bind fun o => .ok (o.leave vs.length)
  | .assign ls es, vs => (rhs c callFn es vs).bind fun xs => (assignAll ls xs vs).bind fun vs => .ok (.norm vs)
  | .assignOp op l e, vs => (lhsVal l vs).bind fun x => (eval c callFn e vs).bind fun y =>
      (binOp c.w op x y).bind fun z => (assign1 l z vs).bind fun vs => .ok (.norm vs)
  | .assignIndexOp op n _ i e, vs => (getVar vs n).bind fun a => (eval c callFn i vs).bind fun i => (indexVal a i).bind fun x =>
      (eval c callFn e vs).bind fun y => (binOp c.w op x y).bind fun z => (setIndex a i z).bind fun a => .ok (.norm (vs.set n a))
  | .setMethod n _ e, vs => (getVar vs n).bind fun a => (eval c callFn e vs).bind fun x => (addRune a x).bind fun a =>
      .ok (.norm (vs.set n a))
  | .incr n name, vs => (lhsVal (.var n name) vs).bind fun x => (binOp c.w .add x (.num .const 1)).bind fun z =>
      (assign1 (.var n name) z vs).bind fun vs => .ok (.norm vs)
  | .define ns es, vs => (rhs c callFn es vs).bind fun xs => (defineAll ns xs vs).bind fun vs => .ok (.norm vs)
  | .declare ns t, vs => .ok (.norm (vs ++ ns.map fun _ => t.zero))
  | .declareGroup l, vs => .ok (.norm (vs ++ l.map fun p => p.2.zero))
  | .ite init e a b, vs => (exec fuel init vs).bind (Out.only fun vs' => (eval c callFn e vs').bind fun x =>
      x.cond ((exec fuel a vs').bind fun o => .ok (o.leave vs.length)) ((exec fuel b vs').bind fun o => .ok (o.leave vs.length)))
  | .loop init e post body, vs => (exec fuel init vs).bind (Out.only fun vs' =>
      (whileLoop (eval c callFn e) (exec fuel post)
        (fun vs => (exec fuel body vs).bind fun o => .ok (o.leave vs.length)) fuel vs').bind fun o => .ok (o.leave vs.length))
  | .range i v e body, vs => (eval c callFn e vs).bind fun x => (rangeOver x).bind fun l =>
      rangeLoop (exec fuel body) (l.map fun p => bindings i v p.1 p.2) vs
  | .brk, vs => .ok (.brk vs)
  | .cont, vs => .ok (.cont vs)
  | .ret es, vs => (rhs c callFn es vs).bind fun xs => .ok (.ret xs)
  | .retNamed ns _, vs => .ok (.ret (ns.map fun n => vs.getD n (.err none)))
  | .expr e, vs => (eval c callFn e vs).bind fun _ => .ok (.norm vs)
  | .scan _ _ _ _, _ | .redefine _ _ _, _ | .defer _ _, _ | .declareInit _ _, _ | .switch _ _, _ | .case _ _ _, _ | .dflt _, _ =>
    .error .stuck

/-! ## Functions -/

/-- A function with its text.  Results have names or not. -/
structure Func where
  fn : Fn
  recv : Option (String × TypeName) := none
  params : List (String × TypeName)
  results : List (Option String × TypeName)
  body : Stmt

/-- The values of parameters. -/
def Func.args (f : Func) (xs : List Val) : List Val :=
  List.zipWith (fun (p : String × TypeName) x => p.2.conv x) (f.recv.toList ++ f.params) xs

/-- The variables at the beginning: receiver, parameters, results with names. -/
def Func.start (f : Func) (xs : List Val) : Vars :=
  f.args xs ++ f.results.filterMap fun p => p.1.map fun _ => p.2.zero

/-- What is returned. -/
def Func.result (f : Func) (xs : List Val) : Val :=
  match List.zipWith (fun (p : Option String × TypeName) x => p.2.conv x) f.results xs with
  | [x] => x
  | xs => .tuple xs

/-- The end of a call; all functions here return something. -/
def Func.finish (f : Func) : Out → Comp Val
  | .ret ys => if ys.length = f.results.length then .ok (f.result ys) else .error .stuck
  | _ => .error .stuck

/-- A call of a function with text. -/
def Func.run (c : Ctx) (callFn : Fn → List Val → Comp Val) (fuel : Nat) (f : Func) (xs : List Val) : Comp Val :=
  if xs.length = (f.recv.toList ++ f.params).length then
    (exec c callFn fuel f.body (f.start xs)).bind f.finish
  else .error .stuck

/-- A call.  `program` has the functions with text. -/
def call (c : Ctx) (program : Fn → Option Func) : (fuel : Nat) → Fn → List Val → Comp Val
  | 0, _, _ => .error (.fault .outOfFuel)
  | fuel + 1, fn, xs =>
    match program fn with
    | some f => f.run c (call c program fuel) fuel xs
    | none => builtin c fn xs

/-! ## Constants and variables of the package -/

/-- A declaration. -/
inductive Decl
  /-- `const g T = e` -/
  | const (g : Glob) (t : TypeName) (e : Expr)
  /-- `var g T = e` -/
  | var (g : Glob) (t : TypeName) (e : Expr)
  /-- `const ( g T = e … )`, with or without type -/
  | group (l : List (Glob × Option TypeName × Expr))
  /-- `const ( g T = iota; h; … )` -/
  | iota (t : TypeName) (gs : List Glob)
  /-- `var g = []string{…}`, with a comma after each -/
  | strings (g : Glob) (l : List Bytes)

/-- The value number `n` of a type of enumerated constants. -/
def TypeName.iotaVal (t : TypeName) (n : Nat) : Val :=
  match t, n with
  | .HostType, 0 => .hostType .none
  | .HostType, 1 => .hostType .hostName
  | .HostType, 2 => .hostType .iPv4
  | .HostType, 3 => .hostType .iPv6
  | _, n => .num .int n

/-- The value of `g`: the last one given. -/
def lookupGlob : List (Glob × Val) → Glob → Val
  | [], _ => .tuple []
  | (h, v) :: env, g => if h = g then v else lookupGlob env g

/-- `c` with these values of the package. -/
def Ctx.withGlobals (c : Ctx) (env : List (Glob × Val)) : Ctx :=
  { c with glob := lookupGlob env }

/-- The value of an expression in a declaration, or nothing. -/
def declVal (c : Ctx) (callFn : Fn → List Val → Comp Val) (conv : Val → Val) (e : Expr) (env : List (Glob × Val)) : Val :=
  match eval (c.withGlobals env) callFn e [] with
  | .ok v => conv v
  | .error _ => .tuple []

/-- The values of the package after a declaration. -/
def Decl.add (c : Ctx) (callFn : Fn → List Val → Comp Val) (env : List (Glob × Val)) : Decl → List (Glob × Val)
  | .const g t e | .var g t e => (g, declVal c callFn t.conv e env) :: env
  | .group l => l.foldl (fun env p => (p.1, declVal c callFn (match p.2.1 with | some t => t.conv | none => id) p.2.2 env) :: env) env
  | .iota t gs => gs.foldl (fun p g => (p.1 + 1, (g, t.iotaVal p.1) :: p.2)) (0, env) |>.2
  | .strings g l => (g, .strs l) :: env

/-- The values of the package: the declarations from the first to the last.  (Go takes them in the order in which they
depend on each other; here this is the order in which they stand.) -/
def globals (c : Ctx) (callFn : Fn → List Val → Comp Val) (ds : List Decl) : List (Glob × Val) :=
  ds.foldl (Decl.add c callFn) []

end Fasttld.GoLang
