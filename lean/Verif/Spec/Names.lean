import Verif.Model.GoLex

/-!
# Names: what is declared where

The rules of Model/GoLang.lean to Model/GoCli.lean know functions, types and packages by their names.  That is right only
if no inner declaration of the same name is in the way (The Go Programming Language Specification, Declarations and scope).
-/

namespace Fasttld.Spec
open Fasttld Fasttld.GoLang

/-- The Go Programming Language Specification, Predeclared identifiers. -/
def predeclared : List String :=
  ["any", "bool", "byte", "comparable", "complex64", "complex128", "error", "float32", "float64", "int", "int8", "int16", "int32",
    "int64", "rune", "string", "uint", "uint8", "uint16", "uint32", "uint64", "uintptr", "true", "false", "iota", "nil", "append",
    "cap", "clear", "close", "complex", "copy", "delete", "imag", "len", "make", "max", "min", "new", "panic", "print", "println",
    "real", "recover"]

/-- The names that a statement declares: of variables, in it or in the statements in it. -/
def declares : Stmt → List String
  | .seq a b | .case _ a b => declares a ++ declares b
  | .block s | .switch _ s | .dflt s => declares s
  | .define ns _ | .redefine ns _ _ | .declare ns _ => ns
  | .declareGroup l => l.map Prod.fst
  | .declareInit n _ => [n]
  | .ite i _ a b | .loop i _ a b => declares i ++ (declares a ++ declares b)
  | .range i v _ s | .scan _ i v s => i :: v :: declares s
  | _ => []

/-- The names that a function declares: its receiver, parameters, results and variables. -/
def localNames (f : Func) : List String :=
  f.recv.toList.map Prod.fst ++ f.params.map Prod.fst ++ f.results.filterMap Prod.fst ++ declares f.body

/-- The paths of an import declaration, each on its own line, with no other name and no dot before it. -/
def importPaths : List Tok → Option (List Bytes)
  | [.op ")", .op ";"] => some []
  | .str p :: .op ";" :: ts => (importPaths ts).map (p :: ·)
  | _ => none

/-- The paths that a file imports: one declaration, in parentheses or for one path. -/
def imports (ds : List (List Tok)) : Option (List Bytes) :=
  match ds.filter (·.head? == some (.id "import")) with
  | [[.id "import", .str p, .op ";"]] => some [p]
  | [.id "import" :: .op "(" :: ts] => importPaths ts
  | _ => none

/-- The packages by the names that their own package clauses give them. -/
def packagesByPath : List (Bytes × String) :=
  [(b! "bytes", "bytes"), (b! "errors", "errors"), (b! "fmt", "fmt"), (b! "log", "log"), (b! "net/http", "http"), (b! "net/url", "url"),
    (b! "os", "os"), (b! "path/filepath", "filepath"), (b! "runtime", "runtime"), (b! "strconv", "strconv"), (b! "strings", "strings"),
    (b! "time", "time"), (b! "unicode/utf8", "utf8"), (b! "github.com/spf13/afero", "afero"), (b! "golang.org/x/net/idna", "idna"),
    (b! "github.com/tidwall/hashmap", "hashmap"), (b! "github.com/karlseguin/intset", "intset"), (b! "github.com/fatih/color", "color"),
    (b! "github.com/elliotwutingfeng/go-fasttld", "fasttld"), (b! "github.com/spf13/cobra", "cobra")]

/-- `names` are the names of the packages that a file with these declarations imports. -/
def ImportsNames (ds : List (List Tok)) (names : List String) : Prop :=
  ∃ ps, imports ds = some ps ∧ ps.map (packagesByPath.lookup ·) = names.map some

/-- Wherever one of the names stands, it is the name of a field or method (after a dot) or of a package (before one). -/
def Qualifies (ns : List String) (ts : List Tok) : Prop :=
  ∀ a x b, ts = a ++ .id x :: b → x ∈ ns → a.getLast? = some (.op ".") ∨ b.head? = some (.op ".")

/-- Wherever one of the names stands, it is a field or method (after a dot), it is declared as a function (after `func`), or it
is called (before a parenthesis). -/
def Called (ns : List String) (ts : List Tok) : Prop :=
  ∀ a x b, ts = a ++ .id x :: b → x ∈ ns → a.getLast? = some (.op ".") ∨ a.getLast? = some (.id "func") ∨ b.head? = some (.op "(")

end Fasttld.Spec
