import Verif.Model.GoText
import Verif.Model.Lines

/-!
# From the bytes of a file to its tokens

The Go Programming Language Specification, Lexical elements, line by line: no token and no comment goes over the end of a
line in the files read with it (a raw string or a comment `/* … */` that did would have no tokens here).  Identifiers have
ASCII letters only, numbers are decimal, octal (`0644`) or hexadecimal, strings have the escapes of the language except octal
ones.  What is not of
this form has no tokens.
-/

namespace Fasttld.GoLang
open Fasttld

/-- Letters (ASCII) and `_`. -/
def isLetter (n : Nat) : Bool := (65 ≤ n && n ≤ 90) || (97 ≤ n && n ≤ 122) || n == 95

/-- Decimal digits. -/
def isDigit (n : Nat) : Bool := 48 ≤ n && n ≤ 57

/-- The value of a hexadecimal digit. -/
def hexDigit (n : Nat) : Option Nat :=
  if 48 ≤ n && n ≤ 57 then some (n - 48)
  else if 97 ≤ n && n ≤ 102 then some (n - 87)
  else if 65 ≤ n && n ≤ 70 then some (n - 55)
  else none

/-- The first bytes that have a property, and the others. -/
def spanNat (p : Nat → Bool) : List Nat → List Nat × List Nat
  | [] => ([], [])
  | n :: ns => if p n then ((n :: (spanNat p ns).1), (spanNat p ns).2) else ([], n :: ns)

/-- The number with these digits. -/
def decimal (ds : List Nat) : Nat := ds.foldl (fun v d => v * 10 + (d - 48)) 0

/-- The number with these hexadecimal digits. -/
def hexadecimal : List Nat → Nat → Option Nat
  | [], v => some v
  | d :: ds, v => (hexDigit d).bind fun h => hexadecimal ds (v * 16 + h)

/-- The number with these octal digits. -/
def octal : List Nat → Nat → Option Nat
  | [], v => some v
  | d :: ds, v => if 48 ≤ d && d ≤ 55 then octal ds (v * 8 + (d - 48)) else none

/-- UTF-8. -/
def utf8Bytes (n : Nat) : List Nat :=
  if n < 0x80 then [n]
  else if n < 0x800 then [0xC0 + n / 64, 0x80 + n % 64]
  else if n < 0x10000 then [0xE0 + n / 4096, 0x80 + n / 64 % 64, 0x80 + n % 64]
  else [0xF0 + n / 262144, 0x80 + n / 4096 % 64, 0x80 + n / 64 % 64, 0x80 + n % 64]

/-- Escapes of one letter. -/
def simpleEscape (n : Nat) : Option Nat :=
  if n = 97 then some 7            -- \a
  else if n = 98 then some 8       -- \b
  else if n = 102 then some 12     -- \f
  else if n = 110 then some 10     -- \n
  else if n = 114 then some 13     -- \r
  else if n = 116 then some 9      -- \t
  else if n = 118 then some 11     -- \v
  else if n = 92 then some 92      -- \\
  else none

/-- What follows a backslash in a literal with this quote: the code point (or byte, with `\x`), whether it is a byte, and
the rest. -/
def escape (quote : Nat) : List Nat → Option (Nat × Bool × List Nat)
  | 120 :: a :: b :: r => (hexadecimal [a, b] 0).map fun v => (v, true, r)
  | 117 :: a :: b :: c :: d :: r => (hexadecimal [a, b, c, d] 0).map fun v => (v, false, r)
  | 85 :: a :: b :: c :: d :: e :: f :: g :: h :: r => (hexadecimal [a, b, c, d, e, f, g, h] 0).map fun v => (v, false, r)
  | n :: r => if n = quote then some (n, false, r) else (simpleEscape n).map fun v => (v, false, r)
  | [] => none

/-- The bytes of an interpreted string up to the closing `"`, and the rest. -/
def stringBody : (fuel : Nat) → List Nat → Option (List Nat × List Nat)
  | 0, _ => none
  | _, [] => none
  | fuel + 1, n :: r =>
    if n = 34 then some ([], r)
    else if n = 92 then (escape 34 r).bind fun e =>
      (stringBody fuel e.2.2).map fun p => ((if e.2.1 then [e.1] else utf8Bytes e.1) ++ p.1, p.2)
    else (stringBody fuel r).map fun p => (n :: p.1, p.2)

/-- The bytes of a raw string up to the closing back quote, and the rest; carriage returns are left out. -/
def rawBody : List Nat → Option (List Nat × List Nat)
  | [] => none
  | n :: r =>
    if n = 96 then some ([], r)
    else (rawBody r).map fun p => (if n = 13 then p.1 else n :: p.1, p.2)

/-- A rune literal after its opening quote: ASCII or an escape. -/
def runeBody : List Nat → Option (Nat × List Nat)
  | 92 :: r => (escape 39 r).bind fun e =>
    match e.2.2 with
    | 39 :: r => some (e.1, r)
    | _ => none
  | n :: 39 :: r => if n < 128 && n ≠ 39 then some (n, r) else none
  | _ => none

/-- Operators and punctuation of three, two and one characters. -/
def operators : List String :=
  ["<<=", ">>=", "&^=", "...", "&&", "||", "<-", "++", "--", "==", "!=", "<=", ">=", ":=", "+=", "-=", "*=", "/=", "%=", "&=", "|=", "^=",
   "<<", ">>", "&^", "+", "-", "*", "/", "%", "&", "|", "^", "<", ">", "=", "!", "(", ")", "[", "]", "{", "}", ",", ";", ".", ":", "~"]

/-- The same as bytes. -/
def operatorBytes : List (List Nat × String) := operators.map fun s => (s.toList.map Char.toNat, s)

/-- The longest operator at the beginning, and the rest. -/
def operatorAt (s : List Nat) : List (List Nat × String) → Option (String × List Nat)
  | [] => none
  | (o, t) :: os => if o.isPrefixOf s then some (t, s.drop o.length) else operatorAt s os

/-- The text of ASCII bytes. -/
def textOf (s : List Nat) : String := String.ofList (s.map Char.ofNat)

/-- The keywords, except `break`, `continue`, `fallthrough` and `return`. -/
def keywords : List String :=
  ["case", "chan", "const", "default", "defer", "else", "for", "func", "go", "goto", "if", "import", "interface", "map", "package",
   "range", "select", "struct", "switch", "type", "var"]

/-- Whether a semicolon is put at the end of a line that ends with this token: after identifiers, literals, `break`,
`continue`, `fallthrough`, `return`, `++`, `--` and closing brackets. -/
def endsLine : Tok → Bool
  | .id s => !keywords.contains s
  | .op s => ["++", "--", ")", "]", "}"].contains s
  | _ => true

/-- One token, and the rest. -/
def token : List Nat → Option (Tok × List Nat)
  | [] => none
  | 34 :: r => (stringBody (r.length + 1) r).map fun p => (.str (p.1.map UInt8.ofNat), p.2)
  | 96 :: r => (rawBody r).map fun p => (.str (p.1.map UInt8.ofNat), p.2)
  | 39 :: r => (runeBody r).map fun p => (.chr p.1, p.2)
  | 48 :: 120 :: r =>
    let p := spanNat (fun n => (hexDigit n).isSome) r
    if p.1.isEmpty || (p.2.head?.any isLetter) then none else (hexadecimal p.1 0).map fun v => (.int v, p.2)
  | n :: r =>
    if isLetter n then
      let p := spanNat (fun n => isLetter n || isDigit n) (n :: r)
      some (.id (textOf p.1), p.2)
    else if isDigit n then
      let p := spanNat isDigit (n :: r)
      -- no floating-point numbers
      if p.2.head?.any (fun n => isLetter n || n == 46) then none
      else if n = 48 then (octal p.1 0).map fun v => (.int v, p.2)
      else some (.int (decimal p.1), p.2)
    else (operatorAt (n :: r) operatorBytes).map fun p => (.op p.1, p.2)

/-- The tokens of a line; `last` is the one before. -/
def lexLine : (fuel : Nat) → Option Tok → List Nat → Option (List Tok)
  | _, last, [] => some (if last.any endsLine then [.op ";"] else [])
  | 0, _, _ => none
  | fuel + 1, last, n :: r =>
    if n = 32 || n = 9 || n = 13 then lexLine fuel last r                               -- white space
    else if [47, 47].isPrefixOf (n :: r) then lexLine fuel last []                       -- a comment
    else if [47, 42].isPrefixOf (n :: r) then none
    else (token (n :: r)).bind fun p => (lexLine fuel (some p.1) p.2).map (p.1 :: ·)

/-- The tokens of the line given by a number (Model/Lines.lean). -/
def lexNum (n : Nat) : Option (List Tok) :=
  let s := (unpack n).map UInt8.toNat
  lexLine (s.length + 1) none s

/-- The tokens of lines. -/
def lexLines : List Nat → Option (List Tok)
  | [] => some []
  | l :: ls => (lexNum l).bind fun a => (lexLines ls).map (a ++ ·)

/-! ## Declarations -/

/-- The first tokens up to a semicolon outside of brackets, and the others. -/
def oneDecl : (depth : Nat) → List Tok → List Tok × List Tok
  | _, [] => ([], [])
  | d, t :: ts =>
    if t = .op ";" ∧ d = 0 then ([t], ts)
    else
      let d := if t = .op "(" ∨ t = .op "[" ∨ t = .op "{" then d + 1 else if t = .op ")" ∨ t = .op "]" ∨ t = .op "}" then d - 1 else d
      let p := oneDecl d ts
      (t :: p.1, p.2)

/-- The clauses and declarations of a file: package, imports, constants, variables, types, functions. -/
def topLevel : (fuel : Nat) → List Tok → List (List Tok)
  | 0, _ => []
  | _, [] => []
  | fuel + 1, ts => let p := oneDecl 0 ts; p.1 :: topLevel fuel p.2

/-- The keyword and the name of a declaration; for a group in parentheses, its first name. -/
def declName : List Tok → List String
  | .id k :: .op "(" :: .id n :: .op ")" :: .id m :: _ => [k, n, m]
  | .id "func" :: .op "(" :: .id _ :: .op "*" :: .id t :: .op ")" :: .id m :: _ => ["func", t, m]
  | .id k :: .op "(" :: .id n :: _ => [k, n]
  | .id k :: .id n :: _ => [k, n]
  | .id k :: _ => [k]
  | _ => []

/-- The declarations of a file, if it has tokens. -/
def fileDecls (ls : List Nat) : Option (List (List Tok)) := (lexLines ls).map fun ts => topLevel ts.length ts

end Fasttld.GoLang
