import Verif.Model.GoSys
import Verif.Model.GoLex

/-!
# examples/demo.go, by the text

The statements of `main`, each a form of its own with its tokens and its meaning: calls of New, Extract, Update and PrintRes run the
text of these functions (Model/GoSys.lean).  The variables of `main` are `fontStyle`, which is not changed, and those of `Vars`.
`log.Fatal` has no meaning here, as in Model/GoSys.lean.
-/

namespace Fasttld.GoLang
open Fasttld

namespace Demo

/-- The variables of `main` (examples/demo.go:14, 16, 23). -/
structure Vars where
  url : Bytes := []
  extractor : Option Nat := none
  err : Option Bytes := none
  res : ExtractResult := {}

/-- The fields of `URLParams{URL: url, …}`. -/
inductive Field
  | ignoreSubDomains | convertURLToPunyCode
  deriving DecidableEq

/-- The statements of `main`. -/
inductive Stmt
  /-- `var fontStyle = []color.Attribute{color.FgHiWhite, color.Bold}` (:11) -/
  | fontStyle
  /-- `url := s` (:14), and with `=` (:28, …) -/
  | url (define : Bool) (s : Bytes)
  /-- `extractor, err := fasttld.New(fasttld.SuffixListParams{})` (:16) -/
  | newErr
  /-- `extractor, _ = fasttld.New(fasttld.SuffixListParams{})`, or with `IncludePrivateSuffix: true` (:56, 61, 69) -/
  | new (priv : Bool)
  /-- `if err != nil { log.Fatal(err) }` (:19-21) -/
  | fatal
  /-- `res, _ := extractor.Extract(fasttld.URLParams{URL: url})` (:23), and with `=` and another field (:30, …) -/
  | extract (define : Bool) (field : Option Field)
  /-- `color.New(fontStyle...).Println(s)` (:24, …) -/
  | title (s : Bytes)
  /-- `color.New().Println(s)` (:89) -/
  | plain (s : Bytes)
  /-- `fasttld.PrintRes(url, res)` (:25, …) -/
  | printRes
  /-- `if err := extractor.Update(); err != nil { log.Println(err) }` (:49-51) -/
  | update
  /-- `if res, err = extractor.Extract(fasttld.URLParams{URL: url}); err != nil { … }` (:90-93) -/
  | extractErr

/-- `p.x` -/
def dot (p x : String) : List Tok := [.id p, .op ".", .id x]

/-- `fasttld.URLParams{URL: url}` or with another field that is true. -/
def paramsToks (field : Option Field) : List Tok :=
  dot "fasttld" "URLParams" ++ [.op "{", .id "URL", .op ":", .id "url"] ++
    (match field with
     | none => []
     | some .ignoreSubDomains => [.op ",", .id "IgnoreSubDomains", .op ":", .id "true"]
     | some .convertURLToPunyCode => [.op ",", .id "ConvertURLToPunyCode", .op ":", .id "true"]) ++ [.op "}"]

/-- The tokens of a statement. -/
def Stmt.toks : Stmt → List Tok
  | .fontStyle => [.id "var", .id "fontStyle", .op "=", .op "[", .op "]"] ++ dot "color" "Attribute" ++ [.op "{"] ++ dot "color" "FgHiWhite" ++ [.op ","] ++
      dot "color" "Bold" ++ [.op "}", .op ";"]
  | .url define s => [.id "url", .op (if define then ":=" else "="), .str s, .op ";"]
  | .newErr => [.id "extractor", .op ",", .id "err", .op ":="] ++ dot "fasttld" "New" ++ [.op "("] ++ dot "fasttld" "SuffixListParams" ++
      [.op "{", .op "}", .op ")", .op ";"]
  | .new priv => [.id "extractor", .op ",", .id "_", .op "="] ++ dot "fasttld" "New" ++ [.op "("] ++ dot "fasttld" "SuffixListParams" ++
      [.op "{"] ++ (if priv then [.id "IncludePrivateSuffix", .op ":", .id "true"] else []) ++ [.op "}", .op ")", .op ";"]
  | .fatal => [.id "if", .id "err", .op "!=", .id "nil", .op "{"] ++ dot "log" "Fatal" ++ [.op "(", .id "err", .op ")", .op ";", .op "}", .op ";"]
  | .extract define field => [.id "res", .op ",", .id "_", .op (if define then ":=" else "=")] ++ dot "extractor" "Extract" ++ [.op "("] ++
      paramsToks field ++ [.op ")", .op ";"]
  | .title s => dot "color" "New" ++ [.op "(", .id "fontStyle", .op "...", .op ")", .op ".", .id "Println", .op "(", .str s, .op ")", .op ";"]
  | .plain s => dot "color" "New" ++ [.op "(", .op ")", .op ".", .id "Println", .op "(", .str s, .op ")", .op ";"]
  | .printRes => dot "fasttld" "PrintRes" ++ [.op "(", .id "url", .op ",", .id "res", .op ")", .op ";"]
  | .update => [.id "if", .id "err", .op ":="] ++ dot "extractor" "Update" ++ [.op "(", .op ")", .op ";", .id "err", .op "!=", .id "nil", .op "{"] ++
      dot "log" "Println" ++ [.op "(", .id "err", .op ")", .op ";", .op "}", .op ";"]
  | .extractErr => [.id "if", .id "res", .op ",", .id "err", .op "="] ++ dot "extractor" "Extract" ++ [.op "("] ++ paramsToks none ++
      [.op ")", .op ";", .id "err", .op "!=", .id "nil", .op "{"] ++
      dot "color" "New" ++ [.op "("] ++ dot "color" "FgHiRed" ++ [.op ","] ++ dot "color" "Bold" ++ [.op ")", .op ".", .id "Print", .op "(", .str (b! "Error: "), .op ")", .op ";"] ++
      dot "color" "New" ++ [.op "("] ++ dot "color" "FgHiWhite" ++ [.op ")", .op ".", .id "Println", .op "(", .id "err", .op ")", .op ";"] ++
      [.op "}", .op ";"]

/-- `URLParams{URL: url, …}` -/
def params (url : Bytes) (field : Option Field) : URLParams :=
  ⟨url, field == some .ignoreSubDomains, field == some .convertURLToPunyCode⟩

section
variable (round : Rat → Rat) (c : Ctx) (fuel : Nat)

/-- `extractor.Extract(e)` -/
def callExtract (s : Vars) (e : URLParams) : EffX (ExtractResult × Option Bytes) :=
  match s.extractor with
  | none => EffX.lift (.error .stuck)
  | some p => (callSys round c fuel .Extract [.obj p, .params e]).bind fun
    | .tuple [.result r, .err e] => EffX.ok (r, e)
    | _ => EffX.lift (.error .stuck)

/-- `fasttld.New(fasttld.SuffixListParams{…})` -/
def callNew (priv : Bool) : EffX (Nat × Option Bytes) :=
  (callSys round c fuel .New [.listParams ⟨[], priv⟩]).bind fun
    | .tuple [.obj p, .err e] => EffX.ok (p, e)
    | _ => EffX.lift (.error .stuck)

/-- `color.New(attrs...).Print(text)` -/
def print (attrs : List Attr) (text : Bytes) : EffX Unit := EffX.effect (.print ⟨attrs, text⟩)

/-- The meaning of a statement. -/
def Stmt.run (s : Vars) : Stmt → EffX Vars
  | .fontStyle => EffX.ok s
  | .url _ u => EffX.ok { s with url := u }
  | .newErr => (callNew round c fuel false).bind fun (p, e) => EffX.ok { s with extractor := some p, err := e }
  | .new priv => (callNew round c fuel priv).bind fun (p, _) => EffX.ok { s with extractor := some p }
  | .fatal => match s.err with
    | none => EffX.ok s
    | some _ => EffX.lift (.error .stuck)
  | .extract _ field => (callExtract round c fuel s (params s.url field)).bind fun (r, _) => EffX.ok { s with res := r }
  | .title t => (print [.fgHiWhite, .bold] (t ++ [10])).bind fun _ => EffX.ok s
  | .plain t => (print [] (t ++ [10])).bind fun _ => EffX.ok s
  | .printRes => (callSys round c fuel .PrintRes [.str s.url, .result s.res]).bind fun _ => EffX.ok s
  -- the variable `err` of the statement is another one
  | .update => match s.extractor with
    | none => EffX.lift (.error .stuck)
    | some p => (callSys round c fuel .Update [.obj p]).bind fun
      | .err none => EffX.ok s
      | .err (some t) => (EffX.effect (.log t)).bind fun _ => EffX.ok s
      | _ => EffX.lift (.error .stuck)
  | .extractErr => (callExtract round c fuel s (params s.url none)).bind fun (r, e) =>
    match e with
    | none => EffX.ok { s with res := r, err := none }
    | some t => (print [.fgHiRed, .bold] (b! "Error: ")).bind fun _ => (print [.fgHiWhite] (t ++ [10])).bind fun _ =>
      EffX.ok { s with res := r, err := some t }

/-- Statements one after the other. -/
def runAll (s : Vars) : List Stmt → EffX Vars
  | [] => EffX.ok s
  | t :: ts => (t.run round c fuel s).bind fun s' => runAll s' ts

end

/-- examples/demo.go:10-95 `main` -/
def main : List Stmt :=
  [.fontStyle,                                                                              -- :11
   .url true (b! "https://user@a.subdomain.example.a%63.uk:5000/a/b?id=42"),                -- :14
   .newErr, .fatal, .extract true none, .title (b! "Hostname"), .printRes,                  -- :16-25
   .url false (b! "https://127.0.0.1:5000"),                                                -- :28
   .extract false none, .title (b! "IPv4 Address"), .printRes,                              -- :30-32
   .url false (b! "https://[aBcD:ef01:2345:6789:aBcD:ef01:2345:6789]:5000"),                -- :35
   .extract false none, .title (b! "IPv6 Address"), .printRes,                              -- :37-39
   .url false (b! "https://brb.i。am．going｡to．be。a｡fk"),  -- :42
   .extract false none, .title (b! "Internationalised label separators"), .printRes,        -- :44-46
   .update,                                                                                 -- :49-51
   .url false (b! "https://google.blogspot.com"),                                           -- :54
   .new false, .extract false none, .title (b! "Exclude Private Domains"), .printRes,       -- :56-59
   .new true, .extract false none, .title (b! "Include Private Domains"), .printRes,        -- :61-64
   .url false (b! "https://maps.google.com"),                                               -- :67
   .new false, .extract false (some .ignoreSubDomains), .title (b! "Ignore Subdomains"), .printRes,   -- :69-72
   .url false (b! "https://hello.世界.com"),                                                 -- :75
   .extract false none, .title (b! "No Punycode"), .printRes,                               -- :77-79
   .extract false (some .convertURLToPunyCode), .title (b! "Punycode"), .printRes,          -- :81-83
   .url false (b! "https://example!.com"),                                                  -- :86
   .title (b! "Parsing errors"), .plain (b! "The following line should be an error message"),         -- :88-89
   .extractErr, .printRes]                                                                  -- :90-94

end Demo

end Fasttld.GoLang
