import Verif.Model.Log
import Verif.Spec.System

/-!
# Specification: what is logged, and what is open
-/

namespace Fasttld.Spec
open Fasttld

/-- The calls, with their answers and the texts of the errors. -/
def calls : List LEvent → List (Event × Bytes)
  | [] => []
  | .sys e t :: rest => (e, t) :: calls rest
  | .effect _ :: rest => calls rest

/-- The lines that are logged. -/
def logged : List LEvent → List Bytes
  | [] => []
  | .effect (.log l) :: rest => l :: logged rest
  | _ :: rest => logged rest

/-- `ls` is what is to be logged about a list: a line for each entry that has no ASCII form. -/
def Complaints (toASCII : Bytes → Option Bytes) (errorText : Bytes → Bytes) (text : Bytes) (ls : List Bytes) : Prop :=
  ∃ ts, StrippedLines text ts ∧
    ls = (ts.filter (fun t => decide (IsRuleLine t) && (toASCII t).isNone)).map (fun t => t ++ b! " 124 " ++ errorText t)

/-- The number in decimal. -/
def decimalDigits (n : Nat) : Bytes := (Nat.toDigits 10 n).map (fun c => UInt8.ofNat c.toNat)

/-- What is to be logged after a call, if `bad` says what about a list. -/
def linesFor (bad : Bytes → List Bytes) : Event → Bytes → List Bytes
  | .readFile _ none, t => [t, t]
  | .readFile _ (some text), _ => bad text
  | .httpGet _ .failed, t => [t]
  | .httpGet _ (.status code _ complete), t =>
    if code ≠ 200 then [b! "Download failed, HTTP status code : " ++ decimalDigits code] else if complete then [] else [t]
  | .seek _ false, t => [t]
  | .write _ _ false, t => [t]
  | .write _ _ true, _ => [b! "Public Suffix List updated."]
  | _, _ => []

/-- What is to be logged after these calls.  A file that is only read to see whether it is valid (after `os.Stat`) is not
mentioned. -/
def expectedLog (bad : Bytes → List Bytes) : List (Event × Bytes) → List Bytes
  | (.stat _ _, _) :: (.readFile _ _, _) :: rest => expectedLog bad rest
  | (.now _, _) :: (.readFile _ _, _) :: rest => expectedLog bad rest
  | (e, t) :: rest => linesFor bad e t ++ expectedLog bad rest
  | [] => []

/-- How often the place for temporary files is asked for. -/
def tempDirs : List (Event × Bytes) → Nat
  | [] => 0
  | (.tempDir _, _) :: rest => tempDirs rest + 1
  | _ :: rest => tempDirs rest

/-- The text with the last call. -/
def lastText : List (Event × Bytes) → Bytes
  | [] => []
  | [(_, t)] => t
  | _ :: rest => lastText rest

/-- Calls that failed, and something could not be done because of it. -/
def Failure : Event → Prop
  | .openDir _ false => True
  | .openWrite _ none => True
  | .httpGet _ .failed => True
  | .httpGet _ (.status code _ complete) => code = 200 ∧ complete = false
  | .seek _ false => True
  | .write _ _ false => True
  | _ => False

/-- A call failed with the text `t`; reading a file counts if it is not only to see whether it is valid. -/
def FailedWith (cs : List (Event × Bytes)) (t : Bytes) : Prop :=
  (∃ e, (e, t) ∈ cs ∧ Failure e) ∨
  ∃ a p b, cs = a ++ (.readFile p none, t) :: b ∧ ∀ c ∈ a.getLast?, (∀ q i, c.1 ≠ .stat q i) ∧ ∀ i, c.1 ≠ .now i

/-- `l` is `s` up to the end of the first `sep` in it, or all of `s` if there is none. -/
def UpToFirst (sep s l : Bytes) : Prop :=
  (¬ sep <:+: s ∧ l = s) ∨ ∃ A B, s = A ++ sep ++ B ∧ l = A ++ sep ∧ ¬ sep <:+: (A ++ sep).dropLast

/-- What is open: the folder for temporary files, the file that is written, the body of a response. -/
structure Opened where
  dir : Bool := false
  file : Option Nat := none
  body : Bool := false
  deriving DecidableEq, Repr

/-- What is open afterwards; `none` if something is opened twice, or closed or used without being open. -/
def Opened.after (o : Opened) : LEvent → Option Opened
  | .sys (.openDir _ true) _ => if o.dir then none else some { o with dir := true }
  | .sys (.openWrite _ (some h)) _ => if o.file = none then some { o with file := some h } else none
  | .sys (.httpGet _ (.status _ _ _)) _ => if o.body then none else some { o with body := true }
  | .sys (.seek h _) _ => if o.file = some h then some o else none
  | .sys (.write h _ _) _ => if o.file = some h then some o else none
  | .effect .closeDir => if o.dir then some { o with dir := false } else none
  | .effect (.closeFile h) => if o.file = some h then some { o with file := none } else none
  | .effect .closeBody => if o.body then some { o with body := false } else none
  | _ => some o

/-- The same for several. -/
def Opened.afterAll (o : Opened) : List LEvent → Option Opened
  | [] => some o
  | e :: rest => (o.after e).bind (fun o => o.afterAll rest)

end Fasttld.Spec
