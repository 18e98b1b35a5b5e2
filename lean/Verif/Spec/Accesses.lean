import Verif.Model.GoMem
import Verif.Model.Psl

/-!
# Programs that make the same accesses
-/

namespace Fasttld.GoLang
open Fasttld

variable {α β : Type}

/-- Two programs make the same accesses, and in the end their results are related.  After a nil access nothing comes. -/
inductive Sim (R : α → β → Prop) : MProg α → MProg β → Prop
  | ret {a : α} {b : β} (h : R a b) : Sim R (.ret a) (.ret b)
  | call {γ : Type} (o : MOp γ) {k : γ → MProg α} {l : γ → MProg β} (h : ∀ x, Sim R (k x) (l x)) : Sim R (.call o k) (.call o l)
  | nil (k : Unit → MProg α) (l : Unit → MProg β) : Sim R (.call .nil k) (.call .nil l)

/-- The access reads a node. -/
def readsNode : {γ : Type} → MOp γ → Bool
  | _, .get _ _ => true
  | _, .isEnd _ => true
  | _, .len _ => true
  | _, _ => false

/-- The program only reads nodes: no store, no allocation, no nil pointer that is followed, and `f.tldTrie` is not loaded. -/
inductive OnlyReads : MProg α → Prop
  | ret (a : α) : OnlyReads (.ret a)
  | call {γ : Type} (o : MOp γ) (ho : readsNode o = true) {k : γ → MProg α} (h : ∀ x, OnlyReads (k x)) : OnlyReads (.call o k)

/-- No access at all, or `f.tldTrie` is loaded, once, and then nodes are read. -/
inductive LoadsOnce : MProg α → Prop
  | ret (a : α) : LoadsOnce (.ret a)
  | load {k} (h : ∀ r, OnlyReads (k r)) : LoadsOnce (.call .loadRoot k)

/-- What Extract returns: the parts of the URL and the text of the error, or it panics.  It makes no arrays. -/
def Returned (isPrint : Nat → Bool) (A : Arrays) (v : Comp (Val × Arrays)) : Go (ExtractResult × Option Err) → Prop
  | .ok (u, er) => v = .ok (.tuple [.result u, .err (er.map (Err.text isPrint))], A)
  | .error f => v = .error (.fault f)

/-- What trieConstruct returns: a pointer and no error. -/
def Built (v : Comp (Val × Arrays)) (r : Ref) : Prop := ∃ A, v = .ok (.tuple [.ptr r, .err none], A)

/-- The text that trieConstruct reads: a file, or the one in the program. -/
def listText (texts : Lib) (path : Bytes) := if path = [] then .ok texts.hardcodedPSL else texts.readFile path

/-- The rules of a text that trieConstruct uses. -/
def rulesOf (idna : Idna) (incl : Bool) (text : Bytes) : List Bytes :=
  if incl then (parsePSL idna text).allSuffixes else (parsePSL idna text).publicSuffixes

end Fasttld.GoLang
