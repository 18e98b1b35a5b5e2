import Verif.Spec.Psl
import Verif.Spec.Extract
import Verif.Spec.Log
import Verif.Model.Errors

/-!
# Specification: programs that use the package

What calls of New, of Extract and of Update come to, in any order, on any number of extractors.
-/

namespace Fasttld.Spec
open Fasttld

/-- A call of the package.  Extractors are numbered in the order in which New has returned them. -/
inductive Request
  | new (n : SuffixListParams)
  | extract (i : Nat) (e : URLParams)
  | update (i : Nat)

/-- An extractor, as far as its user can tell: the path of its list and the setting; the text of the list that it uses. -/
structure Extractor where
  path : Bytes
  includePrivateSuffix : Bool
  list : Bytes
  deriving DecidableEq

/-- The results of a call; errors are texts. -/
inductive Answer
  | new (err : Option Bytes)
  | extract (r : ExtractResult) (err : Option Bytes)
  | update (err : Option Bytes)

/-- What a call does, with these extractors: what it asks of the operating system, logs and closes; its results; the extractors then.
`hard` is the list that is built in, `text` the text of an error. -/
inductive RequestDoes (idna : Idna) (hard : Bytes) (text : Err → Bytes) : List Extractor → Request → List LEvent → Answer → List Extractor → Prop
  /-- New never fails; the list is the built-in one or one that was read. -/
  | new {xs : List Extractor} {n : SuffixListParams} {evs : List LEvent} {x : Extractor} (hs : x.includePrivateSuffix = n.includePrivateSuffix)
      (hl : x.path = [] ∧ x.list = hard ∨ ∃ t, LEvent.sys (.readFile x.path (some x.list)) t ∈ evs) :
      RequestDoes idna hard text xs (.new n) evs (.new none) (xs ++ [x])
  /-- Extract asks nothing, and changes nothing; its results are those of C52 for the rules of the extractor's list. -/
  | extract {xs : List Extractor} {i : Nat} {e : URLParams} {evs : List LEvent} {x : Extractor} {r : ExtractResult} {err : Option Err} (hx : xs[i]? = some x)
      (he : calls evs = [])
      (hr : ∀ ts before after, StrippedLines x.list ts → Sections ts before after →
        Extracts idna (rulesOf idna.toASCII (if x.includePrivateSuffix then ts else before)) e r err) :
      RequestDoes idna hard text xs (.extract i e) evs (.extract r (err.map text)) xs
  /-- An Update that fails changes nothing. -/
  | failed {xs : List Extractor} {i : Nat} {evs : List LEvent} {x : Extractor} {t : Bytes} (hx : xs[i]? = some x) :
      RequestDoes idna hard text xs (.update i) evs (.update (some t)) xs
  /-- One that does not fail has read the file of the extractor, which uses that list from now on. -/
  | updated {xs : List Extractor} {i : Nat} {evs : List LEvent} {x : Extractor} {list t : Bytes} (hx : xs[i]? = some x)
      (hl : LEvent.sys (.readFile x.path (some list)) t ∈ evs) :
      RequestDoes idna hard text xs (.update i) evs (.update none) (xs.set i { x with list := list })

/-- Calls one after the other. -/
inductive RequestsDo (idna : Idna) (hard : Bytes) (text : Err → Bytes) : List Extractor → List (Request × List LEvent × Answer) → List Extractor → Prop
  | nil (xs : List Extractor) : RequestsDo idna hard text xs [] xs
  | cons {xs xs' xs'' : List Extractor} {j : Request} {evs : List LEvent} {a : Answer} {l : List (Request × List LEvent × Answer)}
      (h : RequestDoes idna hard text xs j evs a xs') (hl : RequestsDo idna hard text xs' l xs'') : RequestsDo idna hard text xs ((j, evs, a) :: l) xs''

end Fasttld.Spec
