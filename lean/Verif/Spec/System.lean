import Verif.Model.World
import Verif.Spec.Psl

/-!
# Specification: lists on disk and on the net
-/

namespace Fasttld.Spec
open Fasttld

/-- The four section markers. -/
def markers : List Bytes :=
  [b! "// ===BEGIN ICANN DOMAINS===", b! "// ===END ICANN DOMAINS===",
   b! "// ===BEGIN PRIVATE DOMAINS===", b! "// ===END PRIVATE DOMAINS==="]

/-- All section markers occur. -/
def HasMarkers (c : Bytes) : Prop := ∀ m ∈ markers, m <:+: c

/-- The rules of the extractor are those of the list `text`, with the private ones if the extractor wants them. -/
def Serves (idna : Idna) (f : FastTLD) (text : Bytes) : Prop :=
  f.tldTrie = trieOfText idna f.includePrivateSuffix text

/-- The calls that change files. -/
def IsWrite : Event → Prop
  | .openWrite _ _ => True
  | .write _ _ _ => True
  | _ => False

/-- The calls that use the network. -/
def IsNetwork : Event → Prop
  | .httpGet _ _ => True
  | _ => False

/-- One source is tried: the calls, and whether its list was written. -/
inductive Attempt (file : Nat) (url : Bytes) : List Event → Bool → Prop
  /-- no complete list with the section markers -/
  | noList {r : Response} (h : ∀ body, r = .status 200 body true → ¬ HasMarkers body) :
      Attempt file url [.httpGet url r] false
  | noSeek {body : Bytes} (h : HasMarkers body) :
      Attempt file url [.httpGet url (.status 200 body true), .seek file false] false
  | noWrite {body : Bytes} (h : HasMarkers body) :
      Attempt file url [.httpGet url (.status 200 body true), .seek file true, .write file body false] false
  | written {body : Bytes} (h : HasMarkers body) :
      Attempt file url [.httpGet url (.status 200 body true), .seek file true, .write file body true] true

/-- The sources are tried in order until a list is written. -/
inductive Attempts (file : Nat) : List Bytes → List Event → Bool → Prop
  | exhausted : Attempts file [] [] false
  | stop {url rest evs} (h : Attempt file url evs true) : Attempts file (url :: rest) evs true
  | next {url rest evs evs' ok} (h : Attempt file url evs false) (h' : Attempts file rest evs' ok) :
      Attempts file (url :: rest) (evs ++ evs') ok

/-- The address asked, if this is a call to the network. -/
def urlOf : Event → Option Bytes
  | .httpGet url _ => some url
  | _ => none

/-- The file named by `p`, taken without white space around it, is a readable regular file with the section markers
whose content is `c` and which was modified at `t`. -/
def Usable (w : World) (p c : Bytes) (t : Int) : Prop :=
  ∃ s q f, Stripped p s ∧ w.absOf s = some q ∧ w.nodes (w.loc q) = some (.file f) ∧ f.readable = true ∧
    f.content = c ∧ f.modTime = t ∧ HasMarkers c

/-- Relative and absolute form of a path lead to the same place. -/
def Coherent (w : World) : Prop := ∀ p q, w.absOf p = some q → w.loc q = w.loc p

/-- The default cache file. -/
def defaultPath (w : World) : Bytes := w.tmp ++ b! "public_suffix_list.dat"

/-- 72 hours in nanoseconds. -/
def threeDays : Int := 259200000000000

/-- The source has a complete list with the section markers. -/
def Offers (w : World) (url body : Bytes) : Prop := w.net url = .status 200 body true ∧ HasMarkers body

/-- `url` is the first of the sources with a complete list. -/
def FirstOffer (w : World) (sources : List Bytes) (url body : Bytes) : Prop :=
  ∃ pre post, sources = pre ++ url :: post ∧ (∀ v ∈ pre, ∀ b, ¬ Offers w v b) ∧ Offers w url body

/-- Contents made from `old` by writing beginnings of offered lists over it. -/
inductive Layered (w : World) (old : Bytes) : Bytes → Prop
  | base : Layered w old old
  | layer {c url body : Bytes} (k : Nat) (h : Layered w old c) (ho : Offers w url body) :
      Layered w old (writeAt c 0 (body.take k))

/-- The marker at the end of the list. -/
def endMarker : Bytes := b! "// ===END PRIVATE DOMAINS==="

/-- The list ends, apart from blanks, with the line of the last section marker, and that marker does not occur
before. -/
def WellTerminated (body : Bytes) : Prop :=
  ∃ A Z, body = A ++ [10] ++ endMarker ++ Z ∧ (∀ b ∈ Z, b ∈ [(9 : UInt8), 10, 13, 32]) ∧
    ¬ endMarker <:+: A ++ [10] ++ endMarker.dropLast

/-- The same files at the same places. -/
def SameFiles (w w' : World) : Prop :=
  w'.nodes = w.nodes ∧ w'.loc = w.loc ∧ w'.absOf = w.absOf ∧ w'.tmp = w.tmp

/-- Every list that is offered is this one. -/
def OnlyOffers (w : World) (body : Bytes) : Prop := ∀ url b, Offers w url b → b = body

end Fasttld.Spec
