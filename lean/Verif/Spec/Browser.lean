import Verif.Spec.Extract

/-!
# Specification: where a browser finds the host

The URL Standard of the WHATWG (section 4.4, basic URL parser, without base URL), for the special schemes other than
`file`.  Only the text of the host is described: what the parser then rejects (ports, forbidden characters) is left out, so
that the relation holds also for URLs that a browser rejects later.  Nothing here refers to the library.
-/

namespace Fasttld.Spec
open Fasttld

/-- ASCII tab or newline: U+0009, U+000A, U+000D. -/
def isTabOrNewline (c : UInt8) : Bool := c == 9 || c == 10 || c == 13

/-- The special schemes other than `file`. -/
def specialSchemes : List Bytes := [b! "ftp", b! "http", b! "https", b! "ws", b! "wss"]

/-- "C0 control or space". -/
def c0OrSpace : List Nat := List.range 0x21

/-- Host state: the text up to the first `:` that is not inside square brackets. -/
inductive UpToColon : Bool → Bytes → Bytes → Prop
  | nil {inside : Bool} : UpToColon inside [] []
  | colon {t : Bytes} : UpToColon false (58 :: t) []
  | open {inside : Bool} {t h : Bytes} : UpToColon true t h → UpToColon inside (91 :: t) (91 :: h)
  | close {inside : Bool} {t h : Bytes} : UpToColon false t h → UpToColon inside (93 :: t) (93 :: h)
  | char {inside : Bool} {c : UInt8} {t h : Bytes} : c ≠ 91 → c ≠ 93 → (c = 58 → inside = true) → UpToColon inside t h →
      UpToColon inside (c :: t) (c :: h)

/-- A browser takes `url`, whose text without surrounding C0 controls and spaces is `t`, for a URL with the special scheme
`name`, and looks for its host in the text `host`: tabs and newlines are removed; after the colon any number of slashes and
backslashes is skipped; the authority ends before the first of `/ \ ? #`; what precedes its last `@` is not part of the
host; neither is a colon outside brackets and what follows it. -/
def BrowserHost (url t name host : Bytes) : Prop :=
  IsTrim true true c0OrSpace url t ∧
  ∃ sl rest auth more hostPort,
    t.filter (fun c => !isTabOrNewline c) = name ++ 58 :: sl ++ rest ∧ name.map lowerByte ∈ specialSchemes ∧
    (∀ c ∈ sl, isSlash c = true) ∧ (∀ c x, rest = c :: x → isSlash c = false) ∧
    CutAt isPathStart rest auth more ∧
    ((64 ∉ auth ∧ hostPort = auth) ∨ ∃ cred, auth = cred ++ 64 :: hostPort ∧ 64 ∉ hostPort) ∧
    UpToColon false hostPort host

/-- The text of the host that Extract judges, as it stands in the URL. -/
def HostPart.text : HostPart → Bytes
  | .bad _ => []
  | .name host _ => host
  | .literal inner _ => 91 :: inner ++ [93]

/-- The host that Extract judges: it stands at this place of the URL, and the result is the one that belongs to it. -/
def JudgedHost (idna : Idna) (rules : List Bytes) (e : URLParams) (r : ExtractResult) (host : Bytes) : Prop :=
  ∃ a part, Authority e.url r.scheme r.userInfo a ∧ HostAt a part ∧ part.text = host ∧
    Finished idna rules e r.scheme r.userInfo part r none

end Fasttld.Spec
