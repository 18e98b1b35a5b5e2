import Verif.Spec.Host
import Verif.Spec.Rules
import Verif.Model.Extract

/-!
# Specification: all of Extract

Which result and which error belong to a URL and a list of rules, for every URL.  Only concatenation, label lists and
membership of rules are used: no index into a string, no trie, no loop.
-/

namespace Fasttld.Spec
open Fasttld

/-! ## The host in the text after the userinfo -/

/-- What the text after the userinfo holds: misplaced brackets, a host name and what follows it, or a text in square
brackets and what follows it. -/
inductive HostPart
  | bad (e : Err)
  | name (host after : Bytes)
  | literal (inner after : Bytes)
  deriving DecidableEq, Repr

/-- Neither `[` nor `]`. -/
def NoBrackets (s : Bytes) : Prop := ∀ c ∈ s, c ≠ 91 ∧ c ≠ 93

/-- Neither `[` nor the start of a path. -/
def BeforePath (s : Bytes) : Prop := ∀ c ∈ s, isPathStart c = false ∧ c ≠ 91

/-- Where the host is in `a`. -/
inductive HostAt : Bytes → HostPart → Prop
  /-- no bracket: the host goes on to the first of `/ \ ? # :` -/
  | name {host after : Bytes} : IsPlainHost host → (∀ x t, after = x :: t → isHostEnd x = true) →
      HostAt (host ++ after) (.name host after)
  /-- an opening bracket inside a host name -/
  | openLate {c : UInt8} {host x : Bytes} : IsPlainHost (c :: host) →
      HostAt (c :: host ++ 91 :: x) (.bad .openingBracketNotFirst)
  /-- a closing bracket in a host that does not begin with `[` -/
  | closeOnly {host x : Bytes} : IsPlainHost host → HostAt (host ++ 93 :: x) (.bad .closingWithoutOpening)
  /-- a second opening bracket before the closing one -/
  | openTwice {y x : Bytes} : NoBrackets y → HostAt (91 :: y ++ 91 :: x) (.bad .openingBracketNotFirst)
  /-- a second opening bracket after the closing one, before the path -/
  | openAgain {y z x : Bytes} : NoBrackets y → BeforePath z →
      HostAt (91 :: y ++ 93 :: z ++ 91 :: x) (.bad .openingBracketNotFirst)
  /-- no closing bracket -/
  | neverClosed {y : Bytes} : NoBrackets y → HostAt (91 :: y) (.bad .incompleteBrackets)
  /-- the closing bracket is the last one before the path -/
  | literal {y z inner rest path : Bytes} : NoBrackets y → BeforePath z → y ++ 93 :: z = inner ++ 93 :: rest →
      93 ∉ rest → (∀ x t, path = x :: t → isPathStart x = true) →
      HostAt (91 :: inner ++ 93 :: rest ++ path) (.literal inner (rest ++ path))

/-- The first `%` that does not begin an escape, with at most two bytes after it. -/
def FirstBadEscape (s esc : Bytes) : Prop :=
  ∃ a b, s = a ++ 37 :: b ∧ (∃ r, Decodes a r) ∧
    (∀ h l t n m, b = h :: l :: t → hexDigit h = some n → hexDigit l ≠ some m) ∧ esc = (37 :: b).take 3

/-! ## Labels and rules -/

/-- The labels of a host and the separators at its end; only the first label may be an empty last one. -/
structure HostShape (host first : Bytes) (rest : List (Nat × Bytes)) (tail : Bytes) : Prop where
  text : host = joinLabels first rest ++ tail
  free : FreeOf separators first ∧ ∀ p ∈ rest, p.1 ∈ separators ∧ FreeOf separators p.2
  tail : MadeOf separators tail
  last : ∀ f s, rest ≠ f ++ [(s, [])]

/-- Label by label decoding; a label with a malformed escape counts as empty. -/
def LabelValues : List Bytes → List Bytes → Prop
  | [], [] => True
  | l :: ls, d :: ds => (Decodes l d ∨ (BadEscape l ∧ d = [])) ∧ LabelValues ls ds
  | _, _ => False

/-- Some rule begins (at the right) with these labels. -/
def Known (rules : List Bytes) (p : List Bytes) : Prop := p = [] ∨ PrefixAt rules p

/-- A suffix can end here: the labels are a rule, or one label that is the parent of a wildcard. -/
def Marked (rules : List Bytes) (p : List Bytes) : Prop := RuleAt rules p ∨ ∃ l, p = [l] ∧ PrefixAt rules [l, star]

/-- Longer rules exist (at the root one always looks at a label). -/
def Open (rules : List Bytes) (p : List Bytes) : Prop := p = [] ∨ ∃ x, Known rules (p ++ [x])

/-- The first `m` labels from the right (`ls` as written, `ds` decoded) can be followed in the rules: they are known, no
wildcard applies on the way, and none of them is empty, unless it is the leftmost label. -/
structure Follows (rules : List Bytes) (ls ds : List Bytes) (m : Nat) : Prop where
  le : m ≤ ls.length
  known : Known rules (ds.take m)
  noStar : ∀ j < m, ¬ Known rules (ds.take j ++ [star])
  nonempty : ∀ j < m, j + 1 < ls.length → ls[j]? ≠ some []

/-- Why nothing is followed after `m` labels, with the number of labels to the right of the last one looked at, and the
number of labels to the right of the domain. -/
inductive Stops (rules : List Bytes) (ls ds : List Bytes) : (m seen cut : Nat) → Prop
  /-- there are no longer rules, or no more labels -/
  | all {m} : m + 1 = ls.length ∨ ¬ Open rules (ds.take (m + 1)) → Stops rules ls ds (m + 1) m (m + 1)
  /-- no rule goes on with the next label -/
  | unknown {m l} : Open rules (ds.take m) → ls[m]? = some l → (m + 1 < ls.length → l ≠ []) →
      ¬ Known rules (ds.take m ++ [star]) → ¬ Known rules (ds.take (m + 1)) → Stops rules ls ds m m m
  /-- a wildcard applies, but there is an exception for the next label, as written -/
  | exception {m l} : ls[m]? = some l → (m + 1 < ls.length → l ≠ []) →
      Known rules (ds.take m ++ [star]) → Known rules (ds.take m ++ [33 :: l]) → Stops rules ls ds m m m
  /-- a wildcard applies: the next label belongs to the suffix -/
  | wildcard {m l} : ls[m]? = some l → (m + 1 < ls.length → l ≠ []) →
      Known rules (ds.take m ++ [star]) → ¬ Known rules (ds.take m ++ [33 :: l]) → Stops rules ls ds m m (m + 1)

/-- The first place, from the right, where a suffix can end. -/
inductive FirstMark (rules : List Bytes) (ds : List Bytes) (m : Nat) : Option Nat → Prop
  | none : (∀ j < m, ¬ Marked rules (ds.take (j + 1))) → FirstMark rules ds m none
  | at {e} : e < m → Marked rules (ds.take (e + 1)) → (∀ j < e, ¬ Marked rules (ds.take (j + 1))) →
      FirstMark rules ds m (some e)

/-- What following the labels in the rules gives. -/
structure Walked where
  matched : Nat
  seen : Nat
  cut : Nat
  mark : Option Nat

/-- Follow the labels as far as possible; `none` if an empty label comes next, other than the leftmost one. -/
inductive Reading (rules : List Bytes) (ls ds : List Bytes) : Option Walked → Prop
  | stuck {m} : Follows rules ls ds m → Open rules (ds.take m) → ls[m]? = some [] → m + 1 < ls.length →
      Reading rules ls ds none
  | ends {m seen cut mark} : Follows rules ls ds m → Stops rules ls ds m seen cut → FirstMark rules ds m mark →
      Reading rules ls ds (some ⟨m, seen, cut, mark⟩)

/-! ## The parts of a host name -/

/-- The text without its last `k` labels. -/
def textTo (first : Bytes) (rest : List (Nat × Bytes)) (k : Nat) : Bytes :=
  joinLabels first (rest.take (rest.length - k))

/-- The last label is the domain, those before it are the sub-domain. -/
def SubAndDomain (first : Bytes) (front : List (Nat × Bytes)) (sub dom : Bytes) : Prop :=
  (front = [] ∧ dom = first ∧ sub = []) ∨ ∃ f s l, front = f ++ [(s, l)] ∧ dom = l ∧ sub = joinLabels first f

/-- Sub-domain, domain, suffix and registered domain. -/
inductive Parts (first : Bytes) (rest : List (Nat × Bytes)) :
    (mark : Option Nat) → (cut : Nat) → (sub dom suf reg : Bytes) → Prop
  | noSuffix {cut sub dom} : SubAndDomain first rest sub dom → Parts first rest none cut sub dom [] []
  | suffix {front s l more back e cut sub dom} : rest = front ++ (s, l) :: more ++ back → back.length = e →
      e + (more.length + 1) = cut → SubAndDomain first front sub dom →
      Parts first rest (some e) cut sub dom (joinLabels l more) (joinLabels dom ((s, l) :: more))
  | suffixOnly {front back e cut} : rest = front ++ back → back.length = e → rest.length < cut →
      Parts first rest (some e) cut [] [] (joinLabels first front) []

/-- The text in which invalid characters are looked for. -/
inductive Checked (n first : Bytes) (rest : List (Nat × Bytes)) (w : Walked) : Bytes → Prop
  | noSuffix : w.mark = none → Checked n first rest w (textTo first rest w.seen)
  | suffix {e} : w.mark = some e → w.cut ≤ rest.length → Checked n first rest w (textTo first rest w.matched)
  | suffixOnly {e} : w.mark = some e → rest.length < w.cut → Checked n first rest w n

/-- The host part of the result, and the error. -/
inductive Judged (ignoreSub : Bool) (n first : Bytes) (rest : List (Nat × Bytes)) :
    Option Walked → ExtractResult → Option Err → Prop
  | consecutive : Judged ignoreSub n first rest none {} (some .consecutiveSeparators)
  | ipv4 {w} : IsIPv4 n → Judged ignoreSub n first rest (some w)
      { hostType := .iPv4, domain := textTo first rest w.seen, registeredDomain := textTo first rest w.seen } none
  | invalid {w t} : ¬ IsIPv4 n → Checked n first rest w t → ¬ HostCharsOK t →
      Judged ignoreSub n first rest (some w) {} (some .invalidCharacters)
  | noDomain {w t sub suf reg} : ¬ IsIPv4 n → Checked n first rest w t → HostCharsOK t →
      Parts first rest w.mark w.cut sub [] suf reg →
      Judged ignoreSub n first rest (some w)
        { subDomain := if ignoreSub then [] else sub, suffix := suf, registeredDomain := reg } (some .emptyDomain)
  | name {w t sub dom suf reg} : ¬ IsIPv4 n → Checked n first rest w t → HostCharsOK t →
      Parts first rest w.mark w.cut sub dom suf reg → dom ≠ [] →
      Judged ignoreSub n first rest (some w)
        { hostType := .hostName, subDomain := if ignoreSub then [] else sub, domain := dom, suffix := suf,
          registeredDomain := reg } none

/-- The host part of the result for the host text `n`. -/
def HostResult (rules : List Bytes) (ignoreSub : Bool) (n : Bytes) (r : ExtractResult) (err : Option Err) : Prop :=
  ∃ first rest tail ds w, HostShape n first rest tail ∧ LabelValues (fromRight first rest) ds ∧
    Reading rules (fromRight first rest) ds w ∧ Judged ignoreSub n first rest w r err

/-! ## The whole result -/

/-- Scheme and userinfo are known; the rest of the result depends on what follows them. -/
inductive Finished (idna : Idna) (rules : List Bytes) (e : URLParams) (sch ui : Bytes) :
    HostPart → ExtractResult → Option Err → Prop
  | brackets {er} : Finished idna rules e sch ui (.bad er) { scheme := sch, userInfo := ui } (some er)
  | notIPv6 {inner after} : ¬ IsIPv6 IsIPv4 inner →
      Finished idna rules e sch ui (.literal inner after) { scheme := sch, userInfo := ui } (some .invalidIPv6)
  | trailing {inner c t} : IsIPv6 IsIPv4 inner → isHostEnd c = false →
      Finished idna rules e sch ui (.literal inner (c :: t)) { scheme := sch, userInfo := ui }
        (some .trailingAfterIPv6)
  | ipv6Port {inner after} : IsIPv6 IsIPv4 inner → (∀ x t, after = x :: t → isHostEnd x = true) →
      (∀ port path, ¬ AfterHost after port path) →
      Finished idna rules e sch ui (.literal inner after)
        { scheme := sch, userInfo := ui, hostType := .iPv6, domain := inner, registeredDomain := inner }
        (some .invalidPort)
  | ipv6 {inner after port path} : IsIPv6 IsIPv4 inner → AfterHost after port path →
      Finished idna rules e sch ui (.literal inner after)
        { scheme := sch, userInfo := ui, hostType := .iPv6, domain := inner, registeredDomain := inner,
          port := port, path := path } none
  | namePort {host after} : (∀ port path, ¬ AfterHost after port path) →
      Finished idna rules e sch ui (.name host after) { scheme := sch, userInfo := ui } (some .invalidPort)
  | escape {host after port path esc} : AfterHost after port path → FirstBadEscape host esc →
      Finished idna rules e sch ui (.name host after)
        { scheme := sch, userInfo := ui, port := port, path := path } (some (.badEscape esc))
  | idna {host after port path un msg} : AfterHost after port path → Decodes host un →
      e.convertURLToPunyCode = false → idna.toUnicodeErr un = some msg →
      Finished idna rules e sch ui (.name host after)
        { scheme := sch, userInfo := ui, port := port, path := path } (some (.idna msg))
  | host {host after port path n r err} : AfterHost after port path →
      HostTextOf idna e.convertURLToPunyCode host n → HostResult rules e.ignoreSubDomains n r err →
      Finished idna rules e sch ui (.name host after)
        { r with scheme := sch, userInfo := ui, port := port, path := path } err

/-- `r` and `err` are the result and the error that belong to `e` under `rules`. -/
def Extracts (idna : Idna) (rules : List Bytes) (e : URLParams) (r : ExtractResult) (err : Option Err) : Prop :=
  ∃ sch ui a part, Authority e.url sch ui a ∧ HostAt a part ∧ Finished idna rules e sch ui part r err

end Fasttld.Spec
