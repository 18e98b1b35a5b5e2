import Verif.Spec.Utf8

/-!
# Specification: the file format of the Public Suffix List

https://publicsuffix.org/list/, section "Format": lines, comments, blank lines, sections.
-/

namespace Fasttld.Spec
open Fasttld

/-- Characters with the Unicode property White_Space (PropList.txt). -/
def unicodeWhite : List Nat :=
  (List.range' 0x9 5) ++ [0x20, 0x85, 0xA0, 0x1680] ++ (List.range' 0x2000 11) ++ [0x2028, 0x2029, 0x202F, 0x205F, 0x3000]

/-- `ls` are the lines of `text`: the pieces between line feeds. -/
def IsLines (text : Bytes) (ls : List Bytes) : Prop :=
  ls ≠ [] ∧ (∀ l ∈ ls, 10 ∉ l) ∧ text = List.intercalate [10] ls

/-- `t` is `l` without the white space around it. -/
def Stripped (l t : Bytes) : Prop := IsTrim true true unicodeWhite l t

/-- `ts` are the lines of `text`, each without the white space around it. -/
def StrippedLines (text : Bytes) (ts : List Bytes) : Prop :=
  ∃ ls, IsLines text ls ∧ ls.length = ts.length ∧ ∀ (i : Nat) l t, ls[i]? = some l → ts[i]? = some t → Stripped l t

/-- A comment, without the white space around it. -/
def IsComment (t : Bytes) : Prop := b! "//" <+: t

instance (t : Bytes) : Decidable (IsComment t) := by unfold IsComment; infer_instance

/-- The comment that begins the section of private domains. -/
def privateMarker : Bytes := b! "// ===BEGIN PRIVATE DOMAINS==="

/-- A line, without the white space around it, that holds a rule. -/
def IsRuleLine (t : Bytes) : Prop := t ≠ [] ∧ ¬ IsComment t

instance (t : Bytes) : Decidable (IsRuleLine t) := by unfold IsRuleLine; infer_instance

/-- What a rule contributes: its ASCII form, if it has one, and the rule itself if that is different. -/
def contributes (toASCII : Bytes → Option Bytes) (rule : Bytes) : List Bytes :=
  match toASCII rule with
  | none => []
  | some a => if a = rule then [rule] else [a, rule]

/-- The rules of a list of stripped lines, in order. -/
def rulesOf (toASCII : Bytes → Option Bytes) (ts : List Bytes) : List Bytes :=
  (ts.filter (fun t => decide (IsRuleLine t))).flatMap (contributes toASCII)

/-- `before` and `after` divide the lines at the first line that begins the section of private domains. -/
def Sections (ts before after : List Bytes) : Prop :=
  ts = before ++ after ∧ privateMarker ∉ before ∧ (after = [] ∨ ∃ rest, after = privateMarker :: rest)

/-- How `toASCII` converts `rules`: label by label by `f`, which leaves labels in ASCII alone and gives the others the
prefix `xn--` (RFC 5890, section 2.3.2.1). -/
structure ByLabel (toASCII : Bytes → Option Bytes) (f : Bytes → Bytes) (rules : List Bytes) : Prop where
  ascii : ∀ l, (∀ b ∈ l, b < 128) → f l = l
  other : ∀ l, ¬ (∀ b ∈ l, b < 128) → ∃ t, f l = b! "xn--" ++ t ∧ (46 ∉ l → 46 ∉ t)
  rule : ∀ r ∈ rules, ∀ ls, ls ≠ [] → (∀ l ∈ ls, 46 ∉ l) → r = List.intercalate [46] ls →
    toASCII r = some (List.intercalate [46] (ls.map f))

end Fasttld.Spec
