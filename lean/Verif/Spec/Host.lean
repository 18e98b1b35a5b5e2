import Verif.Spec.Utf8
import Verif.Spec.Chars
import Verif.Spec.Url
import Verif.Model.Psl

/-!
# Specification: the parts of a host name
-/

namespace Fasttld.Spec
open Fasttld

/-- `host` is, from left to right: the sub-domain and a separator, if there is a sub-domain part; the
domain; a separator and the suffix, if there is a suffix; and `tail`. -/
def Assembled (host sub dom suf tail : Bytes) : Prop :=
  ∃ front back, host = front ++ dom ++ back ++ tail ∧
    ((front = [] ∧ sub = []) ∨ ∃ s ∈ separators, front = sub ++ encode s) ∧
    ((back = [] ∧ suf = []) ∨ (suf ≠ [] ∧ ∃ s ∈ separators, back = encode s ++ suf))

/-- The text in which labels are looked for: without punycode conversion the host itself, which must decode to
something that `idna.ToUnicode` accepts; with it, the ASCII form of the decoded host (empty if there is none). -/
def HostTextOf (idna : Idna) (puny : Bool) (host n : Bytes) : Prop :=
  ∃ un, Decodes host un ∧ ((puny = false ∧ idna.toUnicodeErr un = none ∧ n = host) ∨
    (puny = true ∧ n = (idna.lookupASCII un).getD []))

/-- Label by label decoding. -/
def DecodesAll : List Bytes → List Bytes → Prop
  | [], [] => True
  | l :: ls, d :: ds => Decodes l d ∧ DecodesAll ls ds
  | _, _ => False

/-- A first label and further labels, each with the separator before it. -/
def joinLabels (first : Bytes) : List (Nat × Bytes) → Bytes
  | [] => first
  | (s, l) :: rest => first ++ encode s ++ joinLabels l rest

/-- `host` is made of labels, the last of which is not empty, and of separators at the end. -/
structure HostLabels (host first : Bytes) (rest : List (Nat × Bytes)) (tail : Bytes) : Prop where
  text : host = joinLabels first rest ++ tail
  free : FreeOf separators first ∧ ∀ p ∈ rest, p.1 ∈ separators ∧ FreeOf separators p.2
  tail : MadeOf separators tail
  last : (first :: rest.map Prod.snd).getLast? ≠ some []

/-- The labels from right to left. -/
def fromRight (first : Bytes) (rest : List (Nat × Bytes)) : List Bytes := (first :: rest.map Prod.snd).reverse

/-- The last `n` labels are the suffix, the one before is the domain, those before it are the sub-domain. -/
def CutLabels (first : Bytes) (rest : List (Nat × Bytes)) (n : Nat) (sub dom suf : Bytes) : Prop :=
  ∃ front back, rest = front ++ back ∧ back.length = n ∧
    (match back with
     | [] => suf = []
     | (_, l) :: more => suf = joinLabels l more) ∧
    ((front = [] ∧ dom = first ∧ sub = []) ∨
     ∃ f s l, front = f ++ [(s, l)] ∧ dom = l ∧ sub = joinLabels first f)

/-- `text` has these labels: a first one and further ones, each with the separator before it (empty labels too). -/
def LabelsOf (text first : Bytes) (rest : List (Nat × Bytes)) : Prop :=
  text = joinLabels first rest ∧ FreeOf separators first ∧ ∀ p ∈ rest, p.1 ∈ separators ∧ FreeOf separators p.2

/-- The same labels, perhaps with other separators between them. -/
def SameLabels (a b : Bytes) : Prop :=
  ∃ first rest rest', LabelsOf a first rest ∧ LabelsOf b first rest' ∧ rest.map Prod.snd = rest'.map Prod.snd

/-- There is no U+FF61 in the host, or no empty label other than those after the last separators. -/
def TidyLabels (n : Bytes) : Prop :=
  ¬ encode 0xFF61 <:+: n ∨ ∃ first rest tail, HostLabels n first rest tail ∧ first ≠ [] ∧ ∀ p ∈ rest, p.2 ≠ []

/-- Up to the case of ASCII letters. -/
def SameUpToCase (a b : Bytes) : Prop := a.map lowerByte = b.map lowerByte

/-- The characters that the library lists as invalid in host names (strings.go:23): white space, ASCII
punctuation other than `%`, `-` and `.`, and fifteen others. -/
def invalidChars : List Nat :=
  whiteSpace ++ [33, 34, 35, 36, 38, 39, 40, 41, 42, 43, 44, 47, 58, 59, 60, 61, 62, 63, 64, 91, 92, 93, 94, 95, 96,
    123, 124, 125, 126] ++
  [0x0378, 0x04c0, 0x06dd, 0x180e, 0x2025, 0x202e, 0x206b, 0x2183, 0x2a74, 0x2ff0, 0xfdd0, 0xff05, 0xff0f, 0xff1a,
    0xfffa]

/-- Three of them are accepted nevertheless: their code points end in the byte of an ASCII letter. -/
def missedChars : List Nat := [0x0378, 0x206b, 0x2a74]

/-- The separators other than U+FF61, whose code point ends in the byte of `a`. -/
def strictSeparators : List Nat := [0x2E, 0x3002, 0xFF0E]

/-- What the character check accepts: no `-` at either end, no separator (except U+FF61) at the start, no
two of these next to each other, no invalid character (except the three). -/
def HostCharsOK (s : Bytes) : Prop :=
  ¬ encode 45 <+: s ∧ ¬ encode 45 <:+ s ∧ (∀ a ∈ strictSeparators, ¬ encode a <+: s) ∧
  (∀ a ∈ strictSeparators, ∀ b ∈ strictSeparators, ¬ encode a ++ encode b <:+: s) ∧
  ∀ c ∈ invalidChars, c ∉ missedChars → ¬ encode c <:+: s

end Fasttld.Spec
