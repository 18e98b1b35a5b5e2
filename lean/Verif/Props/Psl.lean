import Verif.Proofs.Psl
import Verif.Props.Rules

/-!
# C29-C31: parsing the Public Suffix List
-/

set_option linter.unusedSimpArgs false

namespace Fasttld.Props
open Fasttld Fasttld.Spec

/-! ## C29: parsing is exact -/

/-- C29: the public suffixes are what the rule lines before the private section contribute, the private
suffixes what those after it contribute, each in order, and `allSuffixes` is both. -/
theorem C29_parse_exact (idna : Idna) {text : Bytes} {ts before after : List Bytes}
    (h : StrippedLines text ts) (hs : Sections ts before after) :
    parsePSL idna text = ⟨rulesOf idna.toASCII before, rulesOf idna.toASCII after,
      rulesOf idna.toASCII before ++ rulesOf idna.toASCII after⟩ :=
  parsePSL_eq idna h hs

/-- Every text has exactly one list of stripped lines, and that has exactly one division into sections. -/
theorem C29_format (text : Bytes) : ∃ ts before after, StrippedLines text ts ∧ Sections ts before after ∧
    ∀ ts' before' after', StrippedLines text ts' → Sections ts' before' after' →
      ts' = ts ∧ before' = before ∧ after' = after := by
  obtain ⟨b, a, h⟩ := sections_exists ((splitByte 10 text).map trimSpace)
  refine ⟨_, b, a, strippedLines_iff.2 rfl, h, ?_⟩
  intro ts' b' a' h1 h2
  obtain rfl := strippedLines_iff.1 h1
  obtain ⟨rfl, rfl⟩ := sections_unique h2 h
  exact ⟨rfl, rfl, rfl⟩

/-- An ASCII conversion that fails on "bad", changes "ä" and leaves everything else alone. -/
def exampleASCII (s : Bytes) : Option Bytes :=
  if s = b! "bad" then none else if s = b! "ä" then some (b! "xn--4ca") else some s

example : parsePSL ⟨exampleASCII, fun _ => none, fun _ => none⟩
    (b! "// c\ncom\r\n\n  ä \nbad\n// ===BEGIN PRIVATE DOMAINS===\nblogspot.com\n")
    = ⟨[b! "com", b! "xn--4ca", b! "ä"], [b! "blogspot.com"], [b! "com", b! "xn--4ca", b! "ä", b! "blogspot.com"]⟩ := by
  rw [C29_parse_exact _ (ts := [b! "// c", b! "com", [], b! "ä", b! "bad", privateMarker, b! "blogspot.com", []])
    (before := [b! "// c", b! "com", [], b! "ä", b! "bad"]) (after := [privateMarker, b! "blogspot.com", []])
    (strippedLines_iff.2 (by decide +kernel)) ⟨rfl, by decide +kernel, .inr ⟨_, rfl⟩⟩]
  decide +kernel

/-! ## C30: irrelevant lines and white space -/

/-- C30: texts whose stripped lines are the same, apart from blank lines and comments other than the marker,
are parsed the same.  Missing: the marker is itself a comment, and matters (`C30_marker_matters`). -/
theorem C30_irrelevant_lines_partial (idna : Idna) {text text' : Bytes} {ts ts' : List Bytes}
    (h : StrippedLines text ts) (h' : StrippedLines text' ts')
    (he : ts.filter (fun t => decide (IsRuleLine t ∨ t = privateMarker)) =
      ts'.filter (fun t => decide (IsRuleLine t ∨ t = privateMarker))) :
    parsePSL idna text = parsePSL idna text' :=
  parsePSL_matters idna h h' he

/-- C30: inserting a blank line or a comment other than the marker between two lines changes nothing.
Missing: the marker, as above. -/
theorem C30_insert_partial (idna : Idna) {A B : List Bytes} {l t : Bytes} (hA : ∀ x ∈ A ++ B, (10 : UInt8) ∉ x)
    (hne : A ++ B ≠ []) (hl : (10 : UInt8) ∉ l) (ht : Stripped l t) (hc : t = [] ∨ IsComment t ∧ t ≠ privateMarker) :
    parsePSL idna (List.intercalate [10] (A ++ l :: B)) = parsePSL idna (List.intercalate [10] (A ++ B)) := by
  have e1 := splitByte_unique 10 hne hA
  have e2 : splitByte 10 (List.intercalate [10] (A ++ l :: B)) = A ++ l :: B :=
    splitByte_unique 10 (by simp) (by
      intro x hx
      simp only [List.mem_append, List.mem_cons] at hx hA
      rcases hx with h | rfl | h
      · exact hA x (.inl h)
      · exact hl
      · exact hA x (.inr h))
  refine C30_irrelevant_lines_partial idna (strippedLines_iff.2 rfl) (strippedLines_iff.2 rfl) ?_
  rw [e1, e2]
  simp only [List.map_append, List.map_cons, List.filter_append, List.filter_cons]
  rw [← stripped_iff.1 ht]
  rw [if_neg]
  have : ¬ (IsRuleLine t ∨ t = privateMarker) := by
    rintro (⟨h1, h2⟩ | h)
    · rcases hc with h | h
      · exact h1 h
      · exact h2 h.1
    · rcases hc with h' | h'
      · rw [h] at h'; exact absurd h' (by decide)
      · exact h'.2 h
  simpa using this

example (idna : Idna) : parsePSL idna (b! "com\n \t// hello\nnet") = parsePSL idna (b! "com\nnet") :=
  C30_insert_partial idna (A := [b! "com"]) (B := [b! "net"]) (l := b! " \t// hello") (t := b! "// hello")
    (by decide +kernel) (by simp) (by decide +kernel) (stripped_iff.2 (by decide +kernel)) (.inr (by decide +kernel))

/-- C30: white space around the lines changes nothing. -/
theorem C30_white_space (idna : Idna) {ls ls' : List Bytes} (hne : ls ≠ []) (h10 : ∀ x ∈ ls, (10 : UInt8) ∉ x)
    (h10' : ∀ x ∈ ls', (10 : UInt8) ∉ x) (hlen : ls.length = ls'.length)
    (h : ∀ (i : Nat) l l', ls[i]? = some l → ls'[i]? = some l' →
      ∃ a b, MadeOf unicodeWhite a ∧ MadeOf unicodeWhite b ∧ l' = a ++ l ++ b) :
    parsePSL idna (List.intercalate [10] ls') = parsePSL idna (List.intercalate [10] ls) := by
  have e1 := splitByte_unique 10 hne h10
  have e2 := splitByte_unique 10 (by rintro rfl; simp at hlen; exact hne hlen) h10'
  refine C30_irrelevant_lines_partial idna (strippedLines_iff.2 rfl) (strippedLines_iff.2 rfl) ?_
  rw [e1, e2]
  congr 1
  apply List.ext_getElem?
  intro i
  rw [List.getElem?_map, List.getElem?_map]
  by_cases hi : i < ls.length
  · have e1 : ls[i]? = some ls[i] := List.getElem?_eq_getElem hi
    have e2 : ls'[i]? = some (ls'[i]'(by omega)) := List.getElem?_eq_getElem (by omega)
    obtain ⟨a, b, ha, hb, hab⟩ := h i _ _ e1 e2
    rw [e1, e2, Option.map_some, Option.map_some, hab]
    congr 1
    symm
    rw [← stripped_iff]
    obtain ⟨a', b', h1, h2, h3, -, -, h6, h7⟩ := stripped_iff.2 (rfl : trimSpace ls[i] = trimSpace ls[i])
    refine ⟨a ++ a', b' ++ b, ?_, ha.append h2, h3.append hb, by simp, by simp, h6, h7⟩
    conv => lhs; rw [h1]
    simp
  · rw [List.getElem?_eq_none (by omega), List.getElem?_eq_none (by omega)]

/-- C30: line ends of carriage return and line feed are as good as line feeds. -/
theorem C30_crlf (idna : Idna) {ls : List Bytes} (hne : ls ≠ []) (h10 : ∀ x ∈ ls, (10 : UInt8) ∉ x) :
    parsePSL idna (List.intercalate [13, 10] ls) = parsePSL idna (List.intercalate [10] ls) := by
  have key : ∀ ls : List Bytes, ls ≠ [] → (∀ x ∈ ls, (10 : UInt8) ∉ x) →
      ∃ ls', (∀ x ∈ ls', (10 : UInt8) ∉ x) ∧ ls.length = ls'.length ∧
        List.intercalate [13, 10] ls = List.intercalate [10] ls' ∧
        ∀ (i : Nat) l l', ls[i]? = some l → ls'[i]? = some l' → l' = l ∨ l' = l ++ [13] := by
    intro ls
    induction ls with
    | nil => simp
    | cons l ls ih =>
      intro _ h
      cases ls with
      | nil => exact ⟨[l], h, rfl, rfl, by intro i l l' h1 h2; left; simp_all⟩
      | cons m ls =>
        obtain ⟨ls', h1, h2, h3, h4⟩ := ih (by simp) (fun x hx => h x (by simp at hx; simp [hx]))
        refine ⟨(l ++ [13]) :: ls', ?_, by simp at h2 ⊢; omega, ?_, ?_⟩
        · intro x hx
          rcases List.mem_cons.1 hx with rfl | hx
          · simpa using h l (by simp)
          · exact h1 x hx
        · cases ls' with
          | nil => simp at h2
          | cons m' ls' => rw [intercalate_cons_cons, intercalate_cons_cons, h3]; simp
        · intro i l₁ l₂ e1 e2
          cases i with
          | zero => simp at e1 e2; right; rw [← e1, ← e2]
          | succ i => exact h4 i _ _ (by simpa using e1) (by simpa using e2)
  obtain ⟨ls', h1, h2, h3, h4⟩ := key ls hne h10
  rw [h3]
  apply C30_white_space idna hne h10 h1 h2
  intro i l l' e1 e2
  rcases h4 i l l' e1 e2 with h | h
  · exact ⟨[], [], madeOf_nil _, madeOf_nil _, by simp [h]⟩
  · exact ⟨[], [13], madeOf_nil _, ⟨[13], by decide, by decide⟩, by simp [h]⟩

example (idna : Idna) : parsePSL idna (b! "// c\r\ncom\r\n") = parsePSL idna (b! "// c\ncom\n") :=
  C30_crlf idna (ls := [b! "// c", b! "com", []]) (by simp) (by decide +kernel)

/-- The marker is a comment that matters. -/
theorem C30_marker_matters : parsePSL ⟨some, some, some⟩ (b! "com\n// ===BEGIN PRIVATE DOMAINS===\nnet") ≠
    parsePSL ⟨some, some, some⟩ (b! "com\nnet") := by decide +kernel

/-! ## C31: hiding the private section -/

/-- C31: without private suffixes, the rules do not depend on what follows the line that begins the private
section. -/
theorem C31_private_hidden (idna : Idna) (e : URLParams) {text text' : Bytes} {before after after' : List Bytes}
    (h : StrippedLines text (before ++ privateMarker :: after))
    (h' : StrippedLines text' (before ++ privateMarker :: after')) :
    (parsePSL idna text).publicSuffixes = (parsePSL idna text').publicSuffixes ∧
    extract idna (trieOfText idna false text) e = extract idna (trieOfText idna false text') e := by
  have key : (parsePSL idna text).publicSuffixes = (parsePSL idna text').publicSuffixes := by
    obtain ⟨b, a, hs⟩ := sections_exists before
    rcases hs.2.2 with rfl | ⟨r, rfl⟩
    · have hb : before = b := by simpa using hs.1
      subst hb
      rw [parsePSL_eq idna h ⟨rfl, hs.2.1, .inr ⟨after, rfl⟩⟩, parsePSL_eq idna h' ⟨rfl, hs.2.1, .inr ⟨after', rfl⟩⟩]
    · obtain ⟨rfl, h2, -⟩ := hs
      rw [parsePSL_eq idna h (before := b) (after := privateMarker :: (r ++ privateMarker :: after)) ⟨by simp, h2, .inr ⟨_, rfl⟩⟩,
        parsePSL_eq idna h' (before := b) (after := privateMarker :: (r ++ privateMarker :: after')) ⟨by simp, h2, .inr ⟨_, rfl⟩⟩]
  refine ⟨key, ?_⟩
  simp only [trieOfText, Bool.false_eq_true, if_false, key]

/-- C31, in bytes: everything after the marker can be replaced. -/
theorem C31_private_hidden_bytes (idna : Idna) (e : URLParams) (A B B' : Bytes) :
    extract idna (trieOfText idna false (A ++ b! "\n// ===BEGIN PRIVATE DOMAINS===\n" ++ B)) e =
    extract idna (trieOfText idna false (A ++ b! "\n// ===BEGIN PRIVATE DOMAINS===\n" ++ B')) e := by
  have key : ∀ C, StrippedLines (A ++ b! "\n// ===BEGIN PRIVATE DOMAINS===\n" ++ C)
      ((splitByte 10 A).map trimSpace ++ privateMarker :: (splitByte 10 C).map trimSpace) := by
    intro C
    rw [strippedLines_iff]
    have h : A ++ b! "\n// ===BEGIN PRIVATE DOMAINS===\n" ++ C =
        List.intercalate [10] (splitByte 10 A ++ privateMarker :: splitByte 10 C) := by
      rw [intercalate_append (splitByte_ne_nil _ _) (by simp), splitByte_join]
      cases hC : splitByte 10 C with
      | nil => exact absurd hC (splitByte_ne_nil _ _)
      | cons w ws =>
        rw [intercalate_cons_cons, ← hC, splitByte_join]
        have : b! "\n// ===BEGIN PRIVATE DOMAINS===\n" = [10] ++ privateMarker ++ [10] := by decide
        rw [this]; simp
    rw [h, splitByte_unique 10 (by simp)]
    · rw [List.map_append, List.map_cons]
      have : trimSpace privateMarker = privateMarker := by decide +kernel
      rw [this]
    · intro x hx
      simp only [List.mem_append, List.mem_cons] at hx
      rcases hx with h | rfl | h
      · exact splitByte_free _ _ x h
      · decide
      · exact splitByte_free _ _ x h
  exact (C31_private_hidden idna e (key B) (key B')).2

/-- With private suffixes the private section counts. -/
example : extract idId (trieOfText idId true (b! "com\n// ===BEGIN PRIVATE DOMAINS===\nblogspot.com")) ⟨b! "a.blogspot.com", false, false⟩ ≠
    extract idId (trieOfText idId true (b! "com\n// ===BEGIN PRIVATE DOMAINS===\n")) ⟨b! "a.blogspot.com", false, false⟩ := by
  decide +kernel

example (e : URLParams) : extract idId (trieOfText idId false (b! "com\n// ===BEGIN PRIVATE DOMAINS===\nblogspot.com")) e =
    extract idId (trieOfText idId false (b! "com\n// ===BEGIN PRIVATE DOMAINS===\n")) e :=
  C31_private_hidden_bytes idId e (b! "com") (b! "blogspot.com") []

end Fasttld.Props
