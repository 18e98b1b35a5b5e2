import Verif.Model.Psl
import Verif.Proofs.Trim
import Verif.Proofs.Trie
import Verif.Spec.Psl

/-!
# The list parser against the file format
-/

set_option linter.unusedSimpArgs false

namespace Fasttld
open Spec

/-! ## strings.TrimSpace -/

theorem decode_toks {s : Bytes} {t B} (h : toks s = t :: B) :
    decodeRune s = (t.1, t.2.length) ∧ s = t.2 ++ flat B := by
  have hs : s = t.2 ++ flat B := by rw [← flat_toks s, h]; simp
  refine ⟨?_, hs⟩
  induction s using toks_induction with
  | nil => simp at h
  | enc r q hr =>
    rw [toks_encode hr] at h
    simp only [List.cons.injEq] at h
    rw [decode_encode hr, ← h.1]
  | err b q hd =>
    rw [toks_error hd] at h
    simp only [List.cons.injEq] at h
    rw [hd, ← h.1]; rfl

theorem toks_eq_nil {s : Bytes} : toks s = [] ↔ s = [] := by
  constructor
  · intro h; rw [← flat_toks s, h]; rfl
  · rintro rfl; simp

theorem dropSpaces_eq (n : Nat) (s : Bytes) (h : s.length ≤ n) :
    dropSpaces n s = flat ((toks s).dropWhile (inSet unicodeSpaces)) := by
  induction n generalizing s with
  | zero =>
    have : s = [] := List.length_eq_zero_iff.1 (by omega)
    subst this; simp [dropSpaces]
  | succ n ih =>
    cases ht : toks s with
    | nil =>
      obtain rfl := toks_eq_nil.1 ht
      simp [dropSpaces]
    | cons t B =>
      obtain ⟨h1, h2⟩ := decode_toks ht
      have hne : s ≠ [] := by rintro rfl; simp at ht
      have htk : IsTok t := isTok_of_mem (s := s) (by simp [ht])
      have hB : toks (flat B) = B := (toks_flat_split (A := [t]) (B := B) (by simpa using ht)).2
      simp only [dropSpaces, h1]
      by_cases hin : inSet unicodeSpaces t = true
      · have hx : s.drop t.2.length = flat B := by rw [h2]; simp
        have hl : (flat B).length ≤ n := by
          have := htk.ne_nil
          have h3 : 0 < t.2.length := List.length_pos_iff.2 this
          have h4 := congrArg List.length h2
          simp at h4; omega
        rw [if_pos ⟨hne, hin⟩, hx, ih _ hl, hB, List.dropWhile_cons_of_pos hin]
      · rw [if_neg (fun hc => hin hc.2), List.dropWhile_cons_of_neg hin, ← ht, flat_toks]

theorem dropSpacesEnd_eq (n : Nat) (s : Bytes) (h : s.length ≤ n) :
    dropSpacesEnd n s = flat (dropWhileEnd (inSet unicodeSpaces) (toks s)) := by
  induction n generalizing s with
  | zero =>
    have : s = [] := List.length_eq_zero_iff.1 (by omega)
    subst this; simp [dropSpacesEnd]
  | succ n ih =>
    rcases List.eq_nil_or_concat (toks s) with ht | ⟨A, t, ht⟩
    · obtain rfl := toks_eq_nil.1 ht
      simp [dropSpacesEnd]
    · rw [List.concat_eq_append] at ht
      obtain ⟨h1, h2⟩ := decodeLast_toks ht
      have hne : s ≠ [] := by rintro rfl; simp at ht
      have htk : IsTok t := isTok_of_mem (s := s) (by simp [ht])
      have hA : toks (flat A) = A := (toks_flat_split ht).1
      simp only [dropSpacesEnd, h1]
      by_cases hin : inSet unicodeSpaces t = true
      · have hx : s.take (s.length - t.2.length) = flat A := by rw [h2]; simp
        have hl : (flat A).length ≤ n := by
          have := htk.ne_nil
          have h3 : 0 < t.2.length := List.length_pos_iff.2 this
          have h4 := congrArg List.length h2
          simp at h4; omega
        rw [if_pos ⟨hne, hin⟩, hx, ih _ hl, hA, ht, dropWhileEnd_append_pos _ _ hin]
      · rw [if_neg (fun hc => hin hc.2), ht, dropWhileEnd_append_neg _ _ (by simpa using hin), ← ht, flat_toks]

/-- `strings.TrimSpace` is the trimming of strings.go with another set. -/
theorem trimSpace_eq (s : Bytes) : fastTrim s unicodeSpaces .trimBoth = .ok (trimSpace s) := by
  rw [fastTrim_eq]
  unfold trimSpace
  simp only
  rw [dropSpacesEnd_eq _ _ (Nat.le_refl _), dropSpaces_eq _ _ (Nat.le_refl _)]
  obtain ⟨A, h1, -, -⟩ := dropWhile_decomp (inSet unicodeSpaces) (toks s)
  rw [(toks_flat_split h1).2]
  rfl

theorem unicodeWhite_eq : unicodeWhite = unicodeSpaces := by decide
theorem goodSet_unicodeSpaces : GoodSet unicodeSpaces := by decide

theorem stripped_iff {l t : Bytes} : Stripped l t ↔ t = trimSpace l := by
  unfold Stripped
  rw [unicodeWhite_eq]
  constructor
  · intro h
    have := fastTrim_of_isTrim goodSet_unicodeSpaces (mode := .trimBoth) h
    rw [trimSpace_eq] at this
    injection this with h; exact h.symm
  · rintro rfl
    obtain ⟨t, h1, h2⟩ := fastTrim_isTrim goodSet_unicodeSpaces l .trimBoth
    rw [trimSpace_eq] at h1
    injection h1 with h; rw [h]; exact h2

/-! ## Lines -/

theorem intercalate_append {sep : Bytes} {A B : List Bytes} (hA : A ≠ []) (hB : B ≠ []) :
    List.intercalate sep (A ++ B) = List.intercalate sep A ++ sep ++ List.intercalate sep B := by
  induction A with
  | nil => exact absurd rfl hA
  | cons a A ih =>
    cases A with
    | nil =>
      cases B with
      | nil => exact absurd rfl hB
      | cons b B => rw [List.singleton_append, intercalate_cons_cons, intercalate_singleton]
    | cons a' A =>
      rw [List.cons_append, List.cons_append, intercalate_cons_cons, ← List.cons_append, ih (by simp),
        intercalate_cons_cons]
      simp

theorem isLines_iff {text : Bytes} {ls} : IsLines text ls ↔ ls = splitByte 10 text := by
  constructor
  · rintro ⟨h1, h2, rfl⟩; rw [splitByte_unique 10 h1 h2]
  · rintro rfl; exact ⟨splitByte_ne_nil _ _, splitByte_free _ _, (splitByte_join _ _).symm⟩

theorem strippedLines_iff {text : Bytes} {ts} : StrippedLines text ts ↔ ts = (splitByte 10 text).map trimSpace := by
  constructor
  · rintro ⟨ls, h1, h2, h3⟩
    rw [← isLines_iff.1 h1]
    apply List.ext_getElem?
    intro i
    rw [List.getElem?_map]
    by_cases hi : i < ls.length
    · have e1 : ls[i]? = some ls[i] := List.getElem?_eq_getElem hi
      have e2 : ts[i]? = some (ts[i]'(by omega)) := List.getElem?_eq_getElem (by omega)
      rw [e1, e2, Option.map_some, stripped_iff.1 (h3 i _ _ e1 e2)]
    · rw [List.getElem?_eq_none (by omega), List.getElem?_eq_none (by omega)]; rfl
  · rintro rfl
    refine ⟨_, isLines_iff.2 rfl, by simp, ?_⟩
    intro i l t h1 h2
    rw [List.getElem?_map, h1] at h2
    simp only [Option.map_some, Option.some.injEq] at h2
    exact stripped_iff.2 h2.symm

/-! ## The parser -/

/-- psl.go:30-63 on a line without white space around it, without accumulator. -/
theorem processLine_eq (idna : Idna) (raw : Bytes) (psl : Suffixes) (priv : Bool) :
    processLine idna raw psl priv =
      let t := trimSpace raw
      let p := priv || decide (t = privateMarker)
      let es := rulesOf idna.toASCII [t]
      (⟨psl.publicSuffixes ++ (if p then [] else es), psl.privateSuffixes ++ (if p then es else []),
        psl.allSuffixes ++ es⟩, p) := by
  unfold processLine
  simp only
  have hm : (if beginPrivate = trimSpace raw then true else priv) = (priv || decide (trimSpace raw = privateMarker)) := by
    have : beginPrivate = privateMarker := rfl
    rw [this]
    by_cases h : privateMarker = trimSpace raw
    · rw [if_pos h, decide_eq_true h.symm]; simp
    · rw [if_neg h, decide_eq_false (Ne.symm h)]; simp
  rw [hm]
  generalize (priv || decide (trimSpace raw = privateMarker)) = p
  generalize trimSpace raw = t
  have hr : (t.length = 0 ∨ (b! "//").isPrefixOf t = true) ↔ ¬ IsRuleLine t := by
    unfold IsRuleLine IsComment
    rw [List.isPrefixOf_iff_prefix, List.length_eq_zero_iff]
    by_cases t = [] <;> simp [*]
  by_cases h : IsRuleLine t
  · rw [if_neg (by rw [hr]; simpa using h)]
    simp only [rulesOf, List.filter_cons, h, decide_true, if_true, List.filter_nil, List.flatMap_cons,
      List.flatMap_nil, List.append_nil, contributes]
    cases idna.toASCII t with
    | none => cases p <;> simp
    | some a =>
      by_cases hat : a = t
      · subst hat; cases p <;> simp
      · cases p <;> simp [hat]
  · rw [if_pos (hr.2 h)]
    simp [rulesOf, h]

theorem rulesOf_cons (f) (t : Bytes) (ts) : rulesOf f (t :: ts) = rulesOf f [t] ++ rulesOf f ts := by
  simp only [rulesOf, List.filter_cons, List.filter_nil]
  split <;> simp

theorem rulesOf_append (f) (a b : List Bytes) : rulesOf f (a ++ b) = rulesOf f a ++ rulesOf f b := by
  simp [rulesOf]

@[simp] theorem rulesOf_nil (f) : rulesOf f [] = [] := rfl

theorem processLines_private (idna : Idna) (ls : List Bytes) (psl : Suffixes) :
    processLines idna ls psl true =
      ⟨psl.publicSuffixes, psl.privateSuffixes ++ rulesOf idna.toASCII (ls.map trimSpace),
       psl.allSuffixes ++ rulesOf idna.toASCII (ls.map trimSpace)⟩ := by
  induction ls generalizing psl with
  | nil => simp [processLines]
  | cons l ls ih =>
    simp only [processLines, processLine_eq, Bool.true_or, if_true, List.append_nil, ih, List.map_cons]
    rw [rulesOf_cons _ (trimSpace l) (ls.map trimSpace)]
    simp

theorem processLines_public (idna : Idna) (ls : List Bytes) (psl : Suffixes) {before after : List Bytes}
    (h : Sections (ls.map trimSpace) before after) :
    processLines idna ls psl false =
      ⟨psl.publicSuffixes ++ rulesOf idna.toASCII before, psl.privateSuffixes ++ rulesOf idna.toASCII after,
       psl.allSuffixes ++ rulesOf idna.toASCII (before ++ after)⟩ := by
  induction ls generalizing psl before with
  | nil =>
    obtain ⟨h1, -, -⟩ := h
    simp at h1
    simp [processLines, h1.1, h1.2]
  | cons l ls ih =>
    obtain ⟨h1, h2, h3⟩ := h
    cases before with
    | nil =>
      rcases h3 with rfl | ⟨rest, rfl⟩
      · simp at h1
      · simp only [List.map_cons, List.nil_append, List.cons.injEq] at h1
        simp only [processLines, processLine_eq, h1.1, decide_true, Bool.or_true, if_true, List.append_nil,
          processLines_private, h1.2, List.nil_append]
        rw [rulesOf_cons _ privateMarker rest]
        simp
    | cons b before =>
      simp only [List.map_cons, List.cons_append, List.cons.injEq] at h1
      simp only [List.mem_cons, not_or] at h2
      have hb : decide (trimSpace l = privateMarker) = false := by
        rw [h1.1]; exact decide_eq_false (Ne.symm h2.1)
      simp only [processLines, processLine_eq, hb, Bool.or_false, Bool.false_eq_true, if_false, List.append_nil]
      rw [ih _ ⟨h1.2, h2.2, h3⟩, h1.1, rulesOf_cons _ b before, List.cons_append, rulesOf_cons _ b (before ++ after)]
      simp

theorem sections_exists (ts : List Bytes) : ∃ before after, Sections ts before after := by
  induction ts with
  | nil => exact ⟨[], [], rfl, by simp, .inl rfl⟩
  | cons t ts ih =>
    by_cases h : t = privateMarker
    · subst h; exact ⟨[], _, rfl, by simp, .inr ⟨ts, rfl⟩⟩
    · obtain ⟨b, a, h1, h2, h3⟩ := ih
      exact ⟨t :: b, a, by rw [h1]; rfl, by simp [h2, Ne.symm h], h3⟩

theorem sections_unique {ts b a b' a' : List Bytes} (h : Sections ts b a) (h' : Sections ts b' a') :
    b = b' ∧ a = a' := by
  induction ts generalizing b b' with
  | nil =>
    have := h.1; have := h'.1
    simp_all
  | cons t ts ih =>
    obtain ⟨h1, h2, h3⟩ := h
    obtain ⟨h1', h2', h3'⟩ := h'
    cases b with
    | nil =>
      rcases h3 with rfl | ⟨r, rfl⟩
      · simp at h1
      · cases b' with
        | nil => simp at h1 h1'; simp [← h1', h1]
        | cons x b' =>
          simp at h1 h1' h2'
          exact absurd (h1.1.symm.trans h1'.1) h2'.1
    | cons x b =>
      cases b' with
      | nil =>
        rcases h3' with rfl | ⟨r, rfl⟩
        · simp at h1'
        · simp at h1 h1' h2
          exact absurd (h1'.1.symm.trans h1.1) h2.1
      | cons y b' =>
        simp only [List.cons_append, List.cons.injEq] at h1 h1'
        simp only [List.mem_cons, not_or] at h2 h2'
        obtain ⟨e1, e2⟩ := ih ⟨h1.2, h2.2, h3⟩ ⟨h1'.2, h2'.2, h3'⟩
        exact ⟨by rw [← h1.1, h1'.1, e1], e2⟩

theorem parsePSL_eq (idna : Idna) {text : Bytes} {ts before after : List Bytes}
    (h : StrippedLines text ts) (hs : Sections ts before after) :
    parsePSL idna text = ⟨rulesOf idna.toASCII before, rulesOf idna.toASCII after,
      rulesOf idna.toASCII before ++ rulesOf idna.toASCII after⟩ := by
  rw [strippedLines_iff] at h; subst h
  rw [parsePSL, processLines_public idna _ _ hs, rulesOf_append]
  simp

/-! ## Irrelevant lines -/

/-- The lines that matter. -/
def matters (t : Bytes) : Bool := decide (IsRuleLine t ∨ t = privateMarker)

theorem rulesOf_matters (f) (ts : List Bytes) : rulesOf f (ts.filter matters) = rulesOf f ts := by
  unfold rulesOf
  rw [List.filter_filter]
  congr 1
  apply List.filter_congr
  intro t _
  by_cases h : IsRuleLine t <;> simp [h, matters]

theorem sections_matters {ts b a : List Bytes} (h : Sections ts b a) :
    Sections (ts.filter matters) (b.filter matters) (a.filter matters) := by
  obtain ⟨rfl, h2, h3⟩ := h
  refine ⟨by simp, fun hc => h2 (List.mem_filter.1 hc).1, ?_⟩
  rcases h3 with rfl | ⟨r, rfl⟩
  · exact .inl rfl
  · exact .inr ⟨r.filter matters, by simp [matters]⟩

/-- Texts whose lines that matter are the same are parsed the same. -/
theorem parsePSL_matters (idna : Idna) {text text' : Bytes} {ts ts' : List Bytes}
    (h : StrippedLines text ts) (h' : StrippedLines text' ts') (he : ts.filter matters = ts'.filter matters) :
    parsePSL idna text = parsePSL idna text' := by
  obtain ⟨b, a, hs⟩ := sections_exists ts
  obtain ⟨b', a', hs'⟩ := sections_exists ts'
  obtain ⟨e1, e2⟩ := sections_unique (sections_matters hs) (he ▸ sections_matters hs')
  rw [parsePSL_eq idna h hs, parsePSL_eq idna h' hs', ← rulesOf_matters _ b, ← rulesOf_matters _ a,
    ← rulesOf_matters _ b', ← rulesOf_matters _ a', e1, e2]

end Fasttld
