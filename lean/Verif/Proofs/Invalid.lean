import Verif.Proofs.Trim
import Verif.Proofs.Sets
import Verif.Proofs.Chars
import Verif.Spec.Host

/-!
# The character check of host names
-/

set_option linter.unusedSimpArgs false

namespace Fasttld
open Spec

/-- `alphaNumericSet.contains(byte(c))`. -/
def lowAlnum (c : Nat) : Bool := alphaNumericSet.contains (byteOf c)

/-- The check on the characters of the text. -/
def badChars : List Nat → (first prevSep : Bool) → Bool
  | [], _, _ => false
  | c :: cs, first, prevSep =>
    if lowAlnum c then badChars cs false false
    else if first && (c == 45 || decide (c ∈ separators)) then true
    else if cs.isEmpty && c == 45 then true
    else if decide (c ∈ separators) && prevSep then true
    else if decide (c ∈ invalidChars) then true
    else badChars cs false (decide (c ∈ separators))

theorem invalidSet_exists (c : Nat) : invalidHostNameCharsRuneSet.exists c = decide (c ∈ invalidChars) := by
  have h1 : ∀ x ∈ invalidHostNameCharsRuneSet, x ∈ invalidChars := by decide +kernel
  have h2 : ∀ x ∈ invalidChars, x ∈ invalidHostNameCharsRuneSet := by decide +kernel
  unfold RuneSet.exists
  rw [Bool.eq_iff_iff]
  simp only [List.contains_iff_mem, decide_eq_true_eq]
  exact ⟨h1 c, h2 c⟩

theorem sepSet_exists (c : Nat) : labelSeparatorsRuneSet.exists c = decide (c ∈ separators) := by
  rw [labelSeparators_eq]
  unfold RuneSet.exists
  rw [Bool.eq_iff_iff]
  simp only [List.contains_iff_mem, decide_eq_true_eq]

/-- A `-` is one byte. -/
theorem isTok_dash {t : Nat × Bytes} (h : IsTok t) (hd : t.1 = 45) : t.2.length = 1 := by
  rcases h with ⟨_, h2⟩ | ⟨h1, _⟩
  · rw [h2, hd]; decide
  · rw [hd] at h1; exact absurd h1 (by decide)

theorem invalidLoop_eq (ts : List (Nat × Bytes)) (ht : ∀ t ∈ ts, IsTok t) (n : Nat) (L : Int)
    (hL : L = n + (flat ts).length - 1) (prev : Bool) :
    hasInvalidCharsLoop L (offs ts n) prev = badChars (ts.map Prod.fst) (n == 0) prev := by
  induction ts generalizing n prev with
  | nil => rfl
  | cons t ts ih =>
    have htt := ht t (by simp)
    have hne : 1 ≤ t.2.length := by
      have := htt.ne_nil
      cases h : t.2 with
      | nil => exact absurd h this
      | cons => simp
    have hL' : L = ((n + t.2.length : Nat) : Int) + (flat ts).length - 1 := by
      rw [hL]; simp only [flat_cons, List.length_append]; omega
    have ih' := fun p => ih (fun u hu => ht u (by simp [hu])) (n + t.2.length) hL' p
    have hn0 : ((n + t.2.length) == 0) = false := beq_eq_false_iff_ne.2 (by omega)
    rw [hn0] at ih'
    simp only [offs, List.map_cons, hasInvalidCharsLoop, badChars, sepSet_exists, invalidSet_exists]
    rw [ih', ih']
    have hlast : (t.1 == 45) = true → (decide ((n : Int) = L) = (ts.map Prod.fst).isEmpty) := by
      intro hd
      have h1 := isTok_dash htt (by simpa using hd)
      rw [hL]
      simp only [flat_cons, List.length_append, h1]
      cases ts with
      | nil => simp
      | cons u us =>
        have := (ht u (by simp)).ne_nil
        have h2 : 1 ≤ u.2.length := by
          cases h : u.2 with
          | nil => exact absurd h this
          | cons => simp
        simp; omega
    unfold lowAlnum
    by_cases hd : (t.1 == 45) = true
    · rw [hlast hd]; rfl
    · simp only [hd, Bool.and_false]
      rfl

theorem hasInvalidChars_eq (s : Bytes) :
    hasInvalidChars s = badChars ((toks s).map Prod.fst) true false := by
  unfold hasInvalidChars
  rw [rangeString_eq, invalidLoop_eq (toks s) (fun t h => isTok_of_mem h) 0 _ (by simp) false]
  rfl

/-! ## As conditions -/

theorem low_dash : lowAlnum 45 = false := by decide +kernel
theorem low_sep (c : Nat) : (c ∈ separators ∧ lowAlnum c = false) ↔ c ∈ strictSeparators := by
  constructor
  · rintro ⟨h1, h2⟩
    simp [separators] at h1
    rcases h1 with rfl | rfl | rfl | rfl
    · decide
    · decide
    · decide
    · exact absurd h2 (by decide +kernel)
  · intro h
    simp [strictSeparators] at h
    rcases h with rfl | rfl | rfl <;> decide +kernel
theorem low_invalid (c : Nat) : (c ∈ invalidChars ∧ lowAlnum c = false) ↔ (c ∈ invalidChars ∧ c ∉ missedChars) := by
  have : ∀ c ∈ invalidChars, (lowAlnum c = false ↔ c ∉ missedChars) := by decide +kernel
  constructor
  · rintro ⟨h1, h2⟩; exact ⟨h1, (this c h1).1 h2⟩
  · rintro ⟨h1, h2⟩; exact ⟨h1, (this c h1).2 h2⟩
theorem strict_not_invalid : ∀ c ∈ strictSeparators, c ∉ invalidChars := by decide +kernel

/-- The check, as conditions on the list of characters. -/
theorem badChars_false_iff (cs : List Nat) (first prev : Bool) :
    badChars cs first prev = false ↔
      (first = true → cs.head? ≠ some 45 ∧ ∀ a ∈ strictSeparators, cs.head? ≠ some a) ∧
      (prev = true → ∀ a ∈ strictSeparators, cs.head? ≠ some a) ∧
      cs.getLast? ≠ some 45 ∧
      (∀ a ∈ strictSeparators, ∀ b ∈ strictSeparators, ¬ [a, b] <:+: cs) ∧
      ∀ c ∈ cs, ¬ (c ∈ invalidChars ∧ c ∉ missedChars) := by
  induction cs generalizing first prev with
  | nil => simp [badChars]
  | cons c cs ih =>
    have hinf : ∀ a b, ([a, b] <:+: c :: cs ↔ (a = c ∧ cs.head? = some b) ∨ [a, b] <:+: cs) := by
      intro a b
      rw [List.infix_cons_iff]
      constructor
      · rintro (h | h)
        · left
          obtain ⟨q, hq⟩ := h
          simp at hq
          refine ⟨hq.1, ?_⟩
          rw [← hq.2]; simp
        · exact .inr h
      · rintro (⟨h1, h2⟩ | h)
        · left
          cases cs with
          | nil => simp at h2
          | cons x xs => simp at h2; exact ⟨xs, by rw [h1, h2]; rfl⟩
        · exact .inr h
    have hlast : (c :: cs).getLast? ≠ some 45 ↔ (cs = [] → c ≠ 45) ∧ cs.getLast? ≠ some 45 := by
      cases cs with
      | nil => simp
      | cons x xs => simp [List.getLast?_cons_cons]
    have hinv := low_invalid c
    have hsep := low_sep c
    rw [badChars]
    by_cases hl : lowAlnum c = true
    · rw [if_pos hl, ih]
      have n1 : c ∉ strictSeparators := fun h => by have := (hsep.2 h).2; rw [hl] at this; simp at this
      have n2 : ¬ (c ∈ invalidChars ∧ c ∉ missedChars) := fun h => by
        have := (hinv.2 h).2; rw [hl] at this; simp at this
      have n3 : c ≠ 45 := fun h => by rw [h, low_dash] at hl; simp at hl
      rw [hlast]
      simp only [ne_eq, List.head?_cons, Option.some.injEq, hinf, List.mem_cons, forall_eq_or_imp, Bool.false_eq_true,
        false_imp_iff, true_and]
      constructor
      · rintro ⟨h1, h2, h3⟩
        refine ⟨fun _ => ⟨n3, fun a ha hc => n1 (hc ▸ ha)⟩, fun _ a ha hc => n1 (hc ▸ ha), ⟨fun _ => n3, h1⟩, ?_, n2, h3⟩
        rintro a ha b hb (⟨rfl, -⟩ | h)
        · exact n1 ha
        · exact h2 a ha b hb h
      · rintro ⟨-, -, ⟨-, h1⟩, h2, -, h3⟩
        exact ⟨h1, fun a ha b hb h => h2 a ha b hb (.inr h), h3⟩
    · have hl' : lowAlnum c = false := by simpa using hl
      have hs' : c ∈ separators ↔ c ∈ strictSeparators := ⟨fun h => hsep.1 ⟨h, hl'⟩, fun h => (hsep.2 h).1⟩
      have hi' : c ∈ invalidChars ↔ (c ∈ invalidChars ∧ c ∉ missedChars) :=
        ⟨fun h => hinv.1 ⟨h, hl'⟩, fun h => h.1⟩
      rw [if_neg hl]
      by_cases h1 : (first && (c == 45 || decide (c ∈ separators))) = true
      · rw [if_pos h1]
        simp only [Bool.and_eq_true, Bool.or_eq_true, beq_iff_eq, decide_eq_true_eq, hs'] at h1
        constructor
        · intro h; simp at h
        · rintro ⟨h, -⟩
          obtain ⟨h2, h3⟩ := h h1.1
          rcases h1.2 with h4 | h4
          · exact absurd (by rw [h4]; rfl) h2
          · exact absurd rfl (h3 c h4)
      · rw [if_neg h1]
        by_cases h2 : (cs.isEmpty && c == 45) = true
        · rw [if_pos h2]
          simp only [Bool.and_eq_true, beq_iff_eq, List.isEmpty_iff] at h2
          constructor
          · intro h; simp at h
          · rintro ⟨-, -, h3, -⟩
            exact absurd h2.2 ((hlast.1 h3).1 h2.1)
        · rw [if_neg h2]
          by_cases h3 : (decide (c ∈ separators) && prev) = true
          · rw [if_pos h3]
            simp only [Bool.and_eq_true, decide_eq_true_eq, hs'] at h3
            constructor
            · intro h; simp at h
            · rintro ⟨-, h4, -⟩
              exact absurd rfl (h4 h3.2 c h3.1)
          · rw [if_neg h3]
            by_cases h4 : decide (c ∈ invalidChars) = true
            · rw [if_pos h4]
              simp only [decide_eq_true_eq] at h4
              constructor
              · intro h; simp at h
              · rintro ⟨-, -, -, -, h5⟩
                exact absurd (hi'.1 h4) (h5 c (by simp))
            · rw [if_neg h4, ih, hlast]
              simp only [Bool.and_eq_true, Bool.or_eq_true, beq_iff_eq, decide_eq_true_eq, hs', List.isEmpty_iff,
                not_and, not_or] at h1 h2 h3 h4
              simp only [ne_eq, List.head?_cons, Option.some.injEq, hinf, List.mem_cons, forall_eq_or_imp, Bool.false_eq_true,
                false_imp_iff, true_and, decide_eq_true_eq, hs']
              constructor
              · rintro ⟨e1, e2, e3, e4⟩
                refine ⟨fun hf => ⟨(h1 hf).1, fun a ha hc => (h1 hf).2 (hc ▸ ha)⟩,
                  fun hp a ha hc => h3 (hc ▸ ha) hp, ⟨fun h => h2 h, e2⟩, ?_, fun h => h4 h.1, e4⟩
                rintro a ha b hb (⟨rfl, h⟩ | h)
                · exact e1 ha b hb h
                · exact e3 a ha b hb h
              · rintro ⟨-, -, ⟨-, e2⟩, e3, -, e4⟩
                exact ⟨fun hc b hb h => e3 c hc b hb (.inl ⟨rfl, h⟩), e2, fun a ha b hb h => e3 a ha b hb (.inr h), e4⟩

theorem goodSet_strict : GoodSet strictSeparators := by decide
theorem goodSet_invalid : GoodSet invalidChars := by decide +kernel

theorem pair_infix_iff {a b : Nat} (ha : IsScalar a) (ha' : a ≠ 0xFFFD) (hb : IsScalar b) (hb' : b ≠ 0xFFFD) (s : Bytes) :
    encode a ++ encode b <:+: s ↔ [a, b] <:+: (toks s).map Prod.fst := by
  constructor
  · rintro ⟨p, q, rfl⟩
    rw [show p ++ (encode a ++ encode b) ++ q = p ++ encode a ++ (encode b ++ q) by simp,
      toks_append_encode p ha, toks_encode hb]
    exact ⟨(toks p).map Prod.fst, (toks q).map Prod.fst, by simp⟩
  · rintro ⟨p, q, h⟩
    obtain ⟨l1, l2, e1, e2, e3⟩ := List.map_eq_append_iff.1 h.symm
    obtain ⟨l3, l4, f1, f2, f3⟩ := List.map_eq_append_iff.1 e2
    have hx : ∃ x y, l4 = [x, y] ∧ x.1 = a ∧ y.1 = b := by
      match l4, f3 with
      | [x, y], f3 => simp at f3; exact ⟨x, y, rfl, f3⟩
    obtain ⟨x, y, rfl, rfl, rfl⟩ := hx
    subst f1
    have hxm : IsTok x := isTok_of_mem (s := s) (by rw [e1]; simp)
    have hym : IsTok y := isTok_of_mem (s := s) (by rw [e1]; simp)
    have hx2 : x.2 = encode x.1 := by
      rcases hxm with ⟨_, h⟩ | ⟨h, _⟩
      · exact h
      · exact absurd h ha'
    have hy2 : y.2 = encode y.1 := by
      rcases hym with ⟨_, h⟩ | ⟨h, _⟩
      · exact h
      · exact absurd h hb'
    refine ⟨flat l3, flat l2, ?_⟩
    rw [← flat_toks s, e1]
    simp [hx2, hy2]

/-- The check, as a condition on the text. -/
theorem hasInvalidChars_false_iff (s : Bytes) : hasInvalidChars s = false ↔ HostCharsOK s := by
  rw [hasInvalidChars_eq, badChars_false_iff]
  unfold HostCharsOK
  have h45 : IsScalar 45 ∧ (45 : Nat) ≠ 0xFFFD := by decide
  have hhead : ∀ r, IsScalar r ∧ r ≠ 0xFFFD → (encode r <+: s ↔ ((toks s).map Prod.fst).head? = some r) := by
    intro r hr
    rw [prefix_encode_iff hr.1 hr.2]
    cases toks s with
    | nil => simp
    | cons t B => simp; exact ⟨by rintro ⟨x, rfl⟩; rfl, fun h => ⟨t.2, by rw [← h]⟩⟩
  have hlast : ∀ r, IsScalar r ∧ r ≠ 0xFFFD → (encode r <:+ s ↔ ((toks s).map Prod.fst).getLast? = some r) := by
    intro r hr
    rw [suffix_encode_iff hr.1 hr.2]
    rcases List.eq_nil_or_concat (toks s) with h | ⟨A, t, h⟩
    · rw [h]; simp
    · rw [h]; simp; exact ⟨by rintro ⟨x, rfl⟩; rfl, fun h => ⟨t.2, by rw [← h]⟩⟩
  have hmem : ∀ r, IsScalar r ∧ r ≠ 0xFFFD → (encode r <:+: s ↔ r ∈ (toks s).map Prod.fst) := by
    intro r hr
    rw [infix_encode_iff hr.1 hr.2]
    simp [List.mem_map]
  constructor
  · rintro ⟨h1, -, h3, h4, h5⟩
    obtain ⟨h1, h2⟩ := h1 rfl
    refine ⟨fun h => h1 ((hhead 45 h45).1 h), fun h => h3 ((hlast 45 h45).1 h),
      fun a ha h => h2 a ha ((hhead a (goodSet_strict a ha)).1 h), ?_, ?_⟩
    · intro a ha b hb h
      have ga := goodSet_strict a ha
      have gb := goodSet_strict b hb
      exact h4 a ha b hb ((pair_infix_iff ga.1 ga.2 gb.1 gb.2 s).1 h)
    · intro c hc hm h
      exact h5 c ((hmem c (goodSet_invalid c hc)).1 h) ⟨hc, hm⟩
  · rintro ⟨h1, h2, h3, h4, h5⟩
    refine ⟨fun _ => ⟨fun h => h1 ((hhead 45 h45).2 h), fun a ha h => h3 a ha ((hhead a (goodSet_strict a ha)).2 h)⟩,
      by simp, fun h => h2 ((hlast 45 h45).2 h), ?_, ?_⟩
    · intro a ha b hb h
      have ga := goodSet_strict a ha
      have gb := goodSet_strict b hb
      exact h4 a ha b hb ((pair_infix_iff ga.1 ga.2 gb.1 gb.2 s).2 h)
    · rintro c hc ⟨hi, hm⟩
      exact h5 c hi hm ((hmem c (goodSet_invalid c hi)).2 hc)

end Fasttld
