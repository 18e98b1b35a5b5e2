import Verif.Proofs.Url

/-!
# Bracketed hosts
-/

set_option linter.unusedSimpArgs false

namespace Fasttld
open Spec

/-- Not a delimiter: none of `/ \ ? # [ ]`. -/
def plainByte (c : UInt8) : Bool := !isPathStart c && c != 91 && c != 93

theorem plainByte_digit {c : UInt8} (h : isDigit c = true) : plainByte c = true := by
  revert h
  exact forall_byte (P := fun c => isDigit c = true → plainByte c = true) (by decide +kernel) c

theorem plainByte_hex {c : UInt8} (h : (hexDigit c).isSome = true) : plainByte c = true := by
  revert h
  exact forall_byte (P := fun c => (hexDigit c).isSome = true → plainByte c = true) (by decide +kernel) c

theorem plainByte_sep {r : Nat} (h : r ∈ separators) : ∀ c ∈ encode r, plainByte c = true := by
  simp [separators] at h
  rcases h with rfl | rfl | rfl | rfl <;> decide

theorem Spec.MadeOf.plain {t : Bytes} (h : MadeOf separators t) : ∀ c ∈ t, plainByte c = true := by
  obtain ⟨cs, h1, rfl⟩ := h
  intro c hc
  obtain ⟨r, hr, hcr⟩ := List.mem_flatMap.1 hc
  exact plainByte_sep (h1 r hr) c hcr

theorem Spec.IsQuad.plain {q : Bytes} (h : IsQuad q) : ∀ c ∈ q, plainByte c = true := by
  obtain ⟨a, b, c, d, r1, r2, r3, ha, hb, hc, hd, h1, h2, h3, rfl⟩ := h
  have ho : ∀ o, IsOctet o → ∀ c ∈ o, plainByte c = true := by
    intro o ho c hc
    rw [isOctet_iff] at ho
    exact plainByte_digit (ho.2.1 c hc)
  intro x hx
  simp only [List.mem_append] at hx
  rcases hx with (((((hx | hx) | hx) | hx) | hx) | hx) | hx
  · exact ho _ ha x hx
  · exact plainByte_sep h1 x hx
  · exact ho _ hb x hx
  · exact plainByte_sep h2 x hx
  · exact ho _ hc x hx
  · exact plainByte_sep h3 x hx
  · exact ho _ hd x hx

theorem Spec.IsIPv4.plain {s : Bytes} (h : IsIPv4 s) : ∀ c ∈ s, plainByte c = true := by
  obtain ⟨q, t, hq, ht, rfl⟩ := h
  intro c hc
  rcases List.mem_append.1 hc with hc | hc
  · exact hq.plain c hc
  · exact ht.plain c hc

theorem Spec.Groups.plain {quad : Bytes → Prop} {n : Nat} {s : Bytes}
    (hq : ∀ q, quad q → ∀ c ∈ q, plainByte c = true) (h : Groups quad n s) : ∀ c ∈ s, plainByte c = true := by
  have hg : ∀ g, IsGroup g → ∀ c ∈ g, plainByte c = true := fun g h c hc => plainByte_hex (h.2.1 c hc)
  induction h with
  | one h => exact hg _ h
  | dotted h => exact hq _ h
  | cons h _ ih =>
    intro c hc
    rcases List.mem_append.1 hc with hc | hc
    · exact hg _ h c hc
    · rcases List.mem_cons.1 hc with rfl | hc
      · decide
      · exact ih c hc

theorem Spec.OptGroups.plain {quad : Bytes → Prop} {n : Nat} {s : Bytes}
    (hq : ∀ q, quad q → ∀ c ∈ q, plainByte c = true) (h : OptGroups quad n s) : ∀ c ∈ s, plainByte c = true := by
  rcases h with ⟨-, rfl⟩ | h
  · simp
  · exact h.plain hq

theorem Spec.IsIPv6.plain {s : Bytes} (h : IsIPv6 IsIPv4 s) : ∀ c ∈ s, plainByte c = true := by
  rcases h with h | ⟨l, r, n, m, hl, hr, -, rfl⟩
  · exact h.plain (fun q hq => hq.plain)
  · intro c hc
    rcases List.mem_append.1 hc with hc | hc
    · exact hl.plain (fun q hq => hq.elim) c hc
    · rcases List.mem_cons.1 hc with rfl | hc
      · decide
      · rcases List.mem_cons.1 hc with rfl | hc
        · decide
        · exact hr.plain (fun q hq => hq.plain) c hc

theorem Spec.IsIPv6.ne_nil {s : Bytes} (h : IsIPv6 IsIPv4 s) : s ≠ [] := by
  rintro rfl
  rcases h with h | ⟨l, r, n, m, -, -, -, h⟩
  · generalize he : ([] : Bytes) = s at h
    generalize hn : (8 : Nat) = n at h
    cases h with
    | one h => simp at hn
    | dotted h => simp at hn
    | cons h _ => simp at he
  · simp at h

theorem plainByte_iff {c : UInt8} : plainByte c = true ↔ isPathStart c = false ∧ c ≠ 91 ∧ c ≠ 93 := by
  simp [plainByte, and_assoc]

/-- Text without brackets up to the first of `/ \ ? #`. -/
def NoBracketBeforePath (after : Bytes) : Prop :=
  ∃ z w, CutAt isPathStart after z w ∧ 91 ∉ z ∧ 93 ∉ z

/-- Where a bracketed host ends, for a literal without brackets. -/
theorem scanSplit_literal_iff {a inner after : Bytes} (hi : 91 ∉ inner ∧ 93 ∉ inner) :
    scanSplit a = .literal inner after ↔ a = 91 :: (inner ++ 93 :: after) ∧ NoBracketBeforePath after := by
  have hib : ∀ c ∈ inner, (fun c => !isBracket c) c = true := by
    intro c hc
    simp only [isBracket, Bool.not_eq_true', Bool.or_eq_false_iff, beq_eq_false_iff_ne]
    exact ⟨fun h => hi.1 (h ▸ hc), fun h => hi.2 (h ▸ hc)⟩
  constructor
  · intro h
    cases a with
    | nil => simp [scanSplit] at h
    | cons c r =>
      rw [scanSplit] at h
      split at h
      · rename_i hc
        subst hc
        unfold scanLiteral at h
        have hcut : CutAt isBracket r _ _ := cutAt_iff.2 ⟨rfl, rfl⟩
        split at h
        · simp at h
        · rename_i c2 r2 hd
          rw [hd] at hcut
          split at h
          · simp at h
          · rename_i hc2
            have hc93 : c2 = 93 := by
              have := head_dropWhile _ _ hd
              simpa [isBracket, hc2] using this
            subst hc93
            simp only at h
            have hcut2 : CutAt (fun c => isPathStart c || c == 91) r2 _ _ := cutAt_iff.2 ⟨rfl, rfl⟩
            split at h
            · simp at h
            · rename_i hne
              split at h
              · rename_i x y hs
                injection h with h1 h2
                exfalso
                apply hi.2
                rw [← h1]; simp
              · rename_i hs
                injection h with h1 h2
                have h93 := splitLastByte_none.1 hs
                refine ⟨by rw [← h1, ← h2, ← hcut2.1, ← hcut.1], ?_⟩
                refine ⟨_, _, ⟨h2.symm, fun c hc => ?_, ?_⟩, fun h => ?_, h93⟩
                · have := hcut2.2.1 c hc; simp at this; exact this.1
                · rcases hcut2.2.2 with h | ⟨c, t, h, hc⟩
                  · exact .inl h
                  · right
                    refine ⟨c, t, h, ?_⟩
                    rw [h] at hne
                    simp at hne
                    simpa [hne] using hc
                · have := hcut2.2.1 _ h; simp at this
      · rename_i hc
        exfalso
        unfold scanName at h
        split at h
        · simp at h
        · split at h
          · simp at h
          · split at h <;> simp at h
  · rintro ⟨rfl, z, w, hcut, hz⟩
    rw [scanSplit, if_pos rfl]
    unfold scanLiteral
    obtain ⟨h1, h2⟩ := cutAt_iff.1 (show CutAt isBracket (inner ++ 93 :: after) inner (93 :: after) from
      ⟨rfl, fun c hc => by have := hib c hc; simpa using this, .inr ⟨93, after, rfl, by decide⟩⟩)
    rw [← h1, ← h2]
    simp only
    rw [if_neg (by decide)]
    obtain ⟨hs, hzp, hw⟩ := hcut
    obtain ⟨h3, h4⟩ := cutAt_iff.1 (show CutAt (fun c => isPathStart c || c == 91) after z w from
      ⟨hs, fun c hc => by
        have : c ≠ 91 := fun h => hz.1 (h ▸ hc)
        simp [hzp c hc, this], by
        rcases hw with h | ⟨c, t, h, hc⟩
        · exact .inl h
        · exact .inr ⟨c, t, h, by simp [hc]⟩⟩)
    rw [← h3, ← h4, splitLastByte_none.2 hz.2, if_neg]
    · rw [← hs]
    · rcases hw with rfl | ⟨c, t, rfl, hc⟩
      · simp
      · simp only [List.head?_cons, Option.some.injEq]
        rintro rfl; revert hc; decide

theorem noBracket_of_afterHost {after port path : Bytes} (h : AfterHost after port path) :
    NoBracketBeforePath after := by
  obtain ⟨hq, ⟨rfl, rfl⟩ | ⟨hp, rfl⟩⟩ := h
  · exact ⟨[], after, ⟨rfl, by simp, hq⟩, by simp, by simp⟩
  · refine ⟨58 :: port, path, ⟨by simp, ?_, hq⟩, ?_⟩
    · intro c hc
      rcases List.mem_cons.1 hc with rfl | hc
      · decide
      · exact isPort_no_pathStart hp c hc
    · have hd : ∀ c, isDigit c = true → c ≠ 91 ∧ c ≠ 93 := by
        intro c hc; constructor <;> (rintro rfl; revert hc; decide)
      have : ∀ c ∈ port, c ≠ 91 ∧ c ≠ 93 := by
        intro c hc
        rcases hp with h | ⟨q, rfl, h⟩ | ⟨q, rfl, h, _⟩
        · exact hd c (h.2.1 c hc)
        · rcases List.mem_cons.1 hc with rfl | hc
          · decide
          · exact hd c (h.2.1 c hc)
        · rcases List.mem_cons.1 hc with rfl | hc
          · decide
          · exact hd c (h.2.1 c hc)
      constructor
      · intro h; rcases List.mem_cons.1 h with h | h
        · exact absurd h (by decide)
        · exact (this _ h).1 rfl
      · intro h; rcases List.mem_cons.1 h with h | h
        · exact absurd h (by decide)
        · exact (this _ h).2 rfl

theorem isIPv6_no_brackets {s : Bytes} (h : IsIPv6 IsIPv4 s) : 91 ∉ s ∧ 93 ∉ s :=
  ⟨fun hc => (plainByte_iff.1 (h.plain _ hc)).2.1 rfl, fun hc => (plainByte_iff.1 (h.plain _ hc)).2.2 rfl⟩

/-- A bracketed host that is accepted. -/
theorem literalF_ok {inner after : Bytes} {u r : ExtractResult} :
    literalF inner after u = (r, none) ↔
      IsIPv6 IsIPv4 inner ∧ ∃ port path, AfterHost after port path ∧
        r = { u with hostType := .iPv6, domain := inner, registeredDomain := inner, port := port, path := path } := by
  unfold literalF
  rw [← isIPv6B_iff]
  by_cases h6 : isIPv6B inner = true
  · rw [if_pos h6]
    by_cases ha : after ≠ [] ∧ (after.head?.map isHostEnd) ≠ some true
    · rw [if_pos ha]
      simp only [Prod.mk.injEq, reduceCtorEq, and_false, false_iff, not_and, not_exists, not_and]
      intro _ port path hAH
      exfalso
      cases after with
      | nil => exact ha.1 rfl
      | cons x t => exact ha.2 (by simp [afterHost_head hAH x t rfl])
    · rw [if_neg ha]
      have hhd : ∀ x t, after = x :: t → isHostEnd x = true := by
        rintro x t rfl
        simpa using ha
      simp only [h6, true_and]
      constructor
      · intro h
        cases hpp : portPath after with
        | none => rw [hpp] at h; simp at h
        | some p =>
          obtain ⟨p, q⟩ := p
          rw [hpp] at h
          simp only [Prod.mk.injEq, and_true] at h
          exact ⟨p, q, (portPath_iff hhd).1 hpp, h.symm⟩
      · rintro ⟨p, q, h, rfl⟩
        rw [(portPath_iff hhd).2 h]
  · simp [h6]

/-- The errors of the bracket scan. -/
theorem scanSplit_bad {a : Bytes} {er : Err} (h : scanSplit a = .bad er) :
    er = .openingBracketNotFirst ∨ er = .closingWithoutOpening ∨ er = .incompleteBrackets := by
  unfold scanSplit at h
  split at h
  · simp at h
  · split at h
    · unfold scanLiteral at h
      split at h
      · injection h with h; simp [← h]
      · split at h
        · injection h with h; simp [← h]
        · simp only at h
          split at h
          · injection h with h; simp [← h]
          · split at h <;> simp at h
    · unfold scanName at h
      split at h
      · simp at h
      · split at h
        · injection h with h; simp [← h]
        · split at h
          · injection h with h; simp [← h]
          · simp at h

end Fasttld
