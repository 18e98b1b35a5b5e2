import Verif.Proofs.Outcome
import Verif.Proofs.Chars

/-!
# Percent-decoding
-/

set_option linter.unusedSimpArgs false

namespace Fasttld
open Spec

theorem hexDigit_iff (c : UInt8) : hexDigit c = if isHexDigit c = true then some (unhexDigit c) else none := by
  exact forall_byte (P := fun c => hexDigit c = if isHexDigit c = true then some (unhexDigit c) else none)
    (by decide +kernel) c

/-- `QueryUnescape` decodes. -/
theorem queryUnescape_iff (s r : Bytes) : queryUnescape s = .ok r ↔ Decodes s r := by
  constructor
  · intro h
    fun_induction queryUnescape s generalizing r with
    | case1 => injection h with h; subst h; exact .nil
    | case2 h' l t hh r' hr ih =>
      injection h with h; subst h
      simp only [Bool.and_eq_true] at hh
      have := Decodes.escape (h := h') (l := l) (by rw [hexDigit_iff, if_pos hh.1]) (by rw [hexDigit_iff, if_pos hh.2])
        (ih _ hr)
      rwa [Nat.mul_comm] at this
    | case3 h' l t hh e he ih => simp at h
    | case4 => simp at h
    | case5 => simp at h
    | case6 => simp at h
    | case7 c t h1 h2 h3 r' hr ih =>
      injection h with h; subst h
      by_cases hc : c = 43
      · subst hc; exact .plus (ih _ hr)
      · rw [if_neg hc]
        refine .byte ?_ hc (ih _ hr)
        rintro rfl
        match t with
        | [] => exact h3 rfl rfl
        | [x] => exact h2 x rfl rfl
        | x :: y :: t => exact h1 x y t rfl rfl
    | case8 c t h1 h2 h3 e he ih => simp at h
  · intro h
    induction h with
    | nil => rfl
    | @escape h l n m t r h1 h2 _ ih =>
      rw [hexDigit_iff] at h1 h2
      split at h1
      · split at h2
        · rename_i g1 g2
          injection h1 with h1
          injection h2 with h2
          subst h1; subst h2
          rw [queryUnescape]
          simp only [g1, g2, Bool.and_self, if_true, ih, Nat.mul_comm]
        · simp at h2
      · simp at h1
    | @plus t r _ ih =>
      rw [queryUnescape]
      · simp [ih]
      all_goals simp
    | @byte c t r h1 h2 _ ih =>
      rw [queryUnescape]
      · simp [ih, h2]
      all_goals (intros; simp_all)

theorem decodes_or_error (s : Bytes) : (∃ r, Decodes s r) ∨ ∃ e, queryUnescape s = .error e := by
  cases h : queryUnescape s with
  | ok r => exact .inl ⟨r, (queryUnescape_iff s r).1 h⟩
  | error e => exact .inr ⟨e, rfl⟩

theorem Spec.Decodes.unique {s r r' : Bytes} (h : Decodes s r) (h' : Decodes s r') : r = r' := by
  rw [← queryUnescape_iff] at h h'
  rw [h] at h'
  injection h'

/-- Decoding fails exactly on a malformed escape. -/
theorem decodes_iff_not_bad (s : Bytes) : (∃ r, Decodes s r) ↔ ¬ BadEscape s := by
  constructor
  · rintro ⟨r, h⟩
    induction h with
    | nil => rintro ⟨a, b, h, -⟩; simp at h
    | @escape h l n m t r h1 h2 _ ih =>
      rintro ⟨a, b, hs, hb⟩
      match a with
      | [] =>
        injection hs with _ hs
        exact hb h l t n m hs.symm h1 h2
      | [x] =>
        simp only [List.cons_append, List.nil_append, List.cons.injEq] at hs
        rw [hs.2.1] at h1; revert h1; simp [hexDigit, isDigit]
      | [x, y] =>
        simp only [List.cons_append, List.nil_append, List.cons.injEq] at hs
        rw [hs.2.2.1] at h2; revert h2; simp [hexDigit, isDigit]
      | x :: y :: z :: a =>
        simp only [List.cons_append, List.cons.injEq] at hs
        exact ih ⟨a, b, hs.2.2.2, hb⟩
    | @plus t r _ ih =>
      rintro ⟨a, b, hs, hb⟩
      match a with
      | [] => simp at hs
      | x :: a =>
        simp only [List.cons_append, List.cons.injEq] at hs
        exact ih ⟨a, b, hs.2, hb⟩
    | @byte c t r h1 h2 _ ih =>
      rintro ⟨a, b, hs, hb⟩
      match a with
      | [] => simp at hs; exact h1 hs.1
      | x :: a =>
        simp only [List.cons_append, List.cons.injEq] at hs
        exact ih ⟨a, b, hs.2, hb⟩
  · intro hn
    have step : ∀ {x t}, s = x ++ t → ¬ BadEscape t := by
      rintro x t rfl ⟨a, b, h, hb⟩
      exact hn ⟨x ++ a, b, by rw [h]; simp, hb⟩
    match s with
    | [] => exact ⟨[], .nil⟩
    | c :: t =>
      by_cases h1 : c = 37
      · subst h1
        by_cases hb : ∃ h l t', ∃ n m, t = h :: l :: t' ∧ hexDigit h = some n ∧ hexDigit l = some m
        · obtain ⟨h, l, t', n, m, rfl, e1, e2⟩ := hb
          obtain ⟨r, hr⟩ := (decodes_iff_not_bad t').2 (step (x := [37, h, l]) rfl)
          exact ⟨_, .escape e1 e2 hr⟩
        · exact absurd ⟨[], t, rfl, fun h l t' n m e1 e2 e3 => hb ⟨h, l, t', n, m, e1, e2, e3⟩⟩ hn
      · obtain ⟨r, hr⟩ := (decodes_iff_not_bad t).2 (step (x := [c]) rfl)
        by_cases h2 : c = 43
        · subst h2; exact ⟨_, .plus hr⟩
        · exact ⟨_, .byte h1 h2 hr⟩
termination_by s.length

/-- Decoding around a byte that is neither `%` nor a hexadecimal digit. -/
theorem decodes_append {c : UInt8} (hc : c ≠ 37) (hx : hexDigit c = none) (a b r : Bytes) :
    Decodes (a ++ c :: b) r ↔ ∃ ra rb, Decodes a ra ∧ Decodes (c :: b) rb ∧ r = ra ++ rb := by
  constructor
  · intro h
    generalize hs : a ++ c :: b = s at h
    induction h generalizing a with
    | nil => simp at hs
    | @escape h l n m t r h1 h2 ht ih =>
      match a with
      | [] => simp only [List.nil_append, List.cons.injEq] at hs; exact absurd hs.1 hc
      | [x] =>
        simp only [List.cons_append, List.nil_append, List.cons.injEq] at hs
        rw [← hs.2.1, hx] at h1; simp at h1
      | [x, y] =>
        simp only [List.cons_append, List.nil_append, List.cons.injEq] at hs
        rw [← hs.2.2.1, hx] at h2; simp at h2
      | x :: y :: z :: a =>
        simp only [List.cons_append, List.cons.injEq] at hs
        obtain ⟨rfl, rfl, rfl, hs⟩ := hs
        obtain ⟨ra, rb, e1, e2, rfl⟩ := ih a hs
        exact ⟨_, rb, .escape h1 h2 e1, e2, rfl⟩
    | @plus t r ht ih =>
      match a with
      | [] => exact ⟨[], _, .nil, by rw [List.nil_append] at hs; rw [hs]; exact .plus ht, rfl⟩
      | x :: a =>
        simp only [List.cons_append, List.cons.injEq] at hs
        obtain ⟨rfl, hs⟩ := hs
        obtain ⟨ra, rb, e1, e2, rfl⟩ := ih a hs
        exact ⟨_, rb, .plus e1, e2, rfl⟩
    | @byte d t r h1 h2 ht ih =>
      match a with
      | [] => exact ⟨[], _, .nil, by rw [List.nil_append] at hs; rw [hs]; exact .byte h1 h2 ht, rfl⟩
      | x :: a =>
        simp only [List.cons_append, List.cons.injEq] at hs
        obtain ⟨rfl, hs⟩ := hs
        obtain ⟨ra, rb, e1, e2, rfl⟩ := ih a hs
        exact ⟨_, rb, .byte h1 h2 e1, e2, rfl⟩
  · rintro ⟨ra, rb, h1, h2, rfl⟩
    induction h1 with
    | nil => exact h2
    | escape g1 g2 _ ih => exact .escape g1 g2 ih
    | plus _ ih => exact .plus ih
    | byte g1 g2 _ ih => exact .byte g1 g2 ih

theorem decodes_byte {c : UInt8} (hc : c ≠ 37) (hp : c ≠ 43) (b r : Bytes) :
    Decodes (c :: b) r ↔ ∃ rb, Decodes b rb ∧ r = c :: rb := by
  constructor
  · intro h
    cases h with
    | escape => exact absurd rfl hc
    | plus => exact absurd rfl hp
    | byte _ _ h => exact ⟨_, h, rfl⟩
  · rintro ⟨rb, h, rfl⟩; exact .byte hc hp h

/-- A label separator decodes to itself. -/
theorem decodes_sep {s : Nat} (hs : s ∈ separators) (a b r : Bytes) :
    Decodes (a ++ encode s ++ b) r ↔ ∃ ra rb, Decodes a ra ∧ Decodes b rb ∧ r = ra ++ encode s ++ rb := by
  have key : ∃ c t, encode s = c :: t ∧ hexDigit c = none ∧ ∀ x ∈ c :: t, x ≠ 37 ∧ x ≠ 43 := by
    simp [separators] at hs
    rcases hs with rfl | rfl | rfl | rfl
    · exact ⟨46, [], by decide, by decide, by decide⟩
    · exact ⟨0xE3, [0x80, 0x82], by decide, by decide, by decide⟩
    · exact ⟨0xEF, [0xBC, 0x8E], by decide, by decide, by decide⟩
    · exact ⟨0xEF, [0xBD, 0xA1], by decide, by decide, by decide⟩
  obtain ⟨c, t, he, hx, hall⟩ := key
  have many : ∀ t : Bytes, (∀ x ∈ t, x ≠ 37 ∧ x ≠ 43) → ∀ r, Decodes (t ++ b) r ↔ ∃ rb, Decodes b rb ∧ r = t ++ rb := by
    intro t
    induction t with
    | nil => intro _ r; simp
    | cons x t ih =>
      intro hx r
      rw [List.cons_append, decodes_byte (hx x (by simp)).1 (hx x (by simp)).2]
      simp only [ih (fun y hy => hx y (by simp [hy]))]
      constructor
      · rintro ⟨_, ⟨rb, h, rfl⟩, rfl⟩; exact ⟨rb, h, rfl⟩
      · rintro ⟨rb, h, rfl⟩; exact ⟨_, ⟨rb, h, rfl⟩, rfl⟩
  rw [he, List.append_assoc, List.cons_append, decodes_append (hall c (by simp)).1 hx]
  have := many (c :: t) hall
  rw [List.cons_append] at this
  simp only [this]
  constructor
  · rintro ⟨ra, _, h1, ⟨rb, h2, rfl⟩, rfl⟩; exact ⟨ra, rb, h1, h2, by simp⟩
  · rintro ⟨ra, rb, h1, h2, rfl⟩; exact ⟨ra, _, h1, ⟨rb, h2, rfl⟩, by simp⟩

/-- A host decodes iff its labels do. -/
theorem decodes_joinR {h : Bytes} {rt : List SepLabel} (g : ∀ p ∈ rt, p.1 ∈ separators) :
    (∃ r, Decodes (joinR h rt) r) ↔ (∃ r, Decodes h r) ∧ ∀ p ∈ rt, ∃ r, Decodes p.2 r := by
  induction rt with
  | nil => simp [joinR]
  | cons p rt ih =>
    obtain ⟨s, l⟩ := p
    have ih := ih (fun p hp => g p (by simp [hp]))
    simp only [joinR, decodes_sep (g (s, l) (by simp)), List.mem_cons, forall_eq_or_imp]
    constructor
    · rintro ⟨_, ra, rb, h1, h2, -⟩
      have := ih.1 ⟨ra, h1⟩
      exact ⟨this.1, ⟨rb, h2⟩, this.2⟩
    · rintro ⟨h1, ⟨rb, h2⟩, h3⟩
      obtain ⟨ra, h4⟩ := ih.2 ⟨h1, h3⟩
      exact ⟨_, ra, rb, h4, h2, rfl⟩

theorem unescapeOrEmpty_of {l r : Bytes} (h : Decodes l r) : unescapeOrEmpty l = r := by
  unfold unescapeOrEmpty
  rw [(queryUnescape_iff l r).2 h]

end Fasttld
