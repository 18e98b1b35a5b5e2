import Verif.Spec.Url
import Verif.Proofs.Refine

/-!
# The parts of a URL: the relations of `Spec/Url.lean` are the functions of the refined description
-/

set_option linter.unusedSimpArgs false

namespace Fasttld
open Spec

theorem cutAt_iff {stop : UInt8 → Bool} {s l r : Bytes} :
    CutAt stop s l r ↔ l = s.takeWhile (fun c => !stop c) ∧ r = s.dropWhile (fun c => !stop c) := by
  constructor
  · rintro ⟨rfl, hl, hr⟩
    have h1 : ∀ c ∈ l, (fun c => !stop c) c = true := by intro c hc; simp [hl c hc]
    rcases hr with rfl | ⟨c, t, rfl, hc⟩
    · rw [List.append_nil]
      exact ⟨(by simpa using (List.takeWhile_append_of_pos (l₂ := []) h1).symm), (dropWhile_all _ l h1).symm⟩
    · have h2 : (fun c => !stop c) c = false := by simp [hc]
      refine ⟨?_, (dropWhile_split _ l c t h1 h2).symm⟩
      rw [List.takeWhile_append_of_pos h1, List.takeWhile_cons]
      simp [hc]
  · rintro ⟨rfl, rfl⟩
    refine ⟨List.takeWhile_append_dropWhile.symm, ?_, ?_⟩
    · intro c hc
      have := List.all_eq_true.1 (List.all_takeWhile (p := fun c => !stop c) (l := s)) c hc
      simpa using this
    · cases h : s.dropWhile (fun c => !stop c) with
      | nil => exact .inl rfl
      | cons c t => exact .inr ⟨c, t, rfl, by simpa using head_dropWhile _ _ h⟩

theorem takeWhile_slash_append {sl z : Bytes} (h : ∀ x ∈ sl, isSlash x = true) :
    (sl ++ z).takeWhile isSlash = sl ++ z.takeWhile isSlash := List.takeWhile_append_of_pos h

theorem isSlash_not_letter {c : UInt8} (h : isSlash c = true) : isLetter c = false := by
  revert h
  exact forall_byte (P := fun c => isSlash c = true → isLetter c = false) (by decide +kernel) c
theorem isSlash_not_schemeChar {c : UInt8} (h : isSlash c = true) : isSchemeChar c = false := by
  revert h
  exact forall_byte (P := fun c => isSlash c = true → isSchemeChar c = false) (by decide +kernel) c
theorem isSlash_ne_colon {c : UInt8} (h : isSlash c = true) : c ≠ 58 := by
  rintro rfl; revert h; decide

/-- A scheme at the start of `t` determines the split. -/
theorem schemeSplit_of_scheme {q z : Bytes} (h : IsScheme q) :
    (schemeSplit (q ++ z)).1 = q ++ z.takeWhile isSlash := by
  obtain ⟨name, colon, sl, rfl, hn, hlen, hsl⟩ := h
  cases sl with
  | nil => simp at hlen
  | cons s0 sl =>
    have hs0 : isSlash s0 = true := hsl s0 (by simp)
    have htw : ((s0 :: sl) ++ z).takeWhile isSlash = (s0 :: sl) ++ z.takeWhile isSlash := takeWhile_slash_append hsl
    rcases hn with ⟨rfl, rfl⟩ | ⟨⟨c, r, rfl, hc, hr⟩, hcol⟩
    · rw [List.nil_append, List.nil_append]
      have hname : schemeName (s0 :: sl ++ z) = [] := by
        simp [schemeName, isSlash_not_letter hs0]
      unfold schemeSplit
      simp only [hname, List.length_nil, List.drop_zero, if_true, List.nil_append, htw]
      rw [if_pos (by simp at hlen ⊢; omega)]
    · have hname : schemeName ((c :: r) ++ colon ++ s0 :: sl ++ z) = c :: r := by
        simp only [schemeName, List.cons_append, hc, if_true]
        rw [List.append_assoc, List.append_assoc, List.takeWhile_append_of_pos hr]
        rcases hcol with rfl | rfl
        · simp [List.takeWhile_cons, isSlash_not_schemeChar hs0]
        · simp [List.takeWhile_cons, isSchemeChar_colon]
      unfold schemeSplit
      simp only [hname]
      have hd : ((c :: r) ++ colon ++ s0 :: sl ++ z).drop (c :: r).length = colon ++ (s0 :: sl) ++ z := by
        rw [List.append_assoc, List.append_assoc, List.drop_left' rfl, List.append_assoc]
      rw [hd, if_neg (show ¬ (c :: r : Bytes) = [] by simp)]
      have hoc : optColon (colon ++ (s0 :: sl) ++ z) = colon := by
        rcases hcol with rfl | rfl
        · simp [optColon, isSlash_ne_colon hs0]
        · simp [optColon]
      rw [hoc, List.append_assoc, List.drop_left' rfl, htw, if_pos (by simp at hlen ⊢; omega)]
      simp

theorem isScheme_schemeSplit {t : Bytes} (h : (schemeSplit t).1 ≠ []) : IsScheme (schemeSplit t).1 := by
  unfold schemeSplit at h ⊢
  simp only at h ⊢
  by_cases hlen : 2 ≤ (((t.drop (schemeName t).length).drop (if schemeName t = [] then []
      else optColon (t.drop (schemeName t).length)).length).takeWhile isSlash).length
  · rw [if_pos hlen]
    refine ⟨_, _, _, rfl, ?_, hlen, fun x hx => by
      have := List.all_eq_true.1 (List.all_takeWhile (p := isSlash)) x hx; exact this⟩
    by_cases hn : schemeName t = []
    · left; exact ⟨hn, by simp [hn]⟩
    · right
      refine ⟨?_, ?_⟩
      · cases t with
        | nil => simp [schemeName] at hn
        | cons c r =>
          by_cases hc : isLetter c = true
          · refine ⟨c, r.takeWhile isSchemeChar, by simp [schemeName, hc], hc, fun x hx => ?_⟩
            exact List.all_eq_true.1 (List.all_takeWhile (p := isSchemeChar)) x hx
          · simp [schemeName, hc] at hn
      · rw [if_neg hn]
        unfold optColon
        split
        · right; rfl
        · left; rfl
  · rw [if_neg hlen] at h; exact absurd rfl h

theorem schemeSplit_prefix (t : Bytes) : (schemeSplit t).1 <+: t := ⟨_, schemeSplit_append t⟩

theorem isScheme_ne_nil {q : Bytes} (h : IsScheme q) : q ≠ [] := by
  obtain ⟨name, colon, sl, rfl, -, hlen, -⟩ := h
  intro h
  have := congrArg List.length h
  simp only [List.length_append, List.length_nil] at this; omega

theorem schemeOf_iff {t p : Bytes} : SchemeOf t p ↔ p = (schemeSplit t).1 := by
  constructor
  · rintro (⟨rfl, hno⟩ | ⟨h1, ⟨z, rfl⟩, h3⟩)
    · by_cases h : (schemeSplit t).1 = []
      · exact h.symm
      · exact absurd (schemeSplit_prefix t) (hno _ (isScheme_schemeSplit h))
    · have hs := schemeSplit_of_scheme (z := z) h1
      have hne : (schemeSplit (p ++ z)).1 ≠ [] := by rw [hs]; simp [isScheme_ne_nil h1]
      have := h3 _ (isScheme_schemeSplit hne) (schemeSplit_prefix _)
      rw [hs] at this ⊢
      have : z.takeWhile isSlash = [] := List.length_eq_zero_iff.1 (by rw [List.length_append] at this; omega)
      rw [this, List.append_nil]
  · rintro rfl
    by_cases h : (schemeSplit t).1 = []
    · left
      refine ⟨h, fun q hq ⟨z, hz⟩ => ?_⟩
      subst hz
      rw [schemeSplit_of_scheme hq] at h
      exact isScheme_ne_nil hq (List.append_eq_nil_iff.1 h).1
    · right
      refine ⟨isScheme_schemeSplit h, schemeSplit_prefix t, ?_⟩
      rintro q hq ⟨z, rfl⟩
      rw [schemeSplit_of_scheme hq]; simp

theorem userInfoOf_iff {s ui rest : Bytes} : UserInfoOf s ui rest ↔ (ui, rest) = userSplit s := by
  unfold UserInfoOf userSplit
  constructor
  · rintro ⟨zone, more, hc, h⟩
    obtain ⟨rfl, rfl⟩ := cutAt_iff.1 hc
    rcases h with ⟨h1, rfl, rfl⟩ | ⟨y, h1, h2, rfl⟩
    · rw [splitLastByte_none.2 h1]
    · rw [splitLastByte_some.2 ⟨h1, h2⟩]
  · intro h
    refine ⟨_, _, cutAt_iff.2 ⟨rfl, rfl⟩, ?_⟩
    cases hs : splitLastByte 64 (s.takeWhile (fun c => !isUserInfoStop c)) with
    | none =>
      rw [hs] at h
      simp only [Prod.mk.injEq] at h
      exact .inl ⟨splitLastByte_none.1 hs, h.1, h.2⟩
    | some p =>
      obtain ⟨x, y⟩ := p
      rw [hs] at h
      simp only [Prod.mk.injEq] at h
      obtain ⟨h1, h2⟩ := splitLastByte_some.1 hs
      exact .inr ⟨y, by rw [h1, h.1], h2, h.2⟩

theorem isTrim_iff {s t : Bytes} : IsTrim true true whiteSpace s t ↔ t = trimmed s := by
  constructor
  · intro h
    have := fastTrim_of_isTrim (mode := .trimBoth) goodSet_whiteSpace h
    rw [fastTrim_eq] at this
    injection this with this
    exact this.symm
  · rintro rfl
    obtain ⟨t, h1, h2⟩ := fastTrim_isTrim goodSet_whiteSpace s .trimBoth
    rw [fastTrim_eq] at h1
    injection h1 with h1
    rw [← h1] at h2
    exact h2

theorem authority_iff {url sch ui a : Bytes} :
    Authority url sch ui a ↔
      sch = (schemeSplit (trimmed url)).1 ∧ (ui, a) = userSplit (schemeSplit (trimmed url)).2 := by
  unfold Authority
  constructor
  · rintro ⟨t, rest, h1, h2, h3, h4⟩
    rw [isTrim_iff] at h1
    rw [schemeOf_iff] at h2
    rw [userInfoOf_iff] at h4
    subst h1 h2
    refine ⟨rfl, ?_⟩
    rw [← List.append_cancel_left (h3.symm.trans (schemeSplit_append _).symm)]
    exact h4
  · rintro ⟨rfl, h⟩
    exact ⟨_, _, isTrim_iff.2 rfl, schemeOf_iff.2 rfl, (schemeSplit_append _).symm, userInfoOf_iff.2 h⟩

theorem authority_exists (url : Bytes) : ∃ sch ui a, Authority url sch ui a :=
  ⟨_, _, _, authority_iff.2 ⟨rfl, rfl⟩⟩

/-! ## Ports -/

theorem digitsVal_eq (s : Bytes) (n : Nat) :
    digitsVal s n = if ∀ c ∈ s, isDigit c = true then some (s.foldl (fun n c => n * 10 + (c.toNat - 48)) n)
      else none := by
  induction s generalizing n with
  | nil => simp [digitsVal]
  | cons c s ih =>
    rw [digitsVal]
    by_cases hc : isDigit c = true
    · have hc' : 48 ≤ c.toNat ∧ c.toNat ≤ 57 := by simpa [isDigit] using hc
      rw [if_pos hc', ih]
      simp [hc]
    · have hc' : ¬ (48 ≤ c.toNat ∧ c.toNat ≤ 57) := by simpa [isDigit] using hc
      rw [if_neg hc', if_neg]
      intro h; exact hc (h c (by simp))

theorem atoiDigits_some {s : Bytes} {n : Nat} :
    atoiDigits s = some n ↔ s ≠ [] ∧ (∀ c ∈ s, isDigit c = true) ∧ decValue s = n := by
  unfold atoiDigits decValue
  by_cases h : s = []
  · simp [h]
  · rw [if_neg h, digitsVal_eq]
    split
    · rename_i hd; simp [h]; intro _; exact fun c hc => hd c hc
    · rename_i hd; simp [h]; exact fun e => absurd (fun c hc => e c hc) hd

theorem portOK_iff {p : Bytes} : portOK p = true ↔ IsPort p := by
  have hsign : ∀ c, isDigit c = true → c ≠ 45 ∧ c ≠ 43 := by
    intro c hc; constructor <;> (rintro rfl; revert hc; decide)
  have hnum : ∀ c q, isDigit c = false → ¬ IsPortNumber (c :: q) := by
    intro c q hc ⟨_, h, _⟩
    rw [h c (by simp)] at hc; simp at hc
  have h45 : isDigit 45 = false := by decide
  have h43 : isDigit 43 = false := by decide
  unfold portOK atoi IsPort
  split
  · rename_i port hp
    split at hp
    · rename_i t
      cases ht : atoiDigits t with
      | none => rw [ht] at hp; simp at hp
      | some n =>
        rw [ht] at hp
        obtain ⟨h1, h2, h3⟩ := atoiDigits_some.1 ht
        simp only at hp
        split at hp
        · injection hp with hp
          subst hp
          simp only [Bool.and_eq_true, decide_eq_true_eq, hnum 45 t h45, false_or]
          rw [show largestPortNumber = 65535 from rfl]
          constructor
          · intro ⟨h, _⟩
            have : n = 0 := by omega
            exact .inr ⟨t, rfl, ⟨h1, h2, by rw [h3]; omega⟩, by rw [h3]; omega⟩
          · rintro (⟨q, hq, _⟩ | ⟨q, hq, h, h'⟩)
            · simp at hq
            · simp at hq; subst hq; rw [h3] at h'; omega
        · simp at hp
    · rename_i t
      cases ht : atoiDigits t with
      | none => rw [ht] at hp; simp at hp
      | some n =>
        rw [ht] at hp
        obtain ⟨h1, h2, h3⟩ := atoiDigits_some.1 ht
        simp only at hp
        split at hp
        · injection hp with hp
          subst hp
          simp only [Bool.and_eq_true, decide_eq_true_eq, hnum 43 t h43, false_or]
          rw [show largestPortNumber = 65535 from rfl]
          constructor
          · intro ⟨_, h⟩
            exact .inl ⟨t, rfl, h1, h2, by rw [h3]; omega⟩
          · rintro (⟨q, hq, h⟩ | ⟨q, hq, h, h'⟩)
            · simp at hq; subst hq; have := h.2.2; rw [h3] at this; omega
            · simp at hq
        · simp at hp
    · rename_i hn45 hn43
      cases ht : atoiDigits p with
      | none => rw [ht] at hp; simp at hp
      | some n =>
        rw [ht] at hp
        obtain ⟨h1, h2, h3⟩ := atoiDigits_some.1 ht
        simp only at hp
        split at hp
        · injection hp with hp
          subst hp
          simp only [Bool.and_eq_true, decide_eq_true_eq]
          rw [show largestPortNumber = 65535 from rfl]
          constructor
          · intro ⟨_, h⟩
            exact .inl ⟨h1, h2, by rw [h3]; omega⟩
          · rintro (h | ⟨q, hq, h⟩ | ⟨q, hq, h, h'⟩)
            · have := h.2.2; rw [h3] at this; omega
            · exact absurd hq (hn43 q)
            · exact absurd hq (hn45 q)
        · simp at hp
  · rename_i hp
    simp only [Bool.false_eq_true, false_iff]
    have key : ∀ q, IsPortNumber q → ∃ n, atoiDigits q = some n ∧ n ≤ 65535 := fun q ⟨a, b, c⟩ =>
      ⟨_, atoiDigits_some.2 ⟨a, b, rfl⟩, c⟩
    rintro (h | ⟨q, rfl, h⟩ | ⟨q, rfl, h, h'⟩)
    · obtain ⟨n, h1, h2⟩ := key _ h
      split at hp
      · exact hnum 45 _ h45 h
      · exact hnum 43 _ h43 h
      · rw [h1] at hp; simp only at hp; rw [if_pos (by omega)] at hp; simp at hp
    · obtain ⟨n, h1, h2⟩ := key _ h
      simp only at hp
      rw [h1] at hp; simp only at hp; rw [if_pos (by omega)] at hp; simp at hp
    · obtain ⟨n, h1, h2⟩ := key _ h
      simp only at hp
      rw [h1] at hp; simp only at hp; rw [if_pos (by omega)] at hp; simp at hp

theorem isPort_no_pathStart {p : Bytes} (h : IsPort p) : ∀ c ∈ p, isPathStart c = false := by
  have hd : ∀ c, isDigit c = true → isPathStart c = false :=
    fun c => forall_byte (P := fun c => isDigit c = true → isPathStart c = false) (by decide +kernel) c
  intro c hc
  rcases h with h | ⟨q, rfl, h⟩ | ⟨q, rfl, h, _⟩
  · exact hd c (h.2.1 c hc)
  · rcases List.mem_cons.1 hc with rfl | hc
    · decide
    · exact hd c (h.2.1 c hc)
  · rcases List.mem_cons.1 hc with rfl | hc
    · decide
    · exact hd c (h.2.1 c hc)

theorem portPath_iff {after p q : Bytes} (ha : ∀ x t, after = x :: t → isHostEnd x = true) :
    portPath after = some (p, q) ↔ AfterHost after p q := by
  unfold AfterHost
  cases after with
  | nil =>
    simp only [portPath, Option.some.injEq, Prod.mk.injEq]
    constructor
    · rintro ⟨rfl, rfl⟩; simp
    · rintro ⟨-, ⟨rfl, h⟩ | ⟨-, h⟩⟩
      · exact ⟨rfl, h⟩
      · simp at h
  | cons c r =>
    rw [portPath]
    by_cases hc : c = 58
    · subst hc
      rw [if_pos rfl]
      have hcut : CutAt isPathStart r _ _ := cutAt_iff.2 ⟨rfl, rfl⟩
      constructor
      · intro h
        split at h
        · rename_i hp
          simp only [Option.some.injEq, Prod.mk.injEq] at h
          obtain ⟨rfl, rfl⟩ := h
          exact ⟨hcut.2.2, .inr ⟨portOK_iff.1 hp, by simp⟩⟩
        · simp at h
      · rintro ⟨hq, ⟨rfl, h⟩ | ⟨hp, h⟩⟩
        · exfalso
          rcases hq with rfl | ⟨x, t, rfl, hx⟩
          · simp at h
          · simp at h; rw [← h.1] at hx; revert hx; decide
        · have hr : r = p ++ q := by simpa using h
          obtain ⟨h1, h2⟩ := cutAt_iff.1 (show CutAt isPathStart r p q from ⟨hr, isPort_no_pathStart hp, hq⟩)
          rw [← h1, ← h2, if_pos (portOK_iff.2 hp)]
    · rw [if_neg hc]
      simp only [Option.some.injEq, Prod.mk.injEq]
      constructor
      · rintro ⟨rfl, rfl⟩
        have := ha c r rfl
        refine ⟨.inr ⟨c, r, rfl, by simpa [isHostEnd, hc] using this⟩, .inl ⟨rfl, rfl⟩⟩
      · rintro ⟨-, ⟨rfl, h⟩ | ⟨-, h⟩⟩
        · exact ⟨rfl, h⟩
        · simp at h; exact absurd h.1 hc

/-! ## Scanning -/

theorem afterHost_head {after p q : Bytes} (h : AfterHost after p q) :
    ∀ x t, after = x :: t → isHostEnd x = true := by
  rintro x t rfl
  rcases h with ⟨hq, ⟨rfl, h⟩ | ⟨-, h⟩⟩
  · rcases hq with rfl | ⟨c, t', rfl, hc⟩
    · simp at h
    · simp at h; rw [h.1]; simp [isHostEnd, hc]
  · simp at h; rw [h.1]; decide

theorem scanSplit_name_iff {a host after : Bytes} :
    scanSplit a = .name host after ↔
      a = host ++ after ∧ IsPlainHost host ∧ ∀ x t, after = x :: t → isHostEnd x = true := by
  have hkey : ∀ c : UInt8, (!(isHostEnd c || isBracket c)) = true ↔ isHostEnd c = false ∧ c ≠ 91 ∧ c ≠ 93 := by
    intro c; simp [isBracket]
  have hname : ∀ s, (s = [] ∨ s.head? ≠ some 91) → (scanName s = .name host after ↔
      s = host ++ after ∧ IsPlainHost host ∧ ∀ x t, after = x :: t → isHostEnd x = true) := by
    intro s _
    have hcut : CutAt (fun c => isHostEnd c || isBracket c) s _ _ := cutAt_iff.2 ⟨rfl, rfl⟩
    unfold scanName
    constructor
    · intro h
      split at h
      · rename_i hd
        injection h with h1 h2
        subst h1 h2
        refine ⟨by simp, ?_, by simp⟩
        intro c hc
        have := hcut.2.1 c (by
          have := hcut.1
          rw [hd, List.append_nil] at this
          rw [← this]; exact hc)
        rw [← hkey]; simp only [this]; rfl
      · rename_i c r hd
        split at h
        · simp at h
        · split at h
          · simp at h
          · injection h with h1 h2
            subst h1 h2
            refine ⟨by have := hcut.1; rw [hd] at this; exact this, ?_, ?_⟩
            · intro c hc
              rw [← hkey]; simp only [hcut.2.1 c hc]; rfl
            · rintro x t hx
              injection hx with hx; subst hx
              have := head_dropWhile _ _ hd
              simpa [isBracket, *] using this
    · rintro ⟨rfl, hp, hx⟩
      have hc : CutAt (fun c => isHostEnd c || isBracket c) (host ++ after) host after := by
        refine ⟨rfl, fun c hc => by have := (hkey c).2 (hp c hc); simpa using this, ?_⟩
        cases after with
        | nil => exact .inl rfl
        | cons x t => exact .inr ⟨x, t, rfl, by simp [hx x t rfl]⟩
      obtain ⟨h1, h2⟩ := cutAt_iff.1 hc
      rw [← h1, ← h2]
      cases after with
      | nil => simp
      | cons x t =>
        have := hx x t rfl
        simp only
        rw [if_neg (by rintro rfl; revert this; decide), if_neg (by rintro rfl; revert this; decide)]
  cases a with
  | nil =>
    simp only [scanSplit, HostPart.name.injEq]
    constructor
    · rintro ⟨rfl, rfl⟩; simp [IsPlainHost]
    · rintro ⟨h, -⟩
      have := List.append_eq_nil_iff.1 h.symm
      exact ⟨this.1.symm, this.2.symm⟩
  | cons c r =>
    rw [scanSplit]
    by_cases hc : c = 91
    · subst hc
      rw [if_pos rfl]
      constructor
      · intro h
        unfold scanLiteral at h
        split at h
        · simp at h
        · split at h
          · simp at h
          · simp only at h
            split at h
            · simp at h
            · split at h <;> simp at h
      · rintro ⟨h, hp, hx⟩
        cases host with
        | nil =>
          have := hx 91 r (by simpa using h.symm)
          exact absurd this (by decide)
        | cons x host =>
          simp at h
          exact absurd h.1.symm (hp x (by simp)).2.1
    · rw [if_neg hc]
      exact hname (c :: r) (by simp [hc])

/-- Rewriting `Extract` in terms of its authority. -/
theorem extract_authority (idna : Idna) (trie : Trie) (e : URLParams) {sch ui a : Bytes}
    (h : Authority e.url sch ui a) :
    extract idna trie e = .ok (match scanSplit a with
      | .bad er => ({ scheme := sch, userInfo := ui }, some er)
      | .literal inner after => literalF inner after { scheme := sch, userInfo := ui }
      | .name host after => nameF idna trie e host after { scheme := sch, userInfo := ui }) := by
  obtain ⟨rfl, h2⟩ := authority_iff.1 h
  rw [extract_eq]
  unfold extractF
  simp only
  rw [← h2]
  rfl

end Fasttld
