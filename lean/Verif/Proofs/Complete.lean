import Verif.Proofs.Cut
import Verif.Proofs.Invalid

/-!
# Extract computes what its specification says: the host in the URL
-/

set_option linter.unusedSimpArgs false

namespace Fasttld
open Spec Trie

/-! ## Brackets -/

theorem cutAt_notBracket {y : Bytes} (h : NoBrackets y) {c : UInt8} (x : Bytes) (hc : isBracket c = true) :
    (y ++ c :: x).takeWhile (fun c => !isBracket c) = y ∧ (y ++ c :: x).dropWhile (fun c => !isBracket c) = c :: x := by
  obtain ⟨h1, h2⟩ := cutAt_iff.1 (show CutAt isBracket (y ++ c :: x) y (c :: x) from
    ⟨rfl, fun c hc => by simp [isBracket, h c hc], .inr ⟨c, x, rfl, hc⟩⟩)
  exact ⟨h1.symm, h2.symm⟩

theorem cutAt_plain {y : Bytes} (h : IsPlainHost y) {c : UInt8} (x : Bytes) (hc : isBracket c = true) :
    (y ++ c :: x).dropWhile (fun c => !(isHostEnd c || isBracket c)) = c :: x := by
  obtain ⟨-, h2⟩ := cutAt_iff.1 (show CutAt (fun c => isHostEnd c || isBracket c) (y ++ c :: x) y (c :: x) from
    ⟨rfl, fun c hc => by simp [isBracket, h c hc], .inr ⟨c, x, rfl, by simp [hc]⟩⟩)
  exact h2.symm

theorem hostAt_scan {a : Bytes} {p : HostPart} (h : HostAt a p) : scanSplit a = p := by
  cases h with
  | name h1 h2 => exact scanSplit_name_iff.2 ⟨rfl, h1, h2⟩
  | @openLate c host x h1 =>
    rw [List.cons_append, scanSplit, if_neg (h1 c (by simp)).2.1, ← List.cons_append, scanName,
      cutAt_plain h1 x (by decide)]
    rfl
  | @closeOnly host x h1 =>
    have key : scanName (host ++ 93 :: x) = .bad .closingWithoutOpening := by
      rw [scanName, cutAt_plain h1 x (by decide)]
      rfl
    cases host with
    | nil => rw [List.nil_append, scanSplit, if_neg (by decide)]; exact key
    | cons c host => rw [List.cons_append, scanSplit, if_neg (h1 c (by simp)).2.1]; exact key
  | @openTwice y x h1 =>
    rw [List.cons_append, scanSplit, if_pos rfl, scanLiteral, (cutAt_notBracket h1 x (by decide)).2]
    rfl
  | @openAgain y z x h1 h2 =>
    rw [List.cons_append, List.cons_append, List.append_assoc, List.cons_append, scanSplit, if_pos rfl, scanLiteral,
      (cutAt_notBracket h1 _ (by decide)).2]
    simp only
    rw [if_neg (by decide)]
    obtain ⟨-, h3⟩ := cutAt_iff.1 (show CutAt (fun c => isPathStart c || c == 91) (z ++ 91 :: x) z (91 :: x) from
      ⟨rfl, fun c hc => by simp [h2 c hc], .inr ⟨91, x, rfl, by decide⟩⟩)
    rw [← h3]
    rfl
  | @neverClosed y h1 =>
    rw [scanSplit, if_pos rfl, scanLiteral]
    rw [dropWhile_all _ _ (fun c hc => by simp [isBracket, h1 c hc])]
  | @literal y z inner rest path h1 h2 h3 h4 h5 =>
    rw [List.cons_append, ← h3, List.cons_append, List.append_assoc, List.cons_append, scanSplit, if_pos rfl,
      scanLiteral, (cutAt_notBracket h1 _ (by decide)).2, (cutAt_notBracket h1 _ (by decide)).1]
    simp only
    rw [if_neg (by decide)]
    obtain ⟨h6, h7⟩ := cutAt_iff.1 (show CutAt (fun c => isPathStart c || c == 91) (z ++ path) z path from
      ⟨rfl, fun c hc => by simp [h2 c hc], by
        cases path with
        | nil => exact .inl rfl
        | cons c t => exact .inr ⟨c, t, rfl, by simp [h5 c t rfl]⟩⟩)
    rw [← h6, ← h7, if_neg]
    · cases hs : splitLastByte 93 z with
      | none =>
        have := splitLastByte_none.1 hs
        simp only
        have h8 : splitLastByte 93 (y ++ 93 :: z) = some (y, z) := splitLastByte_some.2 ⟨rfl, this⟩
        have h9 : splitLastByte 93 (y ++ 93 :: z) = some (inner, rest) := splitLastByte_some.2 ⟨h3, h4⟩
        rw [h8] at h9
        simp only [Option.some.injEq, Prod.mk.injEq] at h9
        rw [h9.1, h9.2]
      | some p =>
        obtain ⟨x, w⟩ := p
        obtain ⟨rfl, hw⟩ := splitLastByte_some.1 hs
        simp only
        have h8 : splitLastByte 93 (y ++ 93 :: (x ++ 93 :: w)) = some (y ++ 93 :: x, w) :=
          splitLastByte_some.2 ⟨by simp, hw⟩
        have h9 : splitLastByte 93 (y ++ 93 :: (x ++ 93 :: w)) = some (inner, rest) :=
          splitLastByte_some.2 ⟨h3, h4⟩
        rw [h8] at h9
        simp only [Option.some.injEq, Prod.mk.injEq] at h9
        rw [h9.1, h9.2]
    · cases path with
      | nil => simp
      | cons c t =>
        have := h5 c t rfl
        simp only [List.head?_cons, Option.some.injEq]
        rintro rfl; revert this; decide

theorem scan_hostAt (a : Bytes) : HostAt a (scanSplit a) := by
  cases a with
  | nil => exact HostAt.name (host := []) (after := []) (by intro c hc; simp at hc) (by simp)
  | cons c r =>
    rw [scanSplit]
    split
    · rename_i hc
      subst hc
      unfold scanLiteral
      have hcut : CutAt isBracket r _ _ := cutAt_iff.2 ⟨rfl, rfl⟩
      have hnb : NoBrackets (r.takeWhile fun c => !isBracket c) := by
        intro c hc
        have := hcut.2.1 c hc
        simpa [isBracket] using this
      split
      · rename_i hd
        rw [hd] at hcut
        have h1 := hcut.1
        rw [List.append_nil] at h1
        rw [← h1] at hnb
        exact .neverClosed hnb
      · rename_i c2 r2 hd
        rw [hd] at hcut
        split
        · rename_i hc2
          subst hc2
          have := HostAt.openTwice (x := r2) hnb
          rw [List.cons_append, ← hcut.1] at this
          exact this
        · rename_i hc2
          have hc93 : c2 = 93 := by
            have := head_dropWhile _ _ hd
            simpa [isBracket, hc2] using this
          subst hc93
          simp only
          have hcut2 : CutAt (fun c => isPathStart c || c == 91) r2 _ _ := cutAt_iff.2 ⟨rfl, rfl⟩
          have hbp : BeforePath (r2.takeWhile fun c => !(isPathStart c || c == 91)) := by
            intro c hc
            have := hcut2.2.1 c hc
            simpa using this
          split
          · rename_i hh
            obtain ⟨t, ht⟩ : ∃ t, r2.dropWhile (fun c => !(isPathStart c || c == 91)) = 91 :: t := by
              cases hx : r2.dropWhile (fun c => !(isPathStart c || c == 91)) with
              | nil => rw [hx] at hh; simp at hh
              | cons c t => rw [hx] at hh; simp at hh; exact ⟨t, by rw [hh]⟩
            have := HostAt.openAgain (x := t) hnb hbp
            rw [← ht, List.cons_append, List.cons_append, List.append_assoc, List.cons_append, ← hcut2.1,
              ← hcut.1] at this
            exact this
          · rename_i hh
            have hpath : ∀ x t, r2.dropWhile (fun c => !(isPathStart c || c == 91)) = x :: t → isPathStart x = true := by
              intro x t hx
              rcases hcut2.2.2 with h | ⟨c, t', h, hc⟩
              · rw [hx] at h; simp at h
              · rw [hx] at h
                injection h with h1 h2
                subst h1
                rw [hx] at hh
                simp at hh
                simpa [hh] using hc
            split
            · rename_i x w hs
              obtain ⟨h1, h2⟩ := splitLastByte_some.1 hs
              have := HostAt.literal (inner := r.takeWhile (fun c => !isBracket c) ++ 93 :: x) hnb hbp
                (by rw [h1]; simp) h2 hpath
              have e : (91 :: (r.takeWhile (fun c => !isBracket c) ++ 93 :: x) ++ 93 :: w ++
                  r2.dropWhile (fun c => !(isPathStart c || c == 91))) = 91 :: r := by
                conv => rhs; rw [hcut.1, hcut2.1, h1]
                simp
              rw [e] at this
              exact this
            · rename_i hs
              have h2 := splitLastByte_none.1 hs
              have := HostAt.literal (inner := r.takeWhile (fun c => !isBracket c)) hnb hbp rfl h2 hpath
              have e : (91 :: (r.takeWhile (fun c => !isBracket c)) ++
                  93 :: (r2.takeWhile fun c => !(isPathStart c || c == 91)) ++
                  r2.dropWhile (fun c => !(isPathStart c || c == 91))) = 91 :: r := by
                conv => rhs; rw [hcut.1, hcut2.1]
                simp
              rw [e] at this
              exact this
    · rename_i hc
      have hs : scanSplit (c :: r) = scanName (c :: r) := by rw [scanSplit, if_neg hc]
      have hcut : CutAt (fun c => isHostEnd c || isBracket c) (c :: r) _ _ := cutAt_iff.2 ⟨rfl, rfl⟩
      have hpl : IsPlainHost ((c :: r).takeWhile fun c => !(isHostEnd c || isBracket c)) := by
        intro x hx
        have := hcut.2.1 x hx
        simp [isBracket] at this
        exact ⟨this.1, this.2⟩
      generalize hp : scanName (c :: r) = p at hs ⊢
      cases p with
      | name host after =>
        obtain ⟨h1, h2, h3⟩ := scanSplit_name_iff.1 hs
        rw [h1]
        exact .name h2 h3
      | bad er =>
        unfold scanName at hp
        split at hp
        · simp at hp
        · rename_i c2 r2 hd
          rw [hd] at hcut
          split at hp
          · rename_i hc2
            subst hc2
            injection hp with hp
            subst hp
            cases hx : (c :: r).takeWhile (fun c => !(isHostEnd c || isBracket c)) with
            | nil =>
              rw [hx] at hcut
              have := hcut.1
              rw [List.nil_append] at this
              injection this with h1 h2
              exact absurd h1 hc
            | cons d t =>
              rw [hx] at hcut hpl
              have h1 := HostAt.openLate (x := r2) hpl
              have h2 := hcut.1
              rw [← h2] at h1
              exact h1
          · split at hp
            · rename_i hc2
              subst hc2
              injection hp with hp
              subst hp
              have h1 := HostAt.closeOnly (x := r2) hpl
              have h2 := hcut.1
              rw [← h2] at h1
              exact h1
            · simp at hp
      | literal inner after =>
        exfalso
        unfold scanName at hp
        split at hp
        · simp at hp
        · split at hp
          · simp at hp
          · split at hp <;> simp at hp

theorem hostAt_iff {a : Bytes} {p : HostPart} : HostAt a p ↔ scanSplit a = p :=
  ⟨hostAt_scan, fun h => h ▸ scan_hostAt a⟩

/-! ## Malformed escapes -/

theorem decodes_append' {a ra b rb : Bytes} (ha : Decodes a ra) (hb : Decodes b rb) : Decodes (a ++ b) (ra ++ rb) := by
  induction ha with
  | nil => exact hb
  | escape h1 h2 _ ih => exact .escape h1 h2 ih
  | plus _ ih => exact .plus ih
  | byte h1 h2 _ ih => exact .byte h1 h2 ih

theorem queryUnescape_bad {b : Bytes}
    (hb : ∀ h l t n m, b = h :: l :: t → hexDigit h = some n → hexDigit l ≠ some m) :
    queryUnescape (37 :: b) = .error ((37 :: b).take 3) := by
  match b with
  | [] => rfl
  | [x] => rfl
  | x :: y :: t =>
    have h1 : (isHexDigit x && isHexDigit y) = false := by
      rw [Bool.and_eq_false_iff]
      by_cases hx : isHexDigit x = true
      · right
        by_cases hy : isHexDigit y = true
        · exact absurd (by rw [hexDigit_iff, if_pos hy]) (hb x y t _ _ rfl (by rw [hexDigit_iff, if_pos hx]))
        · simpa using hy
      · left; simpa using hx
    rw [queryUnescape]
    simp [h1]

theorem queryUnescape_append {a ra b esc : Bytes} (ha : Decodes a ra) (hb : queryUnescape b = .error esc) :
    queryUnescape (a ++ b) = .error esc := by
  induction ha with
  | nil => exact hb
  | @escape h l n m t r h1 h2 _ ih =>
    rw [hexDigit_iff] at h1 h2
    split at h1
    · split at h2
      · rename_i g1 g2
        rw [List.cons_append, List.cons_append, List.cons_append, queryUnescape]
        simp [g1, g2, ih]
      · simp at h2
    · simp at h1
  | @plus t r _ ih =>
    rw [List.cons_append, queryUnescape]
    · simp [ih]
    all_goals simp
  | @byte c t r h1 h2 _ ih =>
    rw [List.cons_append, queryUnescape]
    · simp [ih]
    all_goals (intros; simp_all)

theorem queryUnescape_error_iff {s esc : Bytes} : queryUnescape s = .error esc ↔ FirstBadEscape s esc := by
  constructor
  · intro h
    have key : ∀ {x b esc}, FirstBadEscape b esc → (∃ r, Decodes x r) → FirstBadEscape (x ++ b) esc := by
      rintro x b esc ⟨a, c, rfl, ⟨r, hr⟩, h2, h3⟩ ⟨r', hr'⟩
      exact ⟨x ++ a, c, by simp, ⟨_, decodes_append' hr' hr⟩, h2, h3⟩
    fun_induction queryUnescape s generalizing esc with
    | case1 => simp at h
    | case2 => simp at h
    | case3 h' l t hh e he ih =>
      injection h with h; subst h
      simp only [Bool.and_eq_true] at hh
      exact key (x := [37, h', l]) (ih he) ⟨_, .escape (by rw [hexDigit_iff, if_pos hh.1])
        (by rw [hexDigit_iff, if_pos hh.2]) .nil⟩
    | case4 h' l t hh =>
      injection h with h; subst h
      refine ⟨[], h' :: l :: t, rfl, ⟨[], .nil⟩, ?_, rfl⟩
      rintro a b t' n m e e1 e2
      injection e with e3 e
      injection e with e4 e5
      subst e3; subst e4
      rw [hexDigit_iff] at e1 e2
      apply hh
      rw [Bool.and_eq_true]
      constructor
      · by_cases hx : isHexDigit h' = true
        · exact hx
        · rw [if_neg hx] at e1; simp at e1
      · by_cases hx : isHexDigit l = true
        · exact hx
        · rw [if_neg hx] at e2; simp at e2
    | case5 h' =>
      injection h with h; subst h
      exact ⟨[], [h'], rfl, ⟨[], .nil⟩, by simp, rfl⟩
    | case6 =>
      injection h with h; subst h
      exact ⟨[], [], rfl, ⟨[], .nil⟩, by simp, rfl⟩
    | case7 => simp at h
    | case8 c t h1 h2 h3 e he ih =>
      injection h with h; subst h
      refine key (x := [c]) (ih he) ?_
      by_cases hc : c = 43
      · subst hc; exact ⟨_, .plus .nil⟩
      · refine ⟨_, .byte ?_ hc .nil⟩
        rintro rfl
        match t with
        | [] => exact h3 rfl rfl
        | [x] => exact h2 x rfl rfl
        | x :: y :: t => exact h1 x y t rfl rfl
  · rintro ⟨a, b, rfl, ⟨r, hr⟩, hb, rfl⟩
    exact queryUnescape_append hr (queryUnescape_bad hb)

end Fasttld
