import Verif.Proofs.Chars
import Verif.Proofs.Strings
import Verif.Model.Extract

/-!
# Everything before the host name, described by splitting lists

`schemeSplit`, `userSplit`, `scanSplit` and `portPathSplit` use no indices; each is proved equal to the
index code of the model.
-/

set_option linter.unusedSimpArgs false

namespace Fasttld
open Spec

theorem takeWhile_append_drop {α : Type} (P : α → Bool) (l : List α) :
    l.takeWhile P ++ l.drop (l.takeWhile P).length = l := by
  induction l with
  | nil => rfl
  | cons a l ih => by_cases h : P a <;> simp [List.takeWhile_cons, h]; exact ih

theorem drop_takeWhile_length {α : Type} (P : α → Bool) (l : List α) :
    l.drop (l.takeWhile P).length = l.dropWhile P := by
  induction l with
  | nil => rfl
  | cons a l ih => by_cases h : P a <;> simp [List.takeWhile_cons, List.dropWhile_cons, h]; exact ih

theorem head_dropWhile {α : Type} (P : α → Bool) (l : List α) {x : α} {r : List α}
    (h : l.dropWhile P = x :: r) : P x = false := by
  induction l with
  | nil => simp at h
  | cons a l ih =>
    rw [List.dropWhile_cons] at h
    by_cases ha : P a = true
    · rw [if_pos ha] at h; exact ih h
    · rw [if_neg ha] at h; simp at h; rw [← h.1]; simpa using ha

/-! ## Scheme -/

/-- The scheme name (without colon) a string starts with. -/
def schemeName : Bytes → Bytes
  | [] => []
  | c :: r => if isLetter c then c :: r.takeWhile isSchemeChar else []

/-- The colon after a scheme name, if there is one. -/
def optColon (r : Bytes) : Bytes := if r.head? = some 58 then [58] else []

theorem optColon_append (r : Bytes) : optColon r ++ r.drop (optColon r).length = r := by
  unfold optColon
  split
  · rename_i h
    cases r with
    | nil => simp at h
    | cons x r => simp at h; simp [h]
  · simp

/-- Split off the scheme. -/
def schemeSplit (s : Bytes) : Bytes × Bytes :=
  let name := schemeName s
  let r1 := s.drop name.length
  let colon : Bytes := if name = [] then [] else optColon r1
  let r2 := r1.drop colon.length
  let sl := r2.takeWhile isSlash
  if 2 ≤ sl.length then (name ++ colon ++ sl, r2.dropWhile isSlash) else ([], s)

theorem schemeName_append (s : Bytes) : schemeName s ++ s.drop (schemeName s).length = s := by
  cases s with
  | nil => rfl
  | cons c r =>
    unfold schemeName
    by_cases h : isLetter c = true
    · simp [h, takeWhile_append_drop]
    · simp [h]

theorem schemeSplit_append (s : Bytes) : (schemeSplit s).1 ++ (schemeSplit s).2 = s := by
  unfold schemeSplit
  simp only
  have h1 := schemeName_append s
  generalize schemeName s = name at h1 ⊢
  generalize s.drop name.length = r1 at h1 ⊢
  have h3 : (if name = [] then [] else optColon r1)
      ++ r1.drop (if name = [] then [] else optColon r1).length = r1 := by
    by_cases h : name = []
    · simp [h]
    · simp only [h, if_false]; exact optColon_append r1
  generalize (if name = [] then [] else optColon r1) = colon at h3 ⊢
  split
  · simp only [List.append_assoc, List.takeWhile_append_dropWhile]
    rw [h3, h1]
  · simp

theorem schemeLoop_slash (n : Nat) (s : Bytes) (i : Nat) (colon : Bool) (k : Nat) (hi : 0 < i)
    (hk : 0 < k) (hn : n = i + s.length) :
    schemeLoop n s i colon k
      = if 2 ≤ k + (s.takeWhile isSlash).length then ((i + (s.takeWhile isSlash).length : Nat) : Int)
        else -1 := by
  induction s generalizing i k with
  | nil => simp at hn; subst hn; by_cases h2 : 2 ≤ k <;> simp [schemeLoop, h2]
  | cons c r ih =>
    rw [schemeLoop, if_neg (by omega), if_neg (by omega), contains_slash]
    by_cases hc : isSlash c = true
    · rw [if_pos hc, ih _ _ (by omega) (by omega) (by simp at hn; omega)]
      simp only [List.takeWhile_cons, hc, if_true, List.length_cons]
      have e1 : k + 1 + (r.takeWhile isSlash).length = k + ((r.takeWhile isSlash).length + 1) := by omega
      have e2 : i + 1 + (r.takeWhile isSlash).length = i + ((r.takeWhile isSlash).length + 1) := by omega
      rw [e1, e2]
    · rw [if_neg hc]
      simp only [List.takeWhile_cons, hc]
      by_cases h2 : k < 2
      · rw [if_pos h2]; simp; omega
      · rw [if_neg h2]; simp; omega

theorem isSchemeChar_not_slash {c : UInt8} (h : isSchemeChar c = true) : isSlash c = false := by
  revert h
  exact forall_byte (P := fun c => isSchemeChar c = true → isSlash c = false) (by decide +kernel) c

theorem isSchemeChar_colon : isSchemeChar 58 = false := by decide
theorem isSlash_colon : isSlash 58 = false := by decide
theorem isLetter_not_slash {c : UInt8} (h : isLetter c = true) : isSlash c = false :=
  isSchemeChar_not_slash (by simp [isSchemeChar, h])

theorem schemeLoop_afterColon (n : Nat) (s : Bytes) (i : Nat) (hi : 0 < i) (hn : n = i + s.length) :
    schemeLoop n s i true 0
      = if 2 ≤ (s.takeWhile isSlash).length then ((i + (s.takeWhile isSlash).length : Nat) : Int)
        else -1 := by
  cases s with
  | nil => simp [schemeLoop]
  | cons c r =>
    rw [schemeLoop, if_neg (by omega), if_pos rfl]
    simp only [Bool.not_true, Bool.false_and]
    rw [if_neg (by simp), if_neg (by simp), contains_slash]
    by_cases hc : isSlash c = true
    · rw [if_pos hc, schemeLoop_slash n r (i + 1) true 1 (by omega) (by omega) (by simp at hn; omega)]
      simp only [List.takeWhile_cons, hc, if_true, List.length_cons]
      have e1 : 1 + (r.takeWhile isSlash).length = (r.takeWhile isSlash).length + 1 := by omega
      have e2 : i + 1 + (r.takeWhile isSlash).length = i + ((r.takeWhile isSlash).length + 1) := by omega
      simp only [e1, e2]
    · rw [if_neg hc]; simp [List.takeWhile_cons, hc]

theorem schemeLoop_name (n : Nat) (s : Bytes) (i : Nat) (hi : 0 < i) (hn : n = i + s.length) :
    schemeLoop n s i false 0 =
      (let name := s.takeWhile isSchemeChar
       let r1 := s.drop name.length
       let colon : Bytes := optColon r1
       let r2 := r1.drop colon.length
       let sl := r2.takeWhile isSlash
       if 2 ≤ sl.length then ((i + name.length + colon.length + sl.length : Nat) : Int) else -1) := by
  induction s generalizing i with
  | nil => simp [schemeLoop]
  | cons c r ih =>
    rw [schemeLoop, if_neg (by omega), if_pos rfl]
    simp only [Bool.not_false, Bool.true_and]
    rw [contains_schemeChar, contains_slash]
    by_cases hc : isSchemeChar c = true
    · rw [if_pos hc, ih (i + 1) (by omega) (by simp at hn; omega)]
      simp only [List.takeWhile_cons, hc, if_true, List.length_cons, List.drop_succ_cons]
      have e : ∀ a b d : Nat, i + 1 + a + b + d = i + (a + 1) + b + d := by intros; omega
      simp only [e]
    · rw [if_neg hc]
      simp only [List.takeWhile_cons, hc]
      simp only [Bool.false_eq_true, if_false, List.length_nil, List.drop_zero, List.head?_cons]
      by_cases h58 : c = 58
      · subst h58
        rw [if_pos (by rfl), schemeLoop_afterColon n r (i + 1) (by omega) (by simp at hn; omega)]
        simp [optColon]
      · rw [if_neg (by simpa using h58)]
        have ho : optColon (c :: r) = [] := by simp [optColon, h58]
        simp only [ho, List.length_nil, List.drop_zero]
        by_cases hs : isSlash c = true
        · rw [if_pos hs, schemeLoop_slash n r (i + 1) false 1 (by omega) (by omega) (by simp at hn; omega)]
          simp only [List.takeWhile_cons, hs, if_true, List.length_cons]
          have e1 : 1 + (r.takeWhile isSlash).length = (r.takeWhile isSlash).length + 1 := by omega
          have e2 : i + 1 + (r.takeWhile isSlash).length
            = i + 0 + 0 + ((r.takeWhile isSlash).length + 1) := by omega
          simp only [e1, e2]
        · rw [if_neg hs]; simp [List.takeWhile_cons, hs]

theorem getSchemeEndIndex_eq (s : Bytes) :
    getSchemeEndIndex s = if (schemeSplit s).1 = [] then -1 else ((schemeSplit s).1.length : Int) := by
  unfold getSchemeEndIndex
  cases s with
  | nil => simp [schemeLoop, schemeSplit, schemeName]
  | cons c r =>
    rw [schemeLoop, if_pos rfl, contains_schemeFirst, contains_slash]
    by_cases hc : isLetter c = true
    · rw [if_pos hc, schemeLoop_name _ _ _ (by omega) (by simp; omega)]
      simp only [schemeSplit, schemeName, hc, if_true, List.length_cons, List.drop_succ_cons]
      simp only [reduceCtorEq, if_false]
      generalize List.drop (List.takeWhile isSchemeChar r).length r = r1
      generalize r1.drop (optColon r1).length = r2
      split
      · rw [if_neg (by simp)]
        simp; omega
      · simp
    · rw [if_neg hc]
      simp only [schemeSplit, schemeName, hc]
      simp only [Bool.false_eq_true, if_false, List.length_nil, List.drop_zero, if_true]
      by_cases hs : isSlash c = true
      · rw [if_pos hs, schemeLoop_slash _ r 1 false 1 (by omega) (by omega) (by simp; omega)]
        simp only [List.takeWhile_cons, hs, if_true, List.length_cons]
        have e1 : 1 + (r.takeWhile isSlash).length = (r.takeWhile isSlash).length + 1 := by omega
        simp only [e1]
        split <;> simp
      · rw [if_neg hs]; simp [List.takeWhile_cons, hs]

theorem schemeSplit_nil_snd {s : Bytes} (h : (schemeSplit s).1 = []) : (schemeSplit s).2 = s := by
  have := schemeSplit_append s
  rw [h] at this; simpa using this

theorem stageScheme_eq (s : Bytes) (u : ExtractResult) (hu : u.scheme = []) :
    stageScheme s u = .ok ({ u with scheme := (schemeSplit s).1 }, (schemeSplit s).2) := by
  unfold stageScheme
  rw [getSchemeEndIndex_eq]
  have happ := schemeSplit_append s
  by_cases h : (schemeSplit s).1 = []
  · rw [schemeSplit_nil_snd h]
    simp [h]
    cases u; simp_all
  · simp only [h, if_false]
    rw [if_pos (by omega), slice_prefix happ.symm rfl, bind_ok, slice_suffix happ.symm rfl, bind_ok]

/-! ## Userinfo -/

theorem indexAnyLoop_eq (as : AsciiSet) (P : UInt8 → Bool) (hP : ∀ c, as.contains c = P c) (s : Bytes)
    (i : Nat) : indexAnyLoop as s i = if s.dropWhile (fun c => !P c) = [] then -1
      else ((i + (s.takeWhile (fun c => !P c)).length : Nat) : Int) := by
  induction s generalizing i with
  | nil => simp [indexAnyLoop]
  | cons c r ih =>
    rw [indexAnyLoop, hP]
    by_cases hc : P c = true
    · simp [hc, List.takeWhile_cons, List.dropWhile_cons]
    · rw [if_neg hc, ih]
      simp only [List.takeWhile_cons, List.dropWhile_cons, hc]
      simp only [Bool.not_false, if_true, List.length_cons]
      have e : i + 1 + (r.takeWhile (fun c => !P c)).length
        = i + ((r.takeWhile (fun c => !P c)).length + 1) := by omega
      rw [e]

theorem indexAnyASCII_eq (as : AsciiSet) (P : UInt8 → Bool) (hP : ∀ c, as.contains c = P c) (s : Bytes) :
    indexAnyASCII s as = if s.dropWhile (fun c => !P c) = [] then -1
      else ((s.takeWhile (fun c => !P c)).length : Int) := by
  unfold indexAnyASCII
  rw [indexAnyLoop_eq as P hP]
  simp

theorem lastIndexByteLoop_append (b : UInt8) (l r : Bytes) (i : Nat) (best : Int) :
    lastIndexByteLoop b (l ++ r) i best
      = lastIndexByteLoop b r (i + l.length) (lastIndexByteLoop b l i best) := by
  induction l generalizing i best with
  | nil => simp [lastIndexByteLoop]
  | cons c l ih =>
    rw [List.cons_append, lastIndexByteLoop, ih, lastIndexByteLoop]
    congr 1; simp; omega

theorem lastIndexByteLoop_none (b : UInt8) (l : Bytes) (h : b ∉ l) (i : Nat) (best : Int) :
    lastIndexByteLoop b l i best = best := by
  induction l generalizing i best with
  | nil => rfl
  | cons c l ih =>
    rw [lastIndexByteLoop, if_neg (by intro hc; subst hc; simp at h), ih (by simp at h; exact h.2)]

theorem lastIndexByte_none {b : UInt8} {s : Bytes} (h : b ∉ s) : lastIndexByte s b = -1 :=
  lastIndexByteLoop_none b s h 0 (-1)

theorem lastIndexByte_some {b : UInt8} {s x y : Bytes} (hs : s = x ++ b :: y) (h : b ∉ y) :
    lastIndexByte s b = x.length := by
  subst hs
  unfold lastIndexByte
  rw [lastIndexByteLoop_append, lastIndexByteLoop, if_pos rfl, lastIndexByteLoop_none b y h]
  simp

/-- Split at the last occurrence of a byte. -/
def splitLastByte (b : UInt8) : Bytes → Option (Bytes × Bytes)
  | [] => none
  | c :: r =>
    match splitLastByte b r with
    | some (x, y) => some (c :: x, y)
    | none => if c = b then some ([], r) else none

theorem splitLastByte_none {b : UInt8} {s : Bytes} : splitLastByte b s = none ↔ b ∉ s := by
  induction s with
  | nil => simp [splitLastByte]
  | cons c r ih =>
    rw [splitLastByte]
    cases h : splitLastByte b r with
    | some p =>
      have : ¬ b ∉ r := fun hc => by rw [ih.2 hc] at h; simp at h
      simp only [reduceCtorEq, List.mem_cons, not_or, false_iff, not_and]
      intro _ ; exact this
    | none =>
      have := ih.1 h
      by_cases hc : c = b
      · simp [hc]
      · have : b ≠ c := fun e => hc e.symm
        simp [*]

theorem splitLastByte_some {b : UInt8} {s x y : Bytes} :
    splitLastByte b s = some (x, y) ↔ s = x ++ b :: y ∧ b ∉ y := by
  induction s generalizing x y with
  | nil => simp [splitLastByte]
  | cons c r ih =>
    rw [splitLastByte]
    cases h : splitLastByte b r with
    | some p =>
      obtain ⟨x', y'⟩ := p
      have h1 := ih.1 h
      simp only [Option.some.injEq, Prod.mk.injEq]
      constructor
      · rintro ⟨rfl, rfl⟩
        exact ⟨by rw [h1.1]; rfl, h1.2⟩
      · rintro ⟨h2, h3⟩
        rcases x with _ | ⟨a, x⟩
        · exfalso
          simp at h2
          rw [h2.2] at h1
          apply h3; rw [h1.1]; simp
        · simp at h2
          have := ih.2 ⟨h2.2, h3⟩
          rw [h] at this
          simp at this
          rw [h2.1, this.1, this.2]; simp
    | none =>
      have hn := splitLastByte_none.1 h
      by_cases hc : c = b
      · subst hc
        simp only [if_true, Option.some.injEq, Prod.mk.injEq]
        constructor
        · rintro ⟨rfl, rfl⟩; exact ⟨rfl, hn⟩
        · rintro ⟨h2, h3⟩
          rcases x with _ | ⟨a, x⟩
          · simp at h2; exact ⟨rfl, h2⟩
          · exfalso; simp at h2; apply hn; rw [h2.2]; simp
      · simp only [hc, if_false, reduceCtorEq, false_iff]
        rintro ⟨h2, h3⟩
        rcases x with _ | ⟨a, x⟩
        · simp at h2; exact hc h2.1
        · simp at h2; apply hn; rw [h2.2]; simp

/-- Split off the userinfo: (userinfo, rest). -/
def userSplit (s : Bytes) : Bytes × Bytes :=
  match splitLastByte 64 (s.takeWhile (fun c => !isUserInfoStop c)) with
  | some (x, y) => (x, y ++ s.dropWhile (fun c => !isUserInfoStop c))
  | none => ([], s)

theorem indexLastByteBefore_eq (s : Bytes) (b : UInt8) :
    indexLastByteBefore s b invalidUserInfoCharsSet
      = .ok (lastIndexByte (s.takeWhile (fun c => !isUserInfoStop c)) b) := by
  unfold indexLastByteBefore
  simp only
  rw [indexAnyASCII_eq _ _ contains_userInfoStop]
  have h := (List.takeWhile_append_dropWhile (p := fun c => !isUserInfoStop c) (l := s)).symm
  by_cases h3 : s.dropWhile (fun c => !isUserInfoStop c) = []
  · rw [h3, List.append_nil] at h
    rw [if_pos h3, ← h]; simp
  · rw [if_neg h3, if_pos (by omega), slice_prefix h rfl, bind_ok]

theorem stageUserInfo_eq (s : Bytes) (u : ExtractResult) (hu : u.userInfo = []) :
    stageUserInfo s u = .ok ({ u with userInfo := (userSplit s).1 }, (userSplit s).2) := by
  unfold stageUserInfo userSplit
  rw [indexLastByteBefore_eq, bind_ok]
  have h := (List.takeWhile_append_dropWhile (p := fun c => !isUserInfoStop c) (l := s)).symm
  cases hs : splitLastByte 64 (s.takeWhile (fun c => !isUserInfoStop c)) with
  | none =>
    rw [lastIndexByte_none (splitLastByte_none.1 hs)]
    simp
    cases u; simp_all
  | some p =>
    obtain ⟨x, y⟩ := p
    obtain ⟨h1, h2⟩ := splitLastByte_some.1 hs
    rw [lastIndexByte_some h1 h2]
    rw [if_pos (by omega)]
    have hss : s = x ++ 64 :: (y ++ s.dropWhile (fun c => !isUserInfoStop c)) := by
      conv => lhs; rw [h, h1]
      simp
    rw [slice_prefix hss rfl, bind_ok]
    rw [slice_suffix (a := x ++ [64]) (c := y ++ s.dropWhile (fun c => !isUserInfoStop c))
      (by conv => lhs; rw [hss]
          simp) (by simp), bind_ok]

end Fasttld
