import Verif.Proofs.Authority
import Verif.Spec.Extract

/-!
# Host boundaries: brackets, port and path, described by splitting lists
-/

set_option linter.unusedSimpArgs false

namespace Fasttld
open Spec

/-- `[` or `]`. -/
def isBracket (c : UInt8) : Bool := c == 91 || c == 93

/-- Boundary of an unbracketed host. -/
def scanName (s : Bytes) : HostPart :=
  match s.dropWhile (fun c => !(isHostEnd c || isBracket c)) with
  | [] => .name s []
  | c :: r =>
    if c = 91 then .bad .openingBracketNotFirst
    else if c = 93 then .bad .closingWithoutOpening
    else .name (s.takeWhile (fun c => !(isHostEnd c || isBracket c))) (c :: r)

/-- Boundary of a bracketed host, given the text after `[`. -/
def scanLiteral (r : Bytes) : HostPart :=
  match r.dropWhile (fun c => !isBracket c) with
  | [] => .bad .incompleteBrackets
  | c :: r2 =>
    if c = 91 then .bad .openingBracketNotFirst
    else
      let z := r2.takeWhile (fun c => !(isPathStart c || c == 91))
      let rest := r2.dropWhile (fun c => !(isPathStart c || c == 91))
      if rest.head? = some 91 then .bad .openingBracketNotFirst
      else match splitLastByte 93 z with
        | some (x, y) => .literal (r.takeWhile (fun c => !isBracket c) ++ 93 :: x) (y ++ rest)
        | none => .literal (r.takeWhile (fun c => !isBracket c)) (z ++ rest)

/-- Split at the end of the host. -/
def scanSplit (s : Bytes) : HostPart :=
  match s with
  | [] => .name [] []
  | c :: r => if c = 91 then scanLiteral r else scanName (c :: r)

theorem isHostEnd_91 : isHostEnd 91 = false := by decide
theorem isHostEnd_93 : isHostEnd 93 = false := by decide
theorem isPathStart_91 : isPathStart 91 = false := by decide
theorem isPathStart_93 : isPathStart 93 = false := by decide
theorem isPathStart_58 : isPathStart 58 = false := by decide

/-- Result of the scan loop when no bracket has been seen yet. -/
def nameScan (i : Nat) (s : Bytes) : Scan :=
  match s.dropWhile (fun c => !(isHostEnd c || isBracket c)) with
  | [] => .done (-1) (-1) (-1)
  | c :: _ =>
    if c = 91 then .err .openingBracketNotFirst
    else if c = 93 then .err .closingWithoutOpening
    else .done (-1) (-1) ((i + (s.takeWhile (fun c => !(isHostEnd c || isBracket c))).length : Nat) : Int)

theorem scanLoop_name (n : Nat) (s : Bytes) (i : Nat) (hi : 0 < i ∨ s.head? ≠ some 91) :
    scanLoop n s i (-1) (-1) = nameScan i s := by
  induction s generalizing i with
  | nil => simp [scanLoop, nameScan]
  | cons c r ih =>
    rw [scanLoop]
    unfold nameScan
    by_cases h91 : c = 91
    · subst h91
      have : 0 < i := by rcases hi with h | h; exact h; simp at h
      simp [this, isHostEnd_91, isBracket]
    · rw [if_neg (by simp [h91])]
      simp only [h91, if_false]
      by_cases h93 : c = 93
      · subst h93
        simp [isHostEnd_93, isBracket]
        try omega
      · simp only [h93, if_false]
        rw [if_pos trivial, if_neg (by simp), contains_hostEnd]
        by_cases hc : isHostEnd c = true
        · rw [if_pos hc]; simp [hc, h91, h93]
        · rw [if_neg hc, if_neg (by omega), ih (i + 1) (.inl (by omega))]
          have hb : isBracket c = false := by simp [isBracket, h91, h93]
          simp only [nameScan, List.takeWhile_cons, List.dropWhile_cons, hc, hb]
          simp only [Bool.or_self, Bool.not_false, if_true, List.length_cons]
          have e : i + 1 + (r.takeWhile (fun c => !(isHostEnd c || isBracket c))).length
            = i + ((r.takeWhile (fun c => !(isHostEnd c || isBracket c))).length + 1) := by omega
          rw [e]

theorem scanLoop_closed (n : Nat) (s : Bytes) (i : Nat) (j : Int) (hi : 0 < i) (hj : 0 < j) :
    scanLoop n s i 0 j =
      (match s.dropWhile (fun c => !(isPathStart c || c == 91)) with
      | [] => .done 0 (lastIndexByteLoop 93 (s.takeWhile (fun c => !(isPathStart c || c == 91))) i j) (-1)
      | c :: _ => if c = 91 then .err .openingBracketNotFirst
        else .done 0 (lastIndexByteLoop 93 (s.takeWhile (fun c => !(isPathStart c || c == 91))) i j)
          ((i + (s.takeWhile (fun c => !(isPathStart c || c == 91))).length : Nat) : Int)) := by
  induction s generalizing i j with
  | nil => simp [scanLoop, lastIndexByteLoop]
  | cons c r ih =>
    rw [scanLoop]
    by_cases h91 : c = 91
    · subst h91; simp [hi]
    · rw [if_neg (by simp [h91])]
      simp only [h91, if_false]
      rw [if_neg (by omega), contains_pathStart]
      by_cases hp : isPathStart c = true
      · have h93 : c ≠ 93 := by intro h; subst h; simp [isPathStart_93] at hp
        simp only [h93, if_false]
        rw [if_pos ⟨by omega, hp⟩]
        simp [hp, h91, lastIndexByteLoop]
      · have hj' : (0 : Int) < if c = 93 then (i : Int) else j := by split <;> omega
        rw [if_neg (by simp [hp]), if_neg (by omega), ih (i + 1) _ (by omega) hj']
        have hbeq : (c == 91) = false := by simpa using h91
        simp only [List.takeWhile_cons, List.dropWhile_cons, hp, hbeq]
        simp only [Bool.or_self, Bool.not_false, if_true, List.length_cons, lastIndexByteLoop]
        have e : i + 1 + (r.takeWhile (fun c => !(isPathStart c || c == 91))).length
            = i + ((r.takeWhile (fun c => !(isPathStart c || c == 91))).length + 1) := by omega
        rw [e]

theorem scanLoop_open (n : Nat) (s : Bytes) (i : Nat) (hi : 0 < i) (hn : n = i + s.length)
    (hs : s ≠ []) :
    scanLoop n s i 0 (-1) =
      (match s.dropWhile (fun c => !isBracket c) with
      | [] => .err .incompleteBrackets
      | c :: r2 =>
        if c = 91 then .err .openingBracketNotFirst
        else scanLoop n r2 (i + (s.takeWhile (fun c => !isBracket c)).length + 1) 0
          ((i + (s.takeWhile (fun c => !isBracket c)).length : Nat) : Int)) := by
  induction s generalizing i with
  | nil => simp at hs
  | cons c r ih =>
    rw [scanLoop]
    by_cases h91 : c = 91
    · subst h91; simp [hi, isBracket]
    · rw [if_neg (by simp [h91])]
      simp only [h91, if_false]
      rw [if_neg (by omega), contains_pathStart]
      by_cases h93 : c = 93
      · subst h93
        simp only [if_true, isPathStart_93]
        rw [if_neg (by simp), if_neg (by omega)]
        simp [isBracket]
      · have hb : isBracket c = false := by simp [isBracket, h91, h93]
        simp only [h93, if_false]
        rw [if_neg (by omega)]
        simp only [List.takeWhile_cons, List.dropWhile_cons, hb]
        simp only [Bool.not_false, if_true, List.length_cons]
        cases r with
        | nil =>
          rw [if_pos (by simp at hn; omega)]
          simp
        | cons d r' =>
          rw [if_neg (by simp at hn; omega), ih (i + 1) (by omega) (by simp at hn ⊢; omega) (by simp)]
          have e : i + 1 + ((d :: r').takeWhile (fun c => !isBracket c)).length
            = i + (((d :: r').takeWhile (fun c => !isBracket c)).length + 1) := by omega
          rw [e]

/-- The model's scan and adjustment agree with `scanSplit`. -/
theorem scan_eq (s : Bytes) :
    (match scanLoop s.length s 0 (-1) (-1) with
     | .err e => scanSplit s = .bad e
     | .done o c h =>
        (∃ host after, scanSplit s = .name host after ∧ s = host ++ after ∧ o = -1 ∧ c = -1 ∧
          adjustHostEnd s.length c h = (if after = [] then -1 else (host.length : Int)) ∧
          (∀ x t, after = x :: t → isHostEnd x = true)) ∨
        (∃ inner after, scanSplit s = .literal inner after ∧ s = 91 :: (inner ++ 93 :: after) ∧ o = 0 ∧
          c = inner.length + 1 ∧
          adjustHostEnd s.length c h = (if after = [] then -1 else (inner.length : Int) + 2))) := by
  cases s with
  | nil =>
    simp only [scanLoop]
    left
    exact ⟨[], [], rfl, rfl, by simp, by simp, by simp [adjustHostEnd], by simp⟩
  | cons c r =>
    by_cases h91 : c = 91
    · subst h91
      simp only [scanSplit, if_true]
      rw [scanLoop]
      rw [if_neg (by simp)]
      simp only [if_true]
      rw [if_neg (by decide), contains_pathStart, isPathStart_91]
      simp only [Bool.false_eq_true, and_false, if_false]
      cases r with
      | nil => simp [scanLiteral]
      | cons d r' =>
        rw [if_neg (by simp; omega), show ((0 : Nat) : Int) = 0 from rfl,
          if_neg (by decide),
          scanLoop_open _ (d :: r') (0 + 1) (by omega) (by simp; omega) (by simp)]
        generalize hr : d :: r' = r
        unfold scanLiteral
        have happ := List.takeWhile_append_dropWhile (p := fun c => !isBracket c) (l := r)
        cases hdw : r.dropWhile (fun c => !isBracket c) with
        | nil => simp
        | cons x r2 =>
          have hxb := head_dropWhile _ _ hdw
          simp only
          by_cases hx91 : x = 91
          · simp [hx91]
          · simp only [hx91, if_false]
            have hx93 : x = 93 := by
              have : isBracket x = true := by simpa using hxb
              simp [isBracket, hx91] at this; exact this
            subst hx93
            rw [hdw] at happ
            rw [scanLoop_closed _ _ _ _ (by omega) (by omega)]
            have happ2 := List.takeWhile_append_dropWhile
              (p := fun c => !(isPathStart c || c == 91)) (l := r2)
            generalize hz : r2.takeWhile (fun c => !(isPathStart c || c == 91)) = z at happ2
            generalize hrest : r2.dropWhile (fun c => !(isPathStart c || c == 91)) = rest at happ2
            generalize htk : r.takeWhile (fun c => !isBracket c) = a at happ
            by_cases hre : rest.head? = some 91
            · cases rest with
              | nil => simp at hre
              | cons y rest' => simp at hre; subst hre; simp
            · have hfin : ∀ H : Int, (match (Scan.done 0 (lastIndexByteLoop 93 z (0 + 1 + a.length + 1)
                    ((0 + 1 + a.length : Nat) : Int)) H) with
                  | .err e => (if rest.head? = some 91 then HostPart.bad .openingBracketNotFirst
                      else match splitLastByte 93 z with
                        | some (x, y) => .literal (a ++ 93 :: x) (y ++ rest)
                        | none => .literal a (z ++ rest)) = .bad e
                  | .done o c h =>
                    (∃ host after, (if rest.head? = some 91 then HostPart.bad .openingBracketNotFirst
                      else match splitLastByte 93 z with
                        | some (x, y) => .literal (a ++ 93 :: x) (y ++ rest)
                        | none => .literal a (z ++ rest)) = .name host after ∧ 91 :: r = host ++ after ∧
                        o = -1 ∧ c = -1 ∧
                      adjustHostEnd (91 :: r).length c h
                        = (if after = [] then -1 else (host.length : Int)) ∧
                      (∀ x t, after = x :: t → isHostEnd x = true)) ∨
                    (∃ inner after, (if rest.head? = some 91 then HostPart.bad .openingBracketNotFirst
                      else match splitLastByte 93 z with
                        | some (x, y) => .literal (a ++ 93 :: x) (y ++ rest)
                        | none => .literal a (z ++ rest)) = .literal inner after ∧
                        91 :: r = 91 :: (inner ++ 93 :: after) ∧ o = 0 ∧
                      c = inner.length + 1 ∧
                      adjustHostEnd (91 :: r).length c h
                        = (if after = [] then -1 else (inner.length : Int) + 2))) := by
                intro H
                simp only
                right
                rw [if_neg hre]
                have hadj : ∀ inner after : Bytes, 91 :: r = 91 :: (inner ++ 93 :: after) →
                    adjustHostEnd (91 :: r).length (inner.length + 1) H
                      = (if after = [] then -1 else (inner.length : Int) + 2) := by
                  intro inner after heq
                  have hl := congrArg List.length heq
                  unfold adjustHostEnd
                  by_cases ha : after = []
                  · subst ha; rw [if_pos (by simp at hl ⊢; omega), if_pos rfl]
                  · have hp := List.length_pos_iff.2 ha
                    rw [if_neg (by simp at hl ⊢; omega), if_pos (by omega), if_neg ha]; omega
                cases hsl : splitLastByte 93 z with
                | none =>
                  have hnot := splitLastByte_none.1 hsl
                  have heq : 91 :: r = 91 :: (a ++ 93 :: (z ++ rest)) := by rw [happ2, happ]
                  refine ⟨a, z ++ rest, rfl, heq, by simp, ?_, ?_⟩
                  · rw [lastIndexByteLoop_none _ _ hnot]; omega
                  · rw [lastIndexByteLoop_none _ _ hnot, ← hadj _ _ heq]
                    congr 1; omega
                | some p =>
                  obtain ⟨x, y⟩ := p
                  obtain ⟨hxy, hny⟩ := splitLastByte_some.1 hsl
                  have heq : 91 :: r = 91 :: ((a ++ 93 :: x) ++ 93 :: (y ++ rest)) := by
                    rw [← happ, ← happ2, hxy]; simp
                  have hli : lastIndexByteLoop 93 z (0 + 1 + a.length + 1) ((0 + 1 + a.length : Nat) : Int)
                      = ((a ++ 93 :: x).length : Int) + 1 := by
                    rw [hxy, lastIndexByteLoop_append, lastIndexByteLoop, if_pos rfl,
                      lastIndexByteLoop_none _ _ hny]
                    simp; omega
                  refine ⟨a ++ 93 :: x, y ++ rest, rfl, heq, by simp, hli, ?_⟩
                  rw [hli]; exact hadj _ _ heq
              cases rest with
              | nil => exact hfin (-1)
              | cons y rest' =>
                simp at hre
                simp only [hre, if_false]
                have := hfin (((0 + 1 + a.length + 1) + z.length : Nat) : Int)
                simp only [List.head?_cons, Option.some.injEq, hre, if_false] at this ⊢
                exact this
    · simp only [scanSplit, h91, if_false]
      rw [scanLoop_name _ _ _ (.inr (by simpa using h91))]
      unfold nameScan scanName
      have happ := List.takeWhile_append_dropWhile
        (p := fun c => !(isHostEnd c || isBracket c)) (l := c :: r)
      cases hdw : (c :: r).dropWhile (fun c => !(isHostEnd c || isBracket c)) with
      | nil =>
        simp only
        left
        exact ⟨_, _, rfl, by simp, by simp, by simp, by simp [adjustHostEnd], by simp⟩
      | cons x r2 =>
        have hx := head_dropWhile _ _ hdw
        simp only
        by_cases hx91 : x = 91
        · simp [hx91]
        · by_cases hx93 : x = 93
          · simp [hx93]
          · simp only [hx91, hx93, if_false]
            left
            refine ⟨_, _, rfl, ?_, by simp, by simp, ?_, ?_⟩
            · rw [hdw] at happ; exact happ.symm
            · simp [adjustHostEnd]; try omega
            · intro y t hy
              simp at hy
              rw [← hy.1]
              simpa [isBracket, hx91, hx93] using hx

end Fasttld
