import Verif.Proofs.Utf8
import Verif.Model.Strings

/-!
# The string helpers, described on character sequences
-/

namespace Fasttld
open Spec

/-! ## Slices -/

theorem slice_eq {s a b c : Bytes} {lo hi : Int} (hs : s = a ++ b ++ c) (hlo : lo = a.length)
    (hhi : hi = a.length + b.length) : slice s lo hi = .ok b := by
  subst hs hlo hhi
  unfold slice
  rw [if_pos (by simp; omega)]
  have h1 : ((a.length : Int) + b.length).toNat = (a ++ b).length := by simp; omega
  rw [h1, List.take_left]
  simp

theorem slice_prefix {s a c : Bytes} {hi : Int} (hs : s = a ++ c) (hhi : hi = a.length) :
    slice s 0 hi = .ok a :=
  slice_eq (a := []) (b := a) (c := c) (by simp [hs]) (by simp) (by simp [hhi])

theorem slice_suffix {s a c : Bytes} {lo : Int} (hs : s = a ++ c) (hlo : lo = a.length) :
    slice s lo s.length = .ok c :=
  slice_eq (a := a) (b := c) (c := []) (by simp [hs]) hlo (by simp [hs])

theorem index_eq {s a c : Bytes} {b : UInt8} {i : Int} (hs : s = a ++ b :: c) (hi : i = a.length) :
    index s i = .ok b := by
  subst hs hi
  simp [index]

theorem index_zero (b : UInt8) (c : Bytes) : index (b :: c) 0 = .ok b :=
  index_eq (a := []) (c := c) (by simp) (by simp)
theorem index_one (a b : UInt8) (c : Bytes) : index (a :: b :: c) 1 = .ok b :=
  index_eq (a := [a]) (c := c) (by simp) (by simp)
theorem slice_from_one (a : UInt8) (c : Bytes) : slice (a :: c) 1 (a :: c).length = .ok c :=
  slice_suffix (a := [a]) (by simp) (by simp)
theorem slice_from_two (a b : UInt8) (c : Bytes) : slice (a :: b :: c) 2 (a :: b :: c).length = .ok c :=
  slice_suffix (a := [a, b]) (by simp) (by simp)

theorem bind_ok {ε α β : Type} (a : α) (f : α → Except ε β) : ((Except.ok a : Except ε α) >>= f) = f a := rfl
theorem bind_error {ε α β : Type} (e : ε) (f : α → Except ε β) :
    ((Except.error e : Except ε α) >>= f) = .error e := rfl

/-! ## Iteration -/

/-- The iterations of `range` over a character sequence starting at byte offset `i`. -/
def offs : List (Nat × Bytes) → Nat → List (Nat × Nat)
  | [], _ => []
  | t :: ts, i => (i, t.1) :: offs ts (i + t.2.length)

theorem rangeFrom_eq (s : Bytes) (i : Nat) : rangeFrom s i = offs (toks s) i := by
  induction s using toks_induction generalizing i with
  | nil => simp [rangeFrom, offs]
  | enc r q hr ih =>
    rw [toks_encode hr, offs, ← ih]
    have hd := decode_encode hr q
    obtain ⟨b, t, he, -, -⟩ := encode_shape hr
    rw [he] at hd ⊢
    rw [List.cons_append] at hd ⊢
    rw [rangeFrom, hd]
    simp
  | err b t hd ih =>
    rw [toks_error hd, offs, ← ih, rangeFrom, hd]
    simp

theorem rangeString_eq (s : Bytes) : rangeString s = offs (toks s) 0 := rangeFrom_eq s 0

theorem length_le_flat {A : List (Nat × Bytes)} (h : ∀ t ∈ A, IsTok t) : A.length ≤ (flat A).length := by
  induction A with
  | nil => simp
  | cons a A ih =>
    have h1 := ih (fun t ht => h t (List.mem_cons_of_mem _ ht))
    have h2 := List.length_pos_iff.2 (h a (by simp)).ne_nil
    simp; omega

theorem isTok_of_split {s : Bytes} {A B} (h : toks s = A ++ B) : ∀ t ∈ A, IsTok t :=
  fun t ht => isTok_of_mem (s := s) (by rw [h]; exact List.mem_append_left _ ht)

/-! ## lastIndexAny -/

/-- The character belongs to the set. -/
def inSet (set : RuneSet) (t : Nat × Bytes) : Bool := set.exists t.1

theorem lastIndexAnyLoop_none {s : Bytes} {set : RuneSet} {A B} (h : toks s = A ++ B)
    (hn : ∀ t ∈ A, inSet set t = false) (fuel : Nat) (hf : A.length < fuel) :
    lastIndexAnyLoop s set fuel (flat A).length = .ok (-1) := by
  induction fuel generalizing A B with
  | zero => omega
  | succ fuel ih =>
    rw [lastIndexAnyLoop]
    rcases List.eq_nil_or_concat A with rfl | ⟨A', t, rfl⟩
    · simp
    · rw [List.concat_eq_append] at *
      have hs : s = flat (A' ++ [t]) ++ flat B := by rw [← flat_append, ← h, flat_toks]
      have hne : (flat (A' ++ [t])).length > 0 := by
        have := length_le_flat (isTok_of_split h)
        simp at this ⊢; omega
      rw [if_pos (by omega), slice_prefix hs rfl, bind_ok]
      have hd := decodeLast_toks (toks_flat_split h).1
      simp only [hd.1]
      have ht : set.exists t.1 = false := hn t (by simp)
      rw [ht, if_neg (by simp)]
      have hi : (((flat (A' ++ [t])).length : Int) - t.2.length) = (flat A').length := by simp
      rw [hi]
      refine ih (A := A') (B := t :: B) ?_ (fun u hu => hn u (by simp [hu])) (by simp at hf; omega)
      rw [h]; simp

theorem lastIndexAnyLoop_some {s : Bytes} {set : RuneSet} {A t B C} (h : toks s = (A ++ t :: B) ++ C)
    (ht : inSet set t = true) (hn : ∀ u ∈ B, inSet set u = false) (fuel : Nat)
    (hf : B.length < fuel) :
    lastIndexAnyLoop s set fuel (flat (A ++ t :: B)).length = .ok (flat A).length := by
  induction fuel generalizing B C with
  | zero => omega
  | succ fuel ih =>
    rw [lastIndexAnyLoop]
    have hs : s = flat (A ++ t :: B) ++ flat C := by rw [← flat_append, ← h, flat_toks]
    have hne : (flat (A ++ t :: B)).length > 0 := by
      have := length_le_flat (isTok_of_split h)
      simp at this ⊢; omega
    rw [if_pos (by omega), slice_prefix hs rfl, bind_ok]
    have htk := (toks_flat_split h).1
    rcases List.eq_nil_or_concat B with rfl | ⟨B', u, rfl⟩
    · have hd := decodeLast_toks htk
      simp only [hd.1]
      rw [show set.exists t.1 = true from ht, if_pos rfl]
      simp
    · rw [List.concat_eq_append] at *
      have hd := decodeLast_toks (A := A ++ t :: B') (t := u) (by rw [htk]; simp)
      simp only [hd.1]
      have hu : set.exists u.1 = false := hn u (by simp)
      rw [hu, if_neg (by simp)]
      have hi : (((flat (A ++ t :: (B' ++ [u]))).length : Int) - u.2.length)
          = (flat (A ++ t :: B')).length := by simp; omega
      rw [hi]
      refine ih (B := B') (C := u :: C) ?_ (fun v hv => hn v (by simp [hv])) (by simp at hf; omega)
      rw [h]; simp

theorem toks_length_le (s : Bytes) : (toks s).length ≤ s.length := by
  have h := length_le_flat (A := toks s) (fun t ht => isTok_of_mem ht)
  simpa using h

theorem lastIndexAny_none {s : Bytes} {set : RuneSet} (hn : ∀ t ∈ toks s, inSet set t = false) :
    lastIndexAny s set = .ok (-1) := by
  have := lastIndexAnyLoop_none (s := s) (A := toks s) (B := []) (by simp) hn (s.length + 1)
    (by have := toks_length_le s; omega)
  simpa [lastIndexAny] using this

theorem lastIndexAny_some {s : Bytes} {set : RuneSet} {A t B} (h : toks s = A ++ t :: B)
    (ht : inSet set t = true) (hn : ∀ u ∈ B, inSet set u = false) :
    lastIndexAny s set = .ok (flat A).length := by
  have := lastIndexAnyLoop_some (C := []) (by simpa using h) ht hn (s.length + 1)
    (by have := toks_length_le s; rw [h] at this; simp at this; omega)
  rw [← h] at this
  simpa [lastIndexAny] using this

/-- Every list either has no element with the property or a last one. -/
theorem exists_last_split {α : Type} (P : α → Bool) (l : List α) :
    (∀ x ∈ l, P x = false) ∨ ∃ A x B, l = A ++ x :: B ∧ P x = true ∧ ∀ y ∈ B, P y = false := by
  induction l with
  | nil => left; simp
  | cons a l ih =>
    rcases ih with h | ⟨A, x, B, rfl, hx, hB⟩
    · by_cases ha : P a = true
      · exact .inr ⟨[], a, l, rfl, ha, h⟩
      · left
        intro x hx
        rcases List.mem_cons.1 hx with rfl | hx
        · simpa using ha
        · exact h x hx
    · exact .inr ⟨a :: A, x, B, rfl, hx, hB⟩

/-! ## fastTrim -/

/-- Drop the elements with the property from the end. -/
def dropWhileEnd {α : Type} (P : α → Bool) (l : List α) : List α := (l.reverse.dropWhile P).reverse

theorem dropWhileEnd_append_pos {α : Type} (P : α → Bool) (l : List α) {x : α} (h : P x = true) :
    dropWhileEnd P (l ++ [x]) = dropWhileEnd P l := by
  simp [dropWhileEnd, h]

theorem dropWhileEnd_append_neg {α : Type} (P : α → Bool) (l : List α) {x : α} (h : P x = false) :
    dropWhileEnd P (l ++ [x]) = l ++ [x] := by
  simp [dropWhileEnd, h]

@[simp] theorem dropWhileEnd_nil {α : Type} (P : α → Bool) : dropWhileEnd P [] = [] := rfl

theorem dropWhile_all {α : Type} (P : α → Bool) (l : List α) (h : ∀ x ∈ l, P x = true) :
    l.dropWhile P = [] := by
  induction l with
  | nil => rfl
  | cons a l ih => rw [List.dropWhile_cons, h a (by simp)]; exact ih (fun x hx => h x (by simp [hx]))

theorem dropWhileEnd_all {α : Type} (P : α → Bool) (l : List α) (h : ∀ x ∈ l, P x = true) :
    dropWhileEnd P l = [] := by
  rw [dropWhileEnd, List.reverse_eq_nil_iff]
  apply dropWhile_all
  intro x hx; exact h x (by simpa using hx)

theorem trimLeftLoop_all {set : RuneSet} (ts : List (Nat × Bytes)) (h : ∀ t ∈ ts, inSet set t = true)
    (i : Nat) (st : Int) (ex : Bool) :
    (trimLeftLoop set (offs ts i) st ex).2 = (ex || !ts.isEmpty, false) := by
  induction ts generalizing i st ex with
  | nil => simp [offs, trimLeftLoop]
  | cons t ts ih =>
    have ht : set.exists t.1 = true := h t (by simp)
    rw [offs, trimLeftLoop, if_neg (by simp [ht])]
    rw [ih (fun u hu => h u (by simp [hu]))]
    simp

theorem trimLeftLoop_some {set : RuneSet} (A : List (Nat × Bytes)) (t) (B)
    (h : ∀ u ∈ A, inSet set u = true) (ht : inSet set t = false) (i : Nat) (st : Int) (ex : Bool) :
    (trimLeftLoop set (offs (A ++ t :: B) i) st ex).1 = i + (flat A).length ∧
    (trimLeftLoop set (offs (A ++ t :: B) i) st ex).2.2 = true := by
  induction A generalizing i st ex with
  | nil =>
    have : set.exists t.1 = false := ht
    simp [offs, trimLeftLoop, this]
  | cons a A ih =>
    have ha : set.exists a.1 = true := h a (by simp)
    rw [List.cons_append, offs, trimLeftLoop, if_neg (by simp [ha])]
    have := ih (fun u hu => h u (by simp [hu])) (i + a.2.length) i true
    rw [this.1, this.2]
    simp; omega

theorem trimRightLoop_all {s : Bytes} {set : RuneSet} {A B} (h : toks s = A ++ B)
    (hn : ∀ t ∈ A, inSet set t = true) (fuel : Nat) (hf : A.length < fuel) (e : Int) (ex : Bool) :
    ∃ e', trimRightLoop s set fuel (flat A).length e ex = .ok (e', ex || !A.isEmpty, false) ∧
      (A = [] → e' = e) := by
  induction fuel generalizing A B e ex with
  | zero => omega
  | succ fuel ih =>
    rw [trimRightLoop]
    rcases List.eq_nil_or_concat A with rfl | ⟨A', t, rfl⟩
    · exact ⟨e, by simp, fun _ => rfl⟩
    · rw [List.concat_eq_append] at *
      have hs : s = flat (A' ++ [t]) ++ flat B := by rw [← flat_append, ← h, flat_toks]
      have hne : (flat (A' ++ [t])).length > 0 := by
        have := length_le_flat (isTok_of_split h)
        simp at this ⊢; omega
      rw [if_pos (by omega), slice_prefix hs rfl, bind_ok]
      have hd := decodeLast_toks (toks_flat_split h).1
      simp only [hd.1]
      have ht : set.exists t.1 = true := hn t (by simp)
      rw [ht]
      have hi : (((flat (A' ++ [t])).length : Int) - t.2.length) = (flat A').length := by simp
      rw [hi]
      obtain ⟨e', he', -⟩ := ih (A := A') (B := t :: B) (by rw [h]; simp)
        (fun u hu => hn u (by simp [hu])) (by simp at hf; omega) (flat (A' ++ [t])).length true
      have hb : (ex || !(A' ++ [t]).isEmpty) = true := by cases A' <;> simp
      exact ⟨e', by rw [hb]; simpa using he', by simp⟩

theorem trimRightLoop_some {s : Bytes} {set : RuneSet} {A t B C} (h : toks s = (A ++ t :: B) ++ C)
    (ht : inSet set t = false) (hn : ∀ u ∈ B, inSet set u = true) (fuel : Nat)
    (hf : B.length < fuel) (e : Int) (ex : Bool) :
    ∃ ex', trimRightLoop s set fuel (flat (A ++ t :: B)).length e ex
      = .ok ((flat (A ++ [t])).length, ex', true) := by
  induction fuel generalizing B C e ex with
  | zero => omega
  | succ fuel ih =>
    rw [trimRightLoop]
    have hs : s = flat (A ++ t :: B) ++ flat C := by rw [← flat_append, ← h, flat_toks]
    have hne : (flat (A ++ t :: B)).length > 0 := by
      have := length_le_flat (isTok_of_split h)
      simp at this ⊢; omega
    rw [if_pos (by omega), slice_prefix hs rfl, bind_ok]
    have htk := (toks_flat_split h).1
    rcases List.eq_nil_or_concat B with rfl | ⟨B', u, rfl⟩
    · have hd := decodeLast_toks htk
      simp only [hd.1]
      rw [show set.exists t.1 = false from ht]
      exact ⟨ex, rfl⟩
    · rw [List.concat_eq_append] at *
      have hd := decodeLast_toks (A := A ++ t :: B') (t := u) (by rw [htk]; simp)
      simp only [hd.1]
      have hu : set.exists u.1 = true := hn u (by simp)
      rw [hu]
      have hi : (((flat (A ++ t :: (B' ++ [u]))).length : Int) - u.2.length)
          = (flat (A ++ t :: B')).length := by simp; omega
      rw [hi]
      simpa using ih (B := B') (C := u :: C) (by rw [h]; simp) (fun v hv => hn v (by simp [hv]))
        (by simp at hf; omega) (flat (A ++ t :: (B' ++ [u]))).length true

/-- Trimming on character sequences. -/
def trimToks (set : RuneSet) (mode : TrimMode) (ts : List (Nat × Bytes)) : List (Nat × Bytes) :=
  match mode with
  | .trimBoth => dropWhileEnd (inSet set) (ts.dropWhile (inSet set))
  | .trimLeft => ts.dropWhile (inSet set)
  | .trimRight => dropWhileEnd (inSet set) ts

theorem dropWhile_split {α : Type} (P : α → Bool) (A : List α) (t : α) (B : List α)
    (h : ∀ u ∈ A, P u = true) (ht : P t = false) : (A ++ t :: B).dropWhile P = t :: B := by
  induction A with
  | nil => simp [ht]
  | cons a A ih =>
    rw [List.cons_append, List.dropWhile_cons, h a (by simp)]
    exact ih (fun u hu => h u (by simp [hu]))

theorem dropWhileEnd_split {α : Type} (P : α → Bool) (A : List α) (t : α) (B : List α)
    (h : ∀ u ∈ B, P u = true) (ht : P t = false) : dropWhileEnd P (A ++ t :: B) = A ++ [t] := by
  unfold dropWhileEnd
  have : (A ++ t :: B).reverse = B.reverse ++ t :: A.reverse := by simp
  rw [this, dropWhile_split P _ _ _ (by simpa using h) ht]
  simp

theorem exists_first_split {α : Type} (P : α → Bool) (l : List α) :
    (∀ x ∈ l, P x = true) ∨ ∃ A x B, l = A ++ x :: B ∧ P x = false ∧ ∀ y ∈ A, P y = true := by
  induction l with
  | nil => left; simp
  | cons a l ih =>
    by_cases ha : P a = true
    · rcases ih with h | ⟨A, x, B, rfl, hx, hA⟩
      · left; intro x hx
        rcases List.mem_cons.1 hx with rfl | hx
        · exact ha
        · exact h x hx
      · refine .inr ⟨a :: A, x, B, rfl, hx, ?_⟩
        intro y hy
        rcases List.mem_cons.1 hy with rfl | hy
        · exact ha
        · exact hA y hy
    · exact .inr ⟨[], a, l, rfl, by simpa using ha, by simp⟩

/-- The right half, given that the left half stopped after the characters `A`. -/
theorem fastTrimRight_eq {s : Bytes} {set : RuneSet} {mode : TrimMode} {A D}
    (h : toks s = A ++ D) (hne : D = [] → A = []) (hD : ∀ t D', D = t :: D' → A = [] ∨ inSet set t = false) :
    fastTrimRight s set mode (flat A).length
      = .ok (flat (if mode = .trimLeft then D else dropWhileEnd (inSet set) D)) := by
  have hs : s = flat A ++ flat D := by rw [← flat_append, ← h, flat_toks]
  unfold fastTrimRight
  by_cases hm : mode = .trimLeft
  · rw [if_neg (by simp [hm]), if_pos hm, slice_suffix hs rfl]
  · rw [if_pos hm, if_neg hm]
    have hlen := toks_length_le s
    rcases exists_last_split (fun t => !inSet set t) (toks s) with hall | ⟨X, t, Y, hx, ht, hY⟩
    · -- everything is trimmed
      have hall' : ∀ t ∈ toks s, inSet set t = true := fun t ht => by simpa using hall t ht
      have hAn : A = [] := by
        rcases D with _ | ⟨d, D'⟩
        · exact hne rfl
        · rcases hD d D' rfl with h1 | h1
          · exact h1
          · exfalso
            have := hall' d (by rw [h]; simp)
            rw [this] at h1; simp at h1
      subst hAn
      simp at h
      subst h
      obtain ⟨e', he', hee⟩ := trimRightLoop_all (s := s) (A := toks s) (B := []) (by simp) hall'
        (s.length + 1) (by omega) 0 false
      rw [flat_toks] at he'
      rw [he', bind_ok, dropWhileEnd_all _ _ hall']
      cases htk : toks s with
      | nil =>
        have : s = [] := by rw [← flat_toks s, htk]; rfl
        subst this
        have := hee htk
        subst this
        simp [slice]
      | cons => simp
    · have ht' : inSet set t = false := by simpa using ht
      have hY' : ∀ u ∈ Y, inSet set u = true := fun u hu => by simpa using hY u hu
      obtain ⟨ex', he'⟩ := trimRightLoop_some (s := s) (C := []) (by simpa using hx) ht' hY'
        (s.length + 1) (by rw [hx] at hlen; simp at hlen; omega) 0 false
      rw [← hx, flat_toks] at he'
      rw [he', bind_ok]
      simp only [Bool.not_true, Bool.and_false]
      rw [if_neg (by simp)]
      -- the last kept character is in D
      have hDX : ∃ D1, D = D1 ++ t :: Y ∧ X = A ++ D1 := by
        rw [h] at hx
        rcases List.append_eq_append_iff.1 hx with ⟨a, h1, h2⟩ | ⟨a, h1, h2⟩
        · exact ⟨a, h2, h1⟩
        · rcases a with _ | ⟨y, a⟩
          · exact ⟨[], by simpa using h2.symm, by simpa using h1.symm⟩
          · exfalso
            simp at h2
            obtain ⟨rfl, rfl⟩ := h2
            rcases D with _ | ⟨d, D'⟩
            · have := hne rfl; simp [h1] at this
            · rcases hD d D' rfl with h3 | h3
              · simp [h1] at h3
              · have := hY' d (by simp)
                rw [this] at h3; simp at h3
      obtain ⟨D1, hD1, hX⟩ := hDX
      rw [hD1, dropWhileEnd_split _ _ _ _ hY' ht']
      apply slice_eq (a := flat A) (c := flat Y)
      · rw [hs, hD1]; simp
      · rfl
      · rw [hX]; simp; try omega

theorem fastTrim_eq (s : Bytes) (set : RuneSet) (mode : TrimMode) :
    fastTrim s set mode = .ok (flat (trimToks set mode (toks s))) := by
  unfold fastTrim
  by_cases hm : mode = .trimRight
  · rw [if_neg (by simp [hm])]
    have := fastTrimRight_eq (s := s) (set := set) (mode := mode) (A := []) (D := toks s) (by simp)
      (by simp) (by simp)
    simp at this
    rw [this]
    subst hm; simp [trimToks]
  · rw [if_pos hm, rangeString_eq]
    rcases exists_first_split (inSet set) (toks s) with hall | ⟨A, t, B, hx, ht, hA⟩
    · simp only [trimLeftLoop_all _ hall]
      have hdw : trimToks set mode (toks s) = [] := by
        cases mode with
        | trimBoth => simp [trimToks, dropWhile_all _ _ hall]
        | trimLeft => simp [trimToks, dropWhile_all _ _ hall]
        | trimRight => simp at hm
      cases htk : toks s with
      | nil =>
        have hs : s = [] := by rw [← flat_toks s, htk]; rfl
        subst hs
        have := fastTrimRight_eq (s := []) (set := set) (mode := mode) (A := []) (D := []) (by simp)
          (by simp) (by simp)
        simp [offs, trimLeftLoop, trimToks] at this ⊢
        rw [this]
        cases mode <;> simp
      | cons => rw [htk] at hdw; simp [hdw]
    · have h1 := trimLeftLoop_some A t B hA ht 0 0 false
      rw [← hx] at h1
      simp only [h1.1, h1.2, Bool.not_true, Bool.and_false]
      rw [if_neg (by simp)]
      have := fastTrimRight_eq (s := s) (set := set) (mode := mode) (A := A) (D := t :: B) hx
        (by simp) (by intro t' D' h; simp at h; right; rw [← h.1]; exact ht)
      rw [show ((0 : Nat) : Int) + ((flat A).length : Int) = (flat A).length by omega, this]
      cases mode with
      | trimBoth => simp [trimToks, hx, dropWhile_split _ _ _ _ hA ht]
      | trimLeft => simp [trimToks, hx, dropWhile_split _ _ _ _ hA ht]
      | trimRight => simp at hm

end Fasttld
