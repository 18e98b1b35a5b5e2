import Verif.Proofs.Strings
import Verif.Proofs.Chars

/-!
# Trimming and separator search against their specification
-/

set_option linter.unusedSimpArgs false

namespace Fasttld
open Spec

/-- Sets the specification speaks about: scalar values other than U+FFFD (the decoder reports stray
bytes as U+FFFD). -/
def GoodSet (set : List Nat) : Prop := ∀ r ∈ set, IsScalar r ∧ r ≠ 0xFFFD

instance (set : List Nat) : Decidable (GoodSet set) := by unfold GoodSet; infer_instance

theorem goodSet_separators : GoodSet separators := by decide
theorem goodSet_whiteSpace : GoodSet whiteSpace := by decide

theorem inSet_iff {set : RuneSet} {t} : inSet set t = true ↔ t.1 ∈ set := by
  simp [inSet, RuneSet.exists]

theorem inSet_false_iff {set : RuneSet} {t} : inSet set t = false ↔ t.1 ∉ set := by
  rw [← inSet_iff]; simp

/-- A character of a good set is a proper encoding. -/
theorem isTok_inSet {set : List Nat} (hg : GoodSet set) {t} (ht : IsTok t) (h : t.1 ∈ set) :
    t = (t.1, encode t.1) := by
  rcases ht with ⟨_, h2⟩ | ⟨h1, _⟩
  · rw [← h2]
  · exact absurd h1 (hg _ h).2

theorem toks_flatMap_encode {cs : List Nat} (h : ∀ c ∈ cs, IsScalar c) :
    toks (cs.flatMap encode) = cs.map (fun c => (c, encode c)) := by
  induction cs with
  | nil => simp
  | cons c cs ih =>
    simp only [List.flatMap_cons, List.map_cons]
    rw [toks_encode (h c (by simp)), ih (fun d hd => h d (by simp [hd]))]

theorem toks_flatMap_append {cs : List Nat} (h : ∀ c ∈ cs, IsScalar c) (b : Bytes) :
    toks (cs.flatMap encode ++ b) = toks (cs.flatMap encode) ++ toks b := by
  induction cs with
  | nil => simp
  | cons c cs ih =>
    simp only [List.flatMap_cons]
    rw [List.append_assoc, toks_encode (h c (by simp)), toks_encode (h c (by simp)),
      ih (fun d hd => h d (by simp [hd]))]
    rfl

theorem toks_append_flatMap {cs : List Nat} (h : ∀ c ∈ cs, IsScalar c) (b : Bytes) :
    toks (b ++ cs.flatMap encode) = toks b ++ toks (cs.flatMap encode) := by
  cases cs with
  | nil => simp
  | cons c cs =>
    simp only [List.flatMap_cons]
    rw [← List.append_assoc, toks_append_encode b (h c (by simp)), toks_encode (h c (by simp))]

theorem Spec.MadeOf.toks_append {set a} (hg : GoodSet set) (h : MadeOf set a) (b : Bytes) :
    toks (a ++ b) = toks a ++ toks b := by
  obtain ⟨cs, h1, rfl⟩ := h
  exact toks_flatMap_append (fun c hc => (hg c (h1 c hc)).1) b

theorem Spec.MadeOf.append_toks {set a} (hg : GoodSet set) (h : MadeOf set a) (b : Bytes) :
    toks (b ++ a) = toks b ++ toks a := by
  obtain ⟨cs, h1, rfl⟩ := h
  exact toks_append_flatMap (fun c hc => (hg c (h1 c hc)).1) b

theorem Spec.MadeOf.toks_mem {set a} (hg : GoodSet set) (h : MadeOf set a) : ∀ t ∈ toks a, t.1 ∈ set := by
  obtain ⟨cs, h1, rfl⟩ := h
  rw [toks_flatMap_encode (fun c hc => (hg c (h1 c hc)).1)]
  intro t ht
  obtain ⟨c, hc, rfl⟩ := List.mem_map.1 ht
  exact h1 c hc

theorem madeOf_flat {set : List Nat} (hg : GoodSet set) {A : List (Nat × Bytes)}
    (ht : ∀ t ∈ A, IsTok t) (h : ∀ t ∈ A, t.1 ∈ set) : MadeOf set (flat A) := by
  refine ⟨A.map Prod.fst, by simpa using fun a b hab => h _ hab, ?_⟩
  induction A with
  | nil => rfl
  | cons t A ih =>
    simp only [flat_cons, List.map_cons, List.flatMap_cons]
    rw [← ih (fun u hu => ht u (by simp [hu])) (fun u hu => h u (by simp [hu]))]
    have := isTok_inSet hg (ht t (by simp)) (h t (by simp))
    rw [this]

theorem madeOf_iff {set : List Nat} (hg : GoodSet set) {s : Bytes} :
    MadeOf set s ↔ ∀ t ∈ toks s, t.1 ∈ set := by
  constructor
  · exact fun h => h.toks_mem hg
  · intro h
    have := madeOf_flat hg (fun t ht => isTok_of_mem ht) h
    simpa using this

theorem madeOf_nil (set) : MadeOf set [] := ⟨[], by simp, rfl⟩

theorem Spec.MadeOf.append {set a b} (ha : MadeOf set a) (hb : MadeOf set b) : MadeOf set (a ++ b) := by
  obtain ⟨cs, h1, rfl⟩ := ha
  obtain ⟨ds, h2, rfl⟩ := hb
  refine ⟨cs ++ ds, ?_, by simp⟩
  intro c hc
  rcases List.mem_append.1 hc with h | h
  · exact h1 c h
  · exact h2 c h

/-- First character: prefix of the string. -/
theorem prefix_encode_iff {r : Nat} (hr : IsScalar r) (hr' : r ≠ 0xFFFD) (s : Bytes) :
    encode r <+: s ↔ ∃ B, ∃ t, toks s = t :: B ∧ t.1 = r := by
  constructor
  · rintro ⟨q, rfl⟩
    exact ⟨toks q, (r, encode r), toks_encode hr q, rfl⟩
  · rintro ⟨B, t, h, rfl⟩
    have := isTok_of_mem (s := s) (t := t) (by simp [h])
    have ht := isTok_inSet (set := [t.1]) (by intro x hx; simp at hx; subst hx; exact ⟨hr, hr'⟩) this (by simp)
    refine ⟨flat B, ?_⟩
    rw [← flat_toks s, h, flat_cons]
    congr 1
    rw [ht]

/-- Last character: suffix of the string. -/
theorem suffix_encode_iff {r : Nat} (hr : IsScalar r) (hr' : r ≠ 0xFFFD) (s : Bytes) :
    encode r <:+ s ↔ ∃ A, ∃ t, toks s = A ++ [t] ∧ t.1 = r := by
  constructor
  · rintro ⟨q, rfl⟩
    refine ⟨toks q, (r, encode r), ?_, rfl⟩
    have := toks_append_encode q hr []
    simpa using this
  · rintro ⟨A, t, h, rfl⟩
    have := isTok_of_mem (s := s) (t := t) (by simp [h])
    have ht := isTok_inSet (set := [t.1]) (by intro x hx; simp at hx; subst hx; exact ⟨hr, hr'⟩) this (by simp)
    refine ⟨flat A, ?_⟩
    rw [← flat_toks s, h, flat_append]
    congr 1
    rw [ht]; simp [flat]

/-- Occurrence of a character. -/
theorem infix_encode_iff {r : Nat} (hr : IsScalar r) (hr' : r ≠ 0xFFFD) (s : Bytes) :
    encode r <:+: s ↔ ∃ t ∈ toks s, t.1 = r := by
  constructor
  · rintro ⟨p, q, rfl⟩
    refine ⟨(r, encode r), ?_, rfl⟩
    rw [toks_append_encode p hr]; simp
  · rintro ⟨t, h, rfl⟩
    obtain ⟨A, B, h⟩ := List.append_of_mem h
    have := isTok_of_mem (s := s) (t := t) (by simp [h])
    have ht := isTok_inSet (set := [t.1]) (by intro x hx; simp at hx; subst hx; exact ⟨hr, hr'⟩) this (by simp)
    refine ⟨flat A, flat B, ?_⟩
    rw [← flat_toks s, h, flat_append, flat_cons]
    rw [List.append_assoc]; congr 2
    rw [ht]

theorem freeOf_iff {set : List Nat} (hg : GoodSet set) {s : Bytes} :
    FreeOf set s ↔ ∀ t ∈ toks s, t.1 ∉ set := by
  unfold FreeOf
  constructor
  · intro h t ht hm
    exact h t.1 hm ((infix_encode_iff (hg _ hm).1 (hg _ hm).2 s).2 ⟨t, ht, rfl⟩)
  · intro h r hr hi
    obtain ⟨t, ht, rfl⟩ := (infix_encode_iff (hg _ hr).1 (hg _ hr).2 s).1 hi
    exact h t ht hr

/-! ## Trimming -/

def trimsLeft : TrimMode → Bool
  | .trimBoth | .trimLeft => true
  | .trimRight => false
def trimsRight : TrimMode → Bool
  | .trimBoth | .trimRight => true
  | .trimLeft => false

/-- dropWhile as a split. -/
theorem dropWhile_decomp {α : Type} (P : α → Bool) (l : List α) :
    ∃ A, l = A ++ l.dropWhile P ∧ (∀ x ∈ A, P x = true) ∧ ∀ x B, l.dropWhile P = x :: B → P x = false := by
  rcases exists_first_split P l with h | ⟨A, x, B, rfl, hx, hA⟩
  · exact ⟨l, by simp [dropWhile_all P l h], h, by simp [dropWhile_all P l h]⟩
  · refine ⟨A, by rw [dropWhile_split P A x B hA hx], hA, ?_⟩
    rw [dropWhile_split P A x B hA hx]
    intro y C h; simp at h; rw [← h.1]; exact hx

theorem dropWhileEnd_decomp {α : Type} (P : α → Bool) (l : List α) :
    ∃ B, l = dropWhileEnd P l ++ B ∧ (∀ x ∈ B, P x = true) ∧ ∀ x A, dropWhileEnd P l = A ++ [x] → P x = false := by
  obtain ⟨A, h1, h2, h3⟩ := dropWhile_decomp P l.reverse
  refine ⟨A.reverse, ?_, by simpa using h2, ?_⟩
  · unfold dropWhileEnd
    rw [← List.reverse_append, ← h1, List.reverse_reverse]
  · intro x A' h
    refine h3 x A'.reverse ?_
    have := congrArg List.reverse h
    simpa [dropWhileEnd] using this

theorem dropWhile_unique {α : Type} (P : α → Bool) {A l : List α} (hA : ∀ x ∈ A, P x = true)
    (hl : ∀ x B, l = x :: B → P x = false) : (A ++ l).dropWhile P = l := by
  cases l with
  | nil => rw [List.append_nil]; exact dropWhile_all P A hA
  | cons x l => exact dropWhile_split P A x l hA (hl x l rfl)

theorem dropWhileEnd_unique {α : Type} (P : α → Bool) {B l : List α} (hB : ∀ x ∈ B, P x = true)
    (hl : ∀ x A, l = A ++ [x] → P x = false) : dropWhileEnd P (l ++ B) = l := by
  rcases List.eq_nil_or_concat l with rfl | ⟨A, x, rfl⟩
  · simpa using dropWhileEnd_all P B hB
  · rw [List.concat_eq_append] at *
    rw [List.append_assoc]
    exact dropWhileEnd_split P A x B hB (hl x A rfl)

/-- The characters left after trimming are a block between trimmed characters. -/
theorem trimToks_decomp (set : RuneSet) (mode : TrimMode) (ts : List (Nat × Bytes)) :
    ∃ A B, ts = A ++ trimToks set mode ts ++ B ∧ (∀ t ∈ A, inSet set t = true) ∧
      (∀ t ∈ B, inSet set t = true) ∧ (trimsLeft mode = false → A = []) ∧ (trimsRight mode = false → B = []) ∧
      (trimsLeft mode = true → ∀ t C, trimToks set mode ts = t :: C → inSet set t = false) ∧
      (trimsRight mode = true → ∀ t C, trimToks set mode ts = C ++ [t] → inSet set t = false) := by
  cases mode with
  | trimLeft =>
    obtain ⟨A, h1, h2, h3⟩ := dropWhile_decomp (inSet set) ts
    exact ⟨A, [], by simpa [trimToks] using h1, h2, by simp, by simp [trimsLeft], by simp,
      fun _ t C h => h3 t C h, by simp [trimsRight]⟩
  | trimRight =>
    obtain ⟨B, h1, h2, h3⟩ := dropWhileEnd_decomp (inSet set) ts
    exact ⟨[], B, by simpa [trimToks] using h1, by simp, h2, by simp, by simp [trimsRight],
      by simp [trimsLeft], fun _ t C h => h3 t C h⟩
  | trimBoth =>
    obtain ⟨A, h1, h2, h3⟩ := dropWhile_decomp (inSet set) ts
    obtain ⟨B, h4, h5, h6⟩ := dropWhileEnd_decomp (inSet set) (ts.dropWhile (inSet set))
    refine ⟨A, B, ?_, h2, h5, by simp [trimsLeft], by simp [trimsRight], ?_, fun _ t C h => h6 t C h⟩
    · rw [List.append_assoc]; show ts = A ++ (dropWhileEnd (inSet set) (ts.dropWhile (inSet set)) ++ B)
      rw [← h4, ← h1]
    · intro _ t C h
      apply h3 t (C ++ B)
      rw [h4]
      rw [trimToks] at h
      rw [h]; rfl

theorem trimToks_unique (set : RuneSet) (mode : TrimMode) {A l B : List (Nat × Bytes)}
    (hA : ∀ t ∈ A, inSet set t = true) (hB : ∀ t ∈ B, inSet set t = true)
    (hA0 : trimsLeft mode = false → A = []) (hB0 : trimsRight mode = false → B = [])
    (hl : trimsLeft mode = true → ∀ t C, l = t :: C → inSet set t = false)
    (hr : trimsRight mode = true → ∀ t C, l = C ++ [t] → inSet set t = false) :
    trimToks set mode (A ++ l ++ B) = l := by
  cases mode with
  | trimLeft =>
    obtain rfl := hB0 rfl
    rw [trimToks, List.append_nil, dropWhile_unique _ hA (hl rfl)]
  | trimRight =>
    obtain rfl := hA0 rfl
    rw [trimToks, List.nil_append, dropWhileEnd_unique _ hB (hr rfl)]
  | trimBoth =>
    rw [trimToks]
    by_cases hne : l = []
    · subst hne
      rw [List.append_nil, dropWhile_all _ _ (by
        intro x hx; rcases List.mem_append.1 hx with h | h
        · exact hA x h
        · exact hB x h)]
      rfl
    · rw [List.append_assoc, dropWhile_unique _ hA, dropWhileEnd_unique _ hB (hr rfl)]
      intro x C h
      cases l with
      | nil => exact absurd rfl hne
      | cons y l => simp at h; rw [← h.1]; exact hl rfl y l rfl

/-- `fastTrim` computes a string satisfying the specification. -/
theorem fastTrim_isTrim {set : RuneSet} (hg : GoodSet set) (s : Bytes) (mode : TrimMode) :
    ∃ t, fastTrim s set mode = .ok t ∧ IsTrim (trimsLeft mode) (trimsRight mode) set s t := by
  refine ⟨_, fastTrim_eq s set mode, ?_⟩
  obtain ⟨A, B, h1, h2, h3, h4, h5, h6, h7⟩ := trimToks_decomp set mode (toks s)
  have hmid : toks (flat (trimToks set mode (toks s))) = trimToks set mode (toks s) :=
    (toks_flat_split (toks_flat_split h1).1 |>.2 : _)
  refine ⟨flat A, flat B, ?_, ?_, ?_, ?_, ?_, ?_, ?_⟩
  · rw [← flat_append, ← flat_append, ← h1, flat_toks]
  · exact madeOf_flat hg (fun t ht => isTok_of_mem (s := s) (by rw [h1]; simp [ht])) (fun t ht => inSet_iff.1 (h2 t ht))
  · exact madeOf_flat hg (fun t ht => isTok_of_mem (s := s) (by rw [h1]; simp [ht])) (fun t ht => inSet_iff.1 (h3 t ht))
  · intro h; rw [h4 h]; rfl
  · intro h; rw [h5 h]; rfl
  · intro h r hr hp
    obtain ⟨C, t, ht, rfl⟩ := (prefix_encode_iff (hg r hr).1 (hg r hr).2 _).1 hp
    rw [hmid] at ht
    exact inSet_false_iff.1 (h6 h t C ht) hr
  · intro h r hr hp
    obtain ⟨C, t, ht, rfl⟩ := (suffix_encode_iff (hg r hr).1 (hg r hr).2 _).1 hp
    rw [hmid] at ht
    exact inSet_false_iff.1 (h7 h t C ht) hr

/-- The specification determines the result. -/
theorem fastTrim_of_isTrim {set : RuneSet} (hg : GoodSet set) {s t : Bytes} {mode : TrimMode}
    (h : IsTrim (trimsLeft mode) (trimsRight mode) set s t) : fastTrim s set mode = .ok t := by
  obtain ⟨a, b, rfl, ha, hb, h1, h2, h3, h4⟩ := h
  rw [fastTrim_eq, hb.append_toks hg, ha.toks_append hg]
  rw [trimToks_unique, flat_toks]
  · exact fun t ht => inSet_iff.2 (ha.toks_mem hg t ht)
  · exact fun t ht => inSet_iff.2 (hb.toks_mem hg t ht)
  · intro h; rw [h1 h]; simp
  · intro h; rw [h2 h]; simp
  · intro h u C hC
    rw [inSet_false_iff]; intro hm
    exact h3 h u.1 hm ((prefix_encode_iff (hg _ hm).1 (hg _ hm).2 t).2 ⟨C, u, hC, rfl⟩)
  · intro h u C hC
    rw [inSet_false_iff]; intro hm
    exact h4 h u.1 hm ((suffix_encode_iff (hg _ hm).1 (hg _ hm).2 t).2 ⟨C, u, hC, rfl⟩)

/-! ## Separator search -/

theorem lastIndexAny_spec {set : RuneSet} (hg : GoodSet set) (s : Bytes) :
    (FreeOf set s ∧ lastIndexAny s set = .ok (-1)) ∨
    ∃ p q r, r ∈ set ∧ s = p ++ encode r ++ q ∧ FreeOf set q ∧ lastIndexAny s set = .ok p.length := by
  rcases exists_last_split (inSet set) (toks s) with h | ⟨A, t, B, h, ht, hB⟩
  · left
    exact ⟨(freeOf_iff hg).2 (fun t ht => inSet_false_iff.1 (h t ht)), lastIndexAny_none h⟩
  · right
    have hm := inSet_iff.1 ht
    have htk := isTok_inSet hg (isTok_of_mem (s := s) (t := t) (by simp [h])) hm
    refine ⟨flat A, flat B, t.1, hm, ?_, ?_, lastIndexAny_some h ht hB⟩
    · rw [← flat_toks s, h, flat_append, flat_cons, List.append_assoc]; congr 2; rw [htk]
    · rw [freeOf_iff hg]
      have : toks (flat B) = B := (toks_flat_split (A := A ++ [t]) (B := B) (by rw [h]; simp)).2
      rw [this]
      exact fun u hu => inSet_false_iff.1 (hB u hu)

/-- No encoding starts inside another one. -/
theorem no_occurrence_inside {r r' : Nat} (hr : IsScalar r) (hr' : IsScalar r') {p q p' q' : Bytes}
    (he : p' ++ encode r' ++ q' = p ++ encode r ++ q) (h1 : p.length < p'.length)
    (h2 : p'.length < p.length + (encode r).length) : False := by
  obtain ⟨b, t, e1, -, ht⟩ := encode_shape hr
  obtain ⟨b', t', e2, hb', -⟩ := encode_shape hr'
  rw [e1, e2] at he
  rw [e1] at h2
  have g := congrArg (fun l => l[p'.length]?) he
  simp only [List.append_assoc, List.cons_append] at g
  rw [List.getElem?_append_right (Nat.le_refl _), List.getElem?_append_right (by omega)] at g
  simp only [Nat.sub_self, List.getElem?_cons_zero] at g
  obtain ⟨n, hn⟩ : ∃ n, p'.length - p.length = n + 1 := ⟨p'.length - p.length - 1, by omega⟩
  simp only [List.length_cons] at h2
  rw [hn, List.getElem?_cons_succ, List.getElem?_append_left (by omega)] at g
  have := ht b' (List.mem_of_getElem? g.symm)
  rw [hb'] at this
  simp at this

end Fasttld
