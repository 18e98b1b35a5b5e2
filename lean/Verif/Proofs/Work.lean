import Verif.Model.Work
import Verif.Proofs.Strings

/-!
# The counting functions: without the count they are the functions of the model, and bounds of the count
-/

set_option linter.unusedSimpArgs false

namespace Fasttld

namespace Counted

@[simp] theorem ret_val {α : Type} (a : α) : (ret a).val = a := rfl
@[simp] theorem ret_n {α : Type} (a : α) : (ret a).n = 0 := rfl
@[simp] theorem step_val {α : Type} (k : Nat) (c : Counted α) : (step k c).val = c.val := rfl
@[simp] theorem step_n {α : Type} (k : Nat) (c : Counted α) : (step k c).n = k + c.n := rfl
@[simp] theorem bind_val {α β : Type} (p : Counted α) (f : α → Counted β) : (p.bind f).val = (f p.val).val := rfl
@[simp] theorem bind_n {α β : Type} (p : Counted α) (f : α → Counted β) : (p.bind f).n = p.n + (f p.val).n := rfl
@[simp] theorem lift_val {α : Type} (p : Counted (Go α)) : (lift p).val = liftGo p.val := rfl
@[simp] theorem lift_n {α : Type} (p : Counted (Go α)) : (lift p).n = p.n := rfl

@[simp] theorem andThen_val {ε α β : Type} (p : Counted (Except ε α)) (f : α → Counted (Except ε β)) :
    (p.andThen f).val = (p.val >>= fun a => (f a).val) := by
  unfold andThen
  cases h : p.val <;> simp [bind_ok, bind_error]

theorem andThen_le {ε α β : Type} {p : Counted (Except ε α)} {f : α → Counted (Except ε β)} {j k : Nat}
    (hp : p.n ≤ j) (hf : ∀ a, p.val = .ok a → (f a).n ≤ k) : (p.andThen f).n ≤ j + k := by
  unfold andThen
  cases h : p.val with
  | error e => simp; omega
  | ok a => have := hf a h; simp; omega

theorem andThen_ret_le {ε α β : Type} {p : Except ε α} {f : α → Counted (Except ε β)} {k : Nat}
    (hf : ∀ a, p = .ok a → (f a).n ≤ k) : ((ret p).andThen f).n ≤ k := by
  have := andThen_le (p := ret p) (f := f) (j := 0) (k := k) (by simp) hf
  omega

@[simp] theorem ite_val {α : Type} (c : Prop) [Decidable c] (a b : Counted α) :
    (if c then a else b).val = if c then a.val else b.val := by split <;> rfl

@[simp] theorem ite_n {α : Type} (c : Prop) [Decidable c] (a b : Counted α) :
    (if c then a else b).n = if c then a.n else b.n := by split <;> rfl

end Counted

open Counted

/-! ## Without the count -/

theorem schemeLoopC_val (n : Nat) (s : Bytes) (i : Nat) (colon : Bool) (k : Nat) :
    (schemeLoopC n s i colon k).val = schemeLoop n s i colon k := by
  induction s generalizing i colon k with
  | nil => rfl
  | cons c s ih => simp only [schemeLoopC, schemeLoop, step_val, ite_val, ret_val, ih]

theorem indexAnyLoopC_val (as : AsciiSet) (s : Bytes) (i : Nat) :
    (indexAnyLoopC as s i).val = indexAnyLoop as s i := by
  induction s generalizing i with
  | nil => rfl
  | cons c s ih => simp only [indexAnyLoopC, indexAnyLoop, step_val, ite_val, ret_val, ih]

theorem indexAnyASCIIC_val (as : AsciiSet) (s : Bytes) : (indexAnyASCIIC s as).val = indexAnyASCII s as :=
  indexAnyLoopC_val as s 0

theorem hasInvalidCharsLoopC_val (l : Int) (r : List (Nat × Nat)) (b : Bool) :
    (hasInvalidCharsLoopC l r b).val = hasInvalidCharsLoop l r b := by
  induction r generalizing b with
  | nil => rfl
  | cons c s ih => simp only [hasInvalidCharsLoopC, hasInvalidCharsLoop, step_val, ite_val, ret_val, ih]

theorem hasInvalidCharsC_val (s : Bytes) : (hasInvalidCharsC s).val = hasInvalidChars s :=
  hasInvalidCharsLoopC_val _ _ _

theorem lastIndexAnyLoopC_val (s : Bytes) (chars : RuneSet) (fuel : Nat) (i : Int) :
    (lastIndexAnyLoopC s chars fuel i).val = lastIndexAnyLoop s chars fuel i := by
  induction fuel generalizing i with
  | zero => rfl
  | succ f ih => simp only [lastIndexAnyLoopC, lastIndexAnyLoop, step_val, ite_val, ret_val, andThen_val, ih]

theorem lastIndexAnyC_val (s : Bytes) (chars : RuneSet) : (lastIndexAnyC s chars).val = lastIndexAny s chars :=
  lastIndexAnyLoopC_val _ _ _ _

theorem indexLastByteBeforeC_val (s : Bytes) (b : UInt8) (as : AsciiSet) :
    (indexLastByteBeforeC s b as).val = indexLastByteBefore s b as := by
  simp only [indexLastByteBeforeC, indexLastByteBefore, step_val, ite_val, ret_val, andThen_val, bind_val, indexAnyASCIIC_val]

theorem trimLeftLoopC_val (set : RuneSet) (r : List (Nat × Nat)) (i : Int) (b : Bool) :
    (trimLeftLoopC set r i b).val = trimLeftLoop set r i b := by
  induction r generalizing i b with
  | nil => rfl
  | cons c s ih => simp only [trimLeftLoopC, trimLeftLoop, step_val, ite_val, ret_val, ih]

theorem trimRightLoopC_val (s : Bytes) (set : RuneSet) (fuel : Nat) (i e : Int) (b : Bool) :
    (trimRightLoopC s set fuel i e b).val = trimRightLoop s set fuel i e b := by
  induction fuel generalizing i e b with
  | zero => rfl
  | succ f ih => simp only [trimRightLoopC, trimRightLoop, step_val, ite_val, ret_val, andThen_val, ih]

theorem fastTrimRightC_val (s : Bytes) (set : RuneSet) (mode : TrimMode) (i : Int) :
    (fastTrimRightC s set mode i).val = fastTrimRight s set mode i := by
  simp only [fastTrimRightC, fastTrimRight, step_val, ite_val, ret_val, andThen_val, trimRightLoopC_val]

theorem fastTrimC_val (s : Bytes) (set : RuneSet) (mode : TrimMode) : (fastTrimC s set mode).val = fastTrim s set mode := by
  simp only [fastTrimC, fastTrim, ite_val, ret_val, bind_val, trimLeftLoopC_val, fastTrimRightC_val]

theorem dtoiLoopC_val (s : Bytes) (n i : Nat) : (dtoiLoopC s n i).val = dtoiLoop s n i := by
  induction s generalizing n i with
  | nil => rfl
  | cons c s ih => simp only [dtoiLoopC, dtoiLoop, step_val, ite_val, ret_val, ih]

theorem dtoiC_val (s : Bytes) : (dtoiC s).val = dtoi s := dtoiLoopC_val s 0 0

theorem xtoiLoopC_val (s : Bytes) (n i : Nat) : (xtoiLoopC s n i).val = xtoiLoop s n i := by
  induction s generalizing n i with
  | nil => rfl
  | cons c s ih =>
    simp only [xtoiLoopC, xtoiLoop, step_val]
    cases hexVal c <;> simp only [ite_val, ret_val, ih]

theorem xtoiC_val (s : Bytes) : (xtoiC s).val = xtoi s := xtoiLoopC_val s 0 0

theorem isIPv4LoopC_val (k i : Nat) (s : Bytes) : (isIPv4LoopC k i s).val = isIPv4Loop k i s := by
  induction k generalizing i s with
  | zero => rfl
  | succ k ih => simp only [isIPv4LoopC, isIPv4Loop, step_val, ite_val, ret_val, andThen_val, bind_val, dtoiC_val, ih]

theorem isIPv4C_val (s : Bytes) : (isIPv4C s).val = isIPv4 s := by
  simp only [isIPv4C, isIPv4, andThen_val, fastTrimC_val, isIPv4LoopC_val]

theorem isIPv6LoopC_val (f : Nat) (s : Bytes) (i : Nat) (e : Int) : (isIPv6LoopC f s i e).val = isIPv6Loop f s i e := by
  induction f generalizing s i e with
  | zero => rfl
  | succ k ih =>
    simp only [isIPv6LoopC, isIPv6Loop, step_val, ite_val, ret_val, andThen_val, bind_val, xtoiC_val, isIPv4C_val, ih]

theorem isIPv6C_val (s : Bytes) : (isIPv6C s).val = isIPv6 s := by
  simp only [isIPv6C, isIPv6, ite_val, ret_val, andThen_val, isIPv6LoopC_val]

theorem stageSchemeC_val (s : Bytes) (u : ExtractResult) : (stageSchemeC s u).val = stageScheme s u := by
  unfold stageSchemeC stageScheme getSchemeEndIndex
  rw [bind_val, ite_val, schemeLoopC_val]
  simp only [ret_val, andThen_val]

theorem stageUserInfoC_val (s : Bytes) (u : ExtractResult) : (stageUserInfoC s u).val = stageUserInfo s u := by
  simp only [stageUserInfoC, stageUserInfo, ite_val, ret_val, andThen_val, bind_val, indexLastByteBeforeC_val]

theorem scanLoopC_val (n : Nat) (s : Bytes) (i : Nat) (o c : Int) : (scanLoopC n s i o c).val = scanLoop n s i o c := by
  induction s generalizing i o c with
  | nil => rfl
  | cons a s ih => simp only [scanLoopC, scanLoop, step_val, ite_val, ret_val, ih]

theorem stageIPv6C_val (s : Bytes) (o c h : Int) (u : ExtractResult) : (stageIPv6C s o c h u).val = stageIPv6 s o c h u := by
  simp only [stageIPv6C, stageIPv6, ite_val, ret_val, andThen_val, bind_val, lift_val, isIPv6C_val, indexAnyASCIIC_val]

theorem stagePortPathC_val (s : Bytes) (u : ExtractResult) : (stagePortPathC s u).val = stagePortPath s u := by
  simp only [stagePortPathC, stagePortPath, ite_val, ret_val, step_val, andThen_val, bind_val, lift_val, indexAnyASCIIC_val]

theorem stageIdnaC_val (idna : Idna) (e : URLParams) (s : Bytes) (u : ExtractResult) :
    (stageIdnaC idna e s u).val = stageIdna idna e s u := by
  unfold stageIdnaC stageIdna
  cases queryUnescape s with
  | error esc => rfl
  | ok t =>
    simp only [step_val, ite_val, ret_val]
    cases idna.toUnicodeErr t <;> rfl

theorem walkLabelC_val (netloc : Bytes) (node : Trie) (label : Bytes) (l : Bool) (w : Walk)
    (k : Trie → Walk → Counted (M Walk)) (k' : Trie → Walk → M Walk) (hk : ∀ t w, (k t w).val = k' t w) :
    (walkLabelC netloc node label l w k).val = walkLabel netloc node label l w k' := by
  simp only [walkLabelC, walkLabel, bind_val, getC, step_val, ret_val]
  cases node.get (b! "*") with
  | some v =>
    simp only [bind_val, getC, step_val, ret_val]
    cases node.get (33 :: label) <;> rfl
  | none =>
    simp only [bind_val, getC, step_val, ret_val]
    cases node.get (unescapeOrEmpty label) with
    | none => simp only [ite_val, ret_val]
    | some v => simp only [ite_val, ret_val, hk]

theorem walkLoopC_val (netloc : Bytes) (u : ExtractResult) (f : Nat) (t : Trie) (b : Bool) (w : Walk) :
    (walkLoopC netloc u f t b w).val = walkLoop netloc u f t b w := by
  induction f generalizing t b w with
  | zero => rfl
  | succ f ih =>
    simp only [walkLoopC, walkLoop, step_val, ite_val, ret_val, andThen_val, lift_val, lastIndexAnyC_val, ih]
    congr; funext pre; congr; funext sep
    split
    · congr; funext c; congr; funext label
      split
      · rfl
      · exact walkLabelC_val _ _ _ _ _ _ _ (fun t w => ih t true w)
    · congr; funext label
      exact walkLabelC_val _ _ _ _ _ _ _ (fun t w => rfl)

theorem stageIPv4C_val (s : Bytes) (w : Walk) (u : ExtractResult) : (stageIPv4C s w u).val = stageIPv4 s w u := by
  simp only [stageIPv4C, stageIPv4, ite_val, ret_val, andThen_val, isIPv4C_val]

theorem stageCheckCharsC_val (s : Bytes) (w : Walk) (u : ExtractResult) :
    (stageCheckCharsC s w u).val = stageCheckChars s w u := by
  simp only [stageCheckCharsC, stageCheckChars, ite_val, ret_val, andThen_val, bind_val, hasInvalidCharsC_val]

theorem stageNamesC_val (s : Bytes) (w : Walk) (u : ExtractResult) : (stageNamesC s w u).val = stageNames s w u := by
  simp only [stageNamesC, stageNames, ite_val, ret_val, andThen_val, lastIndexAnyC_val]

theorem stageHostC_val (t : Trie) (e : URLParams) (s : Bytes) (u : ExtractResult) :
    (stageHostC t e s u).val = stageHost t e s u := by
  simp only [stageHostC, stageHost, andThen_val, walkLoopC_val, lift_val, stageIPv4C_val]
  congr; funext w; congr; funext ip
  cases ip with
  | some v => rfl
  | none => simp only [andThen_val, ite_val, ret_val, stageCheckCharsC_val, lift_val, stageNamesC_val]

theorem extractC_val (idna : Idna) (t : Trie) (e : URLParams) : (extractC idna t e).val = extractM idna t e := by
  simp only [extractC, extractM, andThen_val, lift_val, fastTrimC_val, stageSchemeC_val, stageUserInfoC_val, step_val, bind_val,
    scanLoopC_val]
  congr; funext s; congr; funext r; congr; funext r
  cases scanLoop r.2.length r.2 0 (-1) (-1) with
  | err er => rfl
  | done o c h =>
    simp only [andThen_val, stageIPv6C_val, ret_val, stagePortPathC_val, ite_val, stageIdnaC_val, stageHostC_val]

/-! ## Bounds of the count -/

theorem decodeLastRune_width {s : Bytes} (h : s ≠ []) : 1 ≤ (decodeLastRune s).2 ∧ (decodeLastRune s).2 ≤ s.length := by
  rcases List.eq_nil_or_concat (toks s) with h0 | ⟨A, t, hA⟩
  · exfalso
    apply h
    rw [← flat_toks s, h0]; rfl
  · rw [List.concat_eq_append] at hA
    have hd := decodeLast_toks hA
    have ht : IsTok t := isTok_of_mem (s := s) (by rw [hA]; simp)
    have h1 := List.length_pos_iff.2 ht.ne_nil
    rw [hd.1]
    have h2 := congrArg List.length hd.2
    simp at h2
    exact ⟨h1, by simp only; omega⟩

theorem slice_ok {s t : Bytes} {lo hi : Int} (h : slice s lo hi = .ok t) :
    0 ≤ lo ∧ lo ≤ hi ∧ hi ≤ s.length ∧ (t.length : Int) = hi - lo := by
  unfold slice at h
  split at h
  · rename_i hc
    cases h
    refine ⟨hc.1, hc.2.1, hc.2.2, ?_⟩
    rw [List.length_drop, List.length_take]
    omega
  · cases h

theorem liftGo_isOk {α : Type} {p : Go α} {a : α} (h : liftGo p = .ok a) : p = .ok a := by
  cases p with
  | ok b => cases h; rfl
  | error e => cases h

theorem index_ok {s : Bytes} {i : Int} {b : UInt8} (h : index s i = .ok b) : 0 ≤ i := by
  unfold index at h
  split at h
  · assumption
  · cases h

theorem offs_length (A : List (Nat × Bytes)) (i : Nat) : (offs A i).length = A.length := by
  induction A generalizing i with
  | nil => rfl
  | cons a A ih => simp [offs, ih]

theorem rangeString_length_le (s : Bytes) : (rangeString s).length ≤ s.length := by
  rw [rangeString_eq, offs_length]; exact toks_length_le s

theorem schemeLoopC_n (n : Nat) (s : Bytes) (i : Nat) (colon : Bool) (k : Nat) :
    (schemeLoopC n s i colon k).n ≤ s.length := by
  induction s generalizing i colon k with
  | nil => simp [schemeLoopC]
  | cons c s ih =>
    have h1 := ih (i + 1) colon k
    have h2 := ih (i + 1) colon (k + 1)
    have h3 := ih (i + 1) true k
    simp only [schemeLoopC, step_n, ite_n, ret_n, List.length_cons]
    repeat' split
    all_goals omega

theorem indexAnyLoopC_n (as : AsciiSet) (s : Bytes) (i : Nat) : (indexAnyLoopC as s i).n ≤ s.length := by
  induction s generalizing i with
  | nil => simp [indexAnyLoopC]
  | cons c s ih =>
    have h1 := ih (i + 1)
    simp only [indexAnyLoopC, step_n, ite_n, ret_n, List.length_cons]
    split <;> omega

theorem indexAnyASCIIC_n (as : AsciiSet) (s : Bytes) : (indexAnyASCIIC s as).n ≤ s.length := indexAnyLoopC_n as s 0

theorem hasInvalidCharsLoopC_n (l : Int) (r : List (Nat × Nat)) (b : Bool) : (hasInvalidCharsLoopC l r b).n ≤ r.length := by
  induction r generalizing b with
  | nil => simp [hasInvalidCharsLoopC]
  | cons c s ih =>
    have h1 := ih false
    have h2 := ih (labelSeparatorsRuneSet.exists c.2)
    simp only [hasInvalidCharsLoopC, step_n, ite_n, ret_n, List.length_cons]
    repeat' split
    all_goals omega

theorem hasInvalidCharsC_n (s : Bytes) : (hasInvalidCharsC s).n ≤ s.length :=
  Nat.le_trans (hasInvalidCharsLoopC_n _ _ _) (rangeString_length_le s)

/-- Going back from the end to the character found. -/
theorem lastIndexAnyLoopC_n (s : Bytes) (chars : RuneSet) (fuel : Nat) (i : Int) (h0 : 0 ≤ i) :
    ((lastIndexAnyLoopC s chars fuel i).n : Int) ≤ i ∧
    ∀ r, (lastIndexAnyLoopC s chars fuel i).val = .ok r → 0 ≤ r → ((lastIndexAnyLoopC s chars fuel i).n : Int) + r ≤ i := by
  induction fuel generalizing i with
  | zero => simp [lastIndexAnyLoopC]; omega
  | succ f ih =>
    rw [lastIndexAnyLoopC]
    split
    · rename_i hi
      cases hs : slice s 0 i with
      | error e =>
        simp [andThen]
        omega
      | ok t =>
        have hl := slice_ok hs
        have ht : t ≠ [] := by intro h; subst h; simp at hl; omega
        have hw := decodeLastRune_width ht
        simp only [andThen, ret_val, step_val, step_n, ret_n]
        split
        · simp only [ret_n, ret_val]
          refine ⟨by omega, ?_⟩
          intro r hr _
          injection hr with hr
          omega
        · have := ih (i - (decodeLastRune t).2) (by omega)
          refine ⟨by omega, ?_⟩
          intro r hr h
          have := this.2 r hr h
          omega
    · simp only [ret_n, ret_val]
      refine ⟨by omega, ?_⟩
      intro r hr h
      injection hr with hr
      omega

theorem lastIndexAnyC_n (s : Bytes) (chars : RuneSet) :
    (lastIndexAnyC s chars).n ≤ s.length ∧
    ∀ r, (lastIndexAnyC s chars).val = .ok r → 0 ≤ r → ((lastIndexAnyC s chars).n : Int) + r ≤ s.length := by
  have := lastIndexAnyLoopC_n s chars (s.length + 1) s.length (by omega)
  exact ⟨by have := this.1; unfold lastIndexAnyC; omega, this.2⟩

theorem indexLastByteBeforeC_n (s : Bytes) (b : UInt8) (as : AsciiSet) :
    (indexLastByteBeforeC s b as).n ≤ 2 * s.length := by
  have h1 := indexAnyASCIIC_n as s
  unfold indexLastByteBeforeC
  rw [bind_n]
  split
  · have : ∀ p : Go Bytes, (∀ t, p = .ok t → t.length ≤ s.length) →
        ((ret p).andThen fun t => step t.length <| ret (.ok (lastIndexByte t b) : Go Int)).n ≤ s.length := by
      intro p hp
      exact andThen_ret_le (fun t ht => by simpa using hp t ht)
    have := this (slice s 0 (indexAnyASCIIC s as).val) (fun t ht => by have := slice_ok ht; omega)
    omega
  · simp; omega

theorem trimLeftLoopC_n (set : RuneSet) (r : List (Nat × Nat)) (i : Int) (b : Bool) :
    (trimLeftLoopC set r i b).n ≤ r.length := by
  induction r generalizing i b with
  | nil => simp [trimLeftLoopC]
  | cons c s ih =>
    have h1 := ih c.1 true
    simp only [trimLeftLoopC, step_n, ite_n, ret_n, List.length_cons]
    split <;> omega

theorem trimRightLoopC_n (s : Bytes) (set : RuneSet) (fuel : Nat) (i e : Int) (b : Bool) (h0 : 0 ≤ i) :
    ((trimRightLoopC s set fuel i e b).n : Int) ≤ i := by
  induction fuel generalizing i e b with
  | zero => simpa [trimRightLoopC] using h0
  | succ f ih =>
    rw [trimRightLoopC]
    split
    · rename_i hi
      cases hs : slice s 0 i with
      | error e => simp [andThen]; omega
      | ok t =>
        have hl := slice_ok hs
        have ht : t ≠ [] := by intro h; subst h; simp at hl; omega
        have hw := decodeLastRune_width ht
        simp only [andThen, ret_val, step_val, step_n, ret_n]
        split
        · simp only [ret_n]; omega
        · have := ih (i - (decodeLastRune t).2) i true (by omega)
          omega
    · simpa using h0

theorem fastTrimRightC_n (s : Bytes) (set : RuneSet) (mode : TrimMode) (i : Int) :
    (fastTrimRightC s set mode i).n ≤ s.length := by
  unfold fastTrimRightC
  split
  · have h1 := trimRightLoopC_n s set (s.length + 1) s.length 0 false (by omega)
    have := andThen_le (j := s.length) (k := 0) (p := trimRightLoopC s set (s.length + 1) s.length 0 false)
      (f := fun r => if r.2.1 && !r.2.2 then ret (.ok []) else ret (slice s i r.1)) (by omega)
      (fun a _ => by simp only [ite_n, ret_n]; split <;> omega)
    omega
  · simp

theorem fastTrimC_n (s : Bytes) (set : RuneSet) (mode : TrimMode) : (fastTrimC s set mode).n ≤ 2 * s.length := by
  have h1 := trimLeftLoopC_n set (rangeString s) 0 false
  have h2 := rangeString_length_le s
  unfold fastTrimC
  split
  · rw [bind_n]
    split
    · simp; omega
    · have := fastTrimRightC_n s set mode (trimLeftLoopC set (rangeString s) 0 false).val.1
      omega
  · have := fastTrimRightC_n s set mode 0
    omega

theorem fastTrim_right_n (s : Bytes) (set : RuneSet) : (fastTrimC s set .trimRight).n ≤ s.length := by
  unfold fastTrimC
  rw [if_neg (by simp)]
  exact fastTrimRightC_n _ _ _ _

theorem fastTrim_length_le {s t : Bytes} {set : RuneSet} {mode : TrimMode} (h : fastTrim s set mode = .ok t) :
    t.length ≤ s.length := by
  have key : ∀ (p : Go (Int × Bool × Bool)) (i : Int), (p >>= fun r => if r.2.1 && !r.2.2 then Except.ok [] else slice s i r.1) = Except.ok t →
      t.length ≤ s.length := by
    intro p i hp
    cases p with
    | error e => cases hp
    | ok r =>
      rw [bind_ok] at hp
      split at hp
      · injection hp with hp; subst hp; simp
      · have := slice_ok hp; omega
  have right : ∀ i, fastTrimRight s set mode i = .ok t → t.length ≤ s.length := by
    intro i hi
    unfold fastTrimRight at hi
    split at hi
    · exact key _ _ hi
    · have := slice_ok hi; omega
  unfold fastTrim at h
  split at h
  · simp only at h
    split at h
    · injection h with h; subst h; simp
    · exact right _ h
  · exact right _ h

theorem dtoiLoopC_n (s : Bytes) (n i : Nat) : (dtoiLoopC s n i).n ≤ s.length := by
  induction s generalizing n i with
  | nil => simp [dtoiLoopC]
  | cons c s ih =>
    have h1 := ih (n * 10 + (c.toNat - 48)) (i + 1)
    simp only [dtoiLoopC, step_n, ite_n, ret_n, List.length_cons]
    repeat' split
    all_goals omega

theorem xtoiLoopC_n (s : Bytes) (n i : Nat) : (xtoiLoopC s n i).n ≤ s.length := by
  induction s generalizing n i with
  | nil => simp [xtoiLoopC]
  | cons c s ih =>
    simp only [xtoiLoopC, step_n, List.length_cons]
    cases hexVal c with
    | none => simp
    | some d =>
      have h1 := ih (n * 16 + d) (i + 1)
      simp only [ite_n, ret_n]
      split <;> omega

theorem isIPv4LoopC_n (k i : Nat) (s : Bytes) : (isIPv4LoopC k i s).n ≤ k * (1 + s.length) := by
  induction k generalizing i s with
  | zero => simp [isIPv4LoopC]
  | succ k ih =>
    rw [isIPv4LoopC, step_n, Nat.succ_mul]
    split
    · simp; omega
    · simp only
      split
      · simp; omega
      · have key : ∀ p : Go Bytes, (∀ t, p = .ok t → t.length ≤ s.length) →
            ((ret p).andThen fun s' =>
              (dtoiC s').bind fun r =>
              if r.2.2 = false ∨ r.1 > 0xFF then ret (.ok false)
              else
                (ret (if r.2.1 > 1 then index s' 0 else .ok 0)).andThen fun b0 =>
                if r.2.1 > 1 ∧ b0 = 48 then ret (.ok false)
                else (ret (slice s' r.2.1 s'.length)).andThen fun s'' => isIPv4LoopC k (i + 1) s'').n
              ≤ s.length + k * (1 + s.length) := by
          intro p hp
          apply andThen_ret_le
          intro s' hs'
          have hl := hp s' hs'
          have hd := dtoiLoopC_n s' 0 0
          rw [bind_n]
          have : ∀ c : Counted (Go Bool), c.n ≤ k * (1 + s.length) → (dtoiC s').n + c.n ≤ s.length + k * (1 + s.length) := by
            intro c hc
            have : (dtoiC s').n ≤ s'.length := hd
            omega
          apply this
          split
          · simp
          · apply andThen_ret_le
            intro b0 _
            split
            · simp
            · apply andThen_ret_le
              intro s'' hs''
              have := slice_ok hs''
              refine Nat.le_trans (ih _ _) (Nat.mul_le_mul_left _ ?_)
              omega
        refine Nat.le_trans (Nat.add_le_add_left (key _ ?_) 1) (by omega)
        intro t ht
        split at ht
        · have := slice_ok ht; omega
        · cases ht; omega

theorem isIPv4C_n (s : Bytes) : (isIPv4C s).n ≤ 5 * s.length + 4 := by
  have h1 := fastTrim_right_n s labelSeparatorsRuneSet
  have : (isIPv4C s).n ≤ s.length + 4 * (1 + s.length) := by
    refine andThen_le h1 ?_
    intro t ht
    rw [fastTrimC_val] at ht
    have h2 := fastTrim_length_le ht
    refine Nat.le_trans (isIPv4LoopC_n _ _ _) (Nat.mul_le_mul_left _ ?_)
    omega
  omega

theorem isIPv6LoopC_n (f : Nat) (s : Bytes) (i : Nat) (e : Int) (m : Nat) (hm : s.length ≤ m) :
    (isIPv6LoopC f s i e).n ≤ f * (2 * m + 1) + (5 * m + 4) := by
  induction f generalizing s i e with
  | zero => simp [isIPv6LoopC]
  | succ f ih =>
    rw [isIPv6LoopC, Nat.succ_mul]
    split
    · rw [step_n, bind_n]
      have hx : (xtoiC s).n ≤ m := Nat.le_trans (xtoiLoopC_n s 0 0) hm
      have rest : ∀ c : Counted (Go Bool), c.n ≤ m + (f * (2 * m + 1) + (5 * m + 4)) →
          1 + ((xtoiC s).n + c.n) ≤ f * (2 * m + 1) + (2 * m + 1) + (5 * m + 4) := by
        intro c hc; omega
      apply rest
      split
      · simp
      · apply andThen_le
        · split
          · apply andThen_ret_le
            intro t ht
            have := slice_ok ht
            simp; omega
          · simp
        · intro isSep _
          cases isSep with
          | true =>
            simp only [if_true]
            split
            · simp
            · split
              · simp
              · have h4 := isIPv4C_n s
                have := andThen_le (j := 5 * m + 4) (k := 0) (p := isIPv4C s)
                  (f := fun ok4 => if !ok4 then ret (.ok false) else ret (.ok (isIPv6Finish [] (i + iPv4len) e)))
                  (by omega) (fun a _ => by simp only [ite_n, ret_n]; split <;> omega)
                omega
          | false =>
            simp only [Bool.false_eq_true, if_false]
            apply andThen_ret_le
            intro s1 hs1
            have l1 := slice_ok hs1
            split
            · simp
            · apply andThen_ret_le
              intro c0 _
              split
              · simp
              · apply andThen_ret_le
                intro s2 hs2
                have l2 := slice_ok hs2
                apply andThen_ret_le
                intro c1 _
                split
                · split
                  · simp
                  · apply andThen_ret_le
                    intro s3 hs3
                    have l3 := slice_ok hs3
                    split
                    · simp
                    · exact ih _ _ _ (by omega)
                · exact ih _ _ _ (by omega)
    · simp

theorem isIPv6C_n (s : Bytes) : (isIPv6C s).n ≤ 23 * s.length + 13 := by
  have h : ∀ t : Bytes, t.length ≤ s.length → ∀ e, (isIPv6LoopC 9 t 0 e).n ≤ 23 * s.length + 13 := by
    intro t ht e
    have := isIPv6LoopC_n 9 t 0 e s.length ht
    omega
  unfold isIPv6C
  split
  · apply andThen_ret_le
    intro c0 _
    apply andThen_ret_le
    intro c1 _
    split
    · apply andThen_ret_le
      intro s' hs'
      have := slice_ok hs'
      split
      · simp
      · exact h _ (by omega) _
    · exact h _ (by omega) _
  · exact h _ (by omega) _

theorem stageSchemeC_n (s : Bytes) (u : ExtractResult) : (stageSchemeC s u).n ≤ s.length := by
  have h := schemeLoopC_n s.length s 0 false 0
  unfold stageSchemeC
  rw [bind_n]
  have : ∀ c : Counted (Go (ExtractResult × Bytes)), c.n ≤ 0 → (schemeLoopC s.length s 0 false 0).n + c.n ≤ s.length := by
    intro c hc; omega
  apply this
  split
  · apply andThen_ret_le; intro _ _
    apply andThen_ret_le; intro _ _
    simp
  · simp

theorem stageScheme_length {s t : Bytes} {u v : ExtractResult} (h : stageScheme s u = .ok (v, t)) : t.length ≤ s.length := by
  unfold stageScheme at h
  simp only at h
  split at h
  · cases h1 : slice s 0 (getSchemeEndIndex s) with
    | error e => rw [h1] at h; cases h
    | ok a =>
      cases h2 : slice s (getSchemeEndIndex s) s.length with
      | error e => rw [h1, h2] at h; cases h
      | ok b =>
        rw [h1, h2] at h; cases h
        have := slice_ok h2; omega
  · cases h; omega

theorem stageUserInfoC_n (s : Bytes) (u : ExtractResult) : (stageUserInfoC s u).n ≤ 2 * s.length := by
  have h := indexLastByteBeforeC_n s 64 invalidUserInfoCharsSet
  unfold stageUserInfoC
  refine andThen_le (k := 0) h ?_
  intro atIdx _
  split
  · apply andThen_ret_le; intro _ _
    apply andThen_ret_le; intro _ _
    simp
  · simp

theorem stageUserInfo_length {s t : Bytes} {u v : ExtractResult} (h : stageUserInfo s u = .ok (v, t)) : t.length ≤ s.length := by
  unfold stageUserInfo at h
  cases h0 : indexLastByteBefore s 64 invalidUserInfoCharsSet with
  | error e => rw [h0] at h; cases h
  | ok i =>
    rw [h0, bind_ok] at h
    split at h
    · cases h1 : slice s 0 i with
      | error e => rw [h1] at h; cases h
      | ok a =>
        cases h2 : slice s (i + 1) s.length with
        | error e => rw [h1, h2] at h; cases h
        | ok b =>
          rw [h1, h2] at h; cases h
          have := slice_ok h2; omega
    · cases h; omega

theorem scanLoopC_n (n : Nat) (s : Bytes) (i : Nat) (o c : Int) : (scanLoopC n s i o c).n ≤ s.length := by
  induction s generalizing i o c with
  | nil => simp [scanLoopC]
  | cons a s ih =>
    have := ih (i + 1)
    simp only [scanLoopC, step_n, ite_n, ret_n, List.length_cons]
    have h1 := fun o c => this o c
    rw [Nat.add_comm 1]
    apply Nat.succ_le_succ
    repeat' split
    all_goals first | exact Nat.zero_le _ | exact h1 _ _

theorem stageIPv6C_n (s : Bytes) (o c h : Int) (u : ExtractResult) :
    (stageIPv6C s o c h u).n ≤ 24 * s.length + 13 := by
  unfold stageIPv6C
  split
  · apply andThen_ret_le
    intro inner hi
    have li := slice_ok (liftGo_isOk hi)
    have h6 := isIPv6C_n inner
    have := andThen_le (j := 23 * s.length + 13) (k := s.length) (p := lift (isIPv6C inner))
      (f := fun ok6 => if !ok6 then ret (fail u .invalidIPv6)
        else
          (if h ≠ -1 then
            (ret (liftGo (slice s h s.length))).andThen fun afterHost =>
            (indexAnyASCIIC afterHost endOfHostDelimitersSet).bind fun k =>
            if k ≠ 0 then ret (fail u .trailingAfterIPv6) else ret (.ok ())
          else ret (.ok ())).andThen fun _ =>
          ret (.ok { u with hostType := .iPv6, domain := inner, registeredDomain := inner }))
      (by simp; omega) (by
        intro ok6 _
        split
        · simp
        · refine andThen_le (j := s.length) (k := 0) ?_ (fun _ _ => by simp)
          split
          · apply andThen_ret_le
            intro t ht
            have lt := slice_ok (liftGo_isOk ht)
            have := indexAnyASCIIC_n endOfHostDelimitersSet t
            rw [bind_n, ite_n, ret_n, ret_n]
            split <;> omega
          · simp)
    omega
  · simp

theorem stagePortPathC_n (s : Bytes) (u : ExtractResult) : (stagePortPathC s u).n ≤ 2 * s.length := by
  unfold stagePortPathC
  split
  · have h1 := indexAnyASCIIC_n endOfHostWithPortDelimitersSet s
    rw [bind_n]
    have : ∀ c : Counted (M ExtractResult), c.n ≤ s.length →
        (indexAnyASCIIC s endOfHostWithPortDelimitersSet).n + c.n ≤ 2 * s.length := by
      intro c hc; omega
    apply this
    apply andThen_ret_le
    intro c0 _
    refine andThen_le (j := s.length) (k := 0) ?_ ?_
    · split
      · apply andThen_ret_le
        intro t ht
        have : t.length ≤ s.length := by
          split at ht
          · have := slice_ok (liftGo_isOk ht); omega
          · have := slice_ok (liftGo_isOk ht); omega
        rw [step_n, ite_n, ret_n, ret_n]
        split <;> omega
      · simp
    · intro u' _
      split
      · apply andThen_ret_le; intro _ _; simp
      · simp
  · simp

theorem stageIdnaC_n (idna : Idna) (e : URLParams) (s : Bytes) (u : ExtractResult) :
    (stageIdnaC idna e s u).n = 2 * s.length := by
  unfold stageIdnaC
  rw [step_n]
  cases queryUnescape s with
  | error esc => rfl
  | ok t =>
    simp only [ite_n, ret_n]
    cases idna.toUnicodeErr t <;> simp

theorem queryUnescape_length {s t : Bytes} (h : queryUnescape s = .ok t) : t.length ≤ s.length := by
  fun_induction queryUnescape s generalizing t
  all_goals first | (cases h; done) | skip
  · cases h; simp
  · rename_i hr ih; cases h; have := ih hr; simp; omega
  · rename_i hr ih; cases h; have := ih hr; simp; omega

theorem unescapeOrEmpty_length (s : Bytes) : (unescapeOrEmpty s).length ≤ s.length := by
  unfold unescapeOrEmpty
  cases h : queryUnescape s with
  | error e => simp
  | ok t => exact queryUnescape_length h

theorem walkLabelC_n (netloc : Bytes) (node : Trie) (label : Bytes) (l : Bool) (w : Walk)
    (k : Trie → Walk → Counted (M Walk)) (m : Nat) (hk : ∀ t w', w'.sepIdx = w.sepIdx → (k t w').n ≤ m) :
    (walkLabelC netloc node label l w k).n ≤ 3 * label.length + 6 + m := by
  simp only [walkLabelC, bind_n, getC, step_n, step_val, ret_val, ret_n]
  have hu := unescapeOrEmpty_length label
  cases node.get (b! "*") with
  | some v =>
    simp only [bind_n, getC, step_n, step_val, ret_val, ret_n]
    cases node.get (33 :: label) <;> simp <;> omega
  | none =>
    simp only [bind_n, getC, step_n, step_val, ret_val, ret_n]
    cases node.get (unescapeOrEmpty label) with
    | none => simp; omega
    | some v =>
      simp only
      have hd : ∀ c : Counted (M Walk), c.n ≤ m →
          1 + (b! "*").length + 0 + (2 * label.length + (1 + (unescapeOrEmpty label).length + 0 + c.n)) ≤ 3 * label.length + 6 + m := by
        intro c hc; simp; omega
      apply hd
      split
      · simp
      · split
        · simp
        · apply hk
          split <;> rfl

/-- The suffix loop: what it does telescopes. -/
theorem walkLoopC_n (netloc : Bytes) (u : ExtractResult) (f : Nat) (t : Trie) (b : Bool) (w : Walk) :
    (walkLoopC netloc u f t b w).n ≤ 8 * w.sepIdx.toNat + 7 := by
  induction f generalizing t b w with
  | zero => simp [walkLoopC]
  | succ f ih =>
    rw [walkLoopC, step_n]
    have one : ∀ c : Counted (M Walk), c.n ≤ 8 * w.sepIdx.toNat + 6 → 1 + c.n ≤ 8 * w.sepIdx.toNat + 7 := by
      intro c hc; omega
    apply one
    apply andThen_ret_le
    intro pre hpre
    have lp := slice_ok (liftGo_isOk hpre)
    have hla := lastIndexAnyC_n pre labelSeparatorsRuneSet
    cases hv : (lastIndexAnyC pre labelSeparatorsRuneSet).val with
    | error e =>
      unfold andThen
      rw [lift_val, hv]
      simp only [liftGo, lift_n]
      omega
    | ok sep =>
      unfold andThen
      rw [lift_val, hv]
      simp only [liftGo, lift_n, step_n]
      have h2 := hla.2 sep hv
      split
      · rename_i hne
        cases hix : index netloc sep with
        | error e => simp; omega
        | ok c =>
          have h0 := index_ok hix
          have h2 := h2 h0
          simp only [ret_val, ret_n, step_n]
          cases hsl : slice netloc (sep + sepSize c) w.sepIdx with
          | error e => simp; omega
          | ok label =>
            have ll := slice_ok hsl
            have hsz : 1 ≤ sepSize c := by unfold sepSize; split <;> omega
            simp only [step_n]
            split
            · split
              · have := ih t b { w with previousSepIdx := w.sepIdx, sepIdx := sep, suffixEndIdx := sep }
                simp only at this
                omega
              · simp; omega
            · have := walkLabelC_n netloc t label false { w with previousSepIdx := w.sepIdx, sepIdx := sep }
                (fun node w => walkLoopC netloc u f node true w) (8 * sep.toNat + 7)
                (fun t' w' hw' => by
                  have := ih t' true w'
                  rw [hw'] at this
                  exact this)
              omega
      · cases hsl : slice netloc 0 w.sepIdx with
        | error e => simp; omega
        | ok label =>
          have ll := slice_ok hsl
          simp only [ret_val, ret_n, step_n]
          have := walkLabelC_n netloc t label true { w with previousSepIdx := w.sepIdx, sepIdx := sep }
            (fun _ w => ret (.ok w)) 0 (fun _ _ _ => by simp)
          omega

theorem stageIPv4C_n (s : Bytes) (w : Walk) (u : ExtractResult) : (stageIPv4C s w u).n ≤ 5 * s.length + 4 := by
  unfold stageIPv4C
  split
  · apply andThen_ret_le; intro c0 _
    split
    · refine andThen_le (k := 0) (isIPv4C_n s) ?_
      intro ok4 _
      split
      · apply andThen_ret_le; intro _ _; simp
      · simp
    · simp
  · simp

theorem stageCheckCharsC_n (s : Bytes) (w : Walk) (u : ExtractResult) : (stageCheckCharsC s w u).n ≤ s.length := by
  unfold stageCheckCharsC
  apply andThen_ret_le
  intro t ht
  have := slice_ok (liftGo_isOk ht)
  have hc := hasInvalidCharsC_n t
  rw [bind_n, ite_n, ret_n, ret_n]
  split <;> omega

theorem stageNamesC_n (s : Bytes) (w : Walk) (u : ExtractResult) : (stageNamesC s w u).n ≤ s.length := by
  have hl : ∀ {t : Bytes} {lo hi : Int}, slice s lo hi = .ok t → (lastIndexAnyC t labelSeparatorsRuneSet).n ≤ s.length := by
    intro t lo hi h
    have := slice_ok h
    have := (lastIndexAnyC_n t labelSeparatorsRuneSet).1
    omega
  unfold stageNamesC
  split
  · split
    · apply andThen_ret_le; intro _ _
      apply andThen_ret_le; intro _ _
      apply andThen_ret_le; intro pre hpre
      refine andThen_le (k := 0) (hl hpre) ?_
      intro d _
      split
      · apply andThen_ret_le; intro _ _
        apply andThen_ret_le; intro _ _
        apply andThen_ret_le; intro _ _
        simp
      · apply andThen_ret_le; intro _ _
        simp
    · apply andThen_ret_le; intro _ _
      simp
  · apply andThen_ret_le; intro pre hpre
    refine andThen_le (k := 0) (hl hpre) ?_
    intro d _
    apply andThen_ret_le; intro _ _
    apply andThen_ret_le; intro _ _
    simp

theorem stageHostC_n (t : Trie) (e : URLParams) (s : Bytes) (u : ExtractResult) :
    (stageHostC t e s u).n ≤ 15 * s.length + 11 := by
  have hw := walkLoopC_n s u (s.length + 2) t false
    { hasSuffix := false, previousSepIdx := 0, sepIdx := s.length, suffixStartIdx := s.length, suffixEndIdx := s.length }
  have : (stageHostC t e s u).n ≤ (8 * s.length + 7) + ((5 * s.length + 4) + (s.length + s.length)) := by
    unfold stageHostC
    refine andThen_le (Nat.le_trans hw (by simp)) ?_
    intro w _
    refine andThen_le (stageIPv4C_n s w u) ?_
    intro ip _
    cases ip with
    | some v => simp
    | none =>
      refine andThen_le (stageCheckCharsC_n s w u) ?_
      intro w' _
      refine andThen_le (k := 0) (stageNamesC_n s w' u) ?_
      intro r _
      apply andThen_ret_le; intro u' _
      rw [ite_n, ret_n, ret_n]
      split <;> omega
  omega

theorem stageSplit_length {s a b : Bytes} {h : Int} (hs : stageSplit s h = .ok (a, b)) : a.length + b.length = s.length := by
  unfold stageSplit at hs
  split at hs
  · cases h1 : slice s h s.length with
    | error e => rw [h1] at hs; cases hs
    | ok x =>
      cases h2 : slice s 0 h with
      | error e => rw [h1, h2] at hs; cases hs
      | ok y =>
        rw [h1, h2] at hs; cases hs
        have := slice_ok h1
        have := slice_ok h2
        omega
  · cases hs; simp

/-- Either nothing was done about IPv6, or Extract ends soon. -/
theorem stageIPv6_cases {s : Bytes} {o c h : Int} {u v : ExtractResult} (hv : stageIPv6 s o c h u = .ok v) :
    (stageIPv6C s o c h u).n = 0 ∨ v.hostType = .iPv6 := by
  unfold stageIPv6 at hv
  split at hv
  · right
    cases h1 : liftGo (slice s 1 c) with
    | error e => rw [h1] at hv; cases hv
    | ok inner =>
      rw [h1, bind_ok] at hv
      cases h2 : liftGo (isIPv6 inner) with
      | error e => rw [h2] at hv; cases hv
      | ok ok6 =>
        rw [h2, bind_ok] at hv
        cases ok6 with
        | false => cases hv
        | true =>
          simp only [Bool.not_true, Bool.false_eq_true, if_false] at hv
          revert hv
          generalize (if h ≠ -1 then _ else _ : M Unit) = p
          intro hv
          cases p with
          | error e => cases hv
          | ok x => cases hv; rfl
  · left
    rename_i hc
    simp [stageIPv6C, hc]

theorem stagePortPath_hostType {s : Bytes} {u v : ExtractResult} (h : stagePortPath s u = .ok v) : v.hostType = u.hostType := by
  have last : ∀ {u' : ExtractResult} {k : Int}, (if k ≠ -1 ∧ k ≠ s.length then
      (liftGo (slice s k s.length)) >>= fun p => (.ok { u' with path := p } : M ExtractResult) else .ok u') = .ok v →
      v.hostType = u'.hostType := by
    intro u' k hk
    split at hk
    · cases h3 : liftGo (slice s k s.length) with
      | error e => rw [h3] at hk; cases hk
      | ok p => rw [h3] at hk; cases hk; rfl
    · cases hk; rfl
  unfold stagePortPath at h
  split at h
  · simp only at h
    cases h1 : liftGo (index s 0) with
    | error e => rw [h1] at h; cases h
    | ok c0 =>
      rw [h1, bind_ok] at h
      split at h
      · revert h
        generalize (if indexAnyASCII s endOfHostWithPortDelimitersSet = -1 then _ else _ : M Bytes) = p
        intro h
        cases p with
        | error e => cases h
        | ok mp =>
          rw [bind_ok] at h
          split at h
          · rw [bind_ok] at h; exact last (u' := { u with port := mp }) h
          · cases h
      · rw [bind_ok] at h; exact last h
  · cases h; rfl

/-- The whole: `l` for the length of the URL, `k` for the length of the host text after IDNA. -/
theorem extractC_n (idna : Idna) (t : Trie) (e : URLParams) (k : Nat)
    (hk : ∀ host v u, host.length ≤ e.url.length → stageIdna idna e host u = .ok v → v.length ≤ k) :
    (extractC idna t e).n ≤ 33 * e.url.length + 15 * k + 13 := by
  have : (extractC idna t e).n ≤ 2 * e.url.length + (e.url.length + (2 * e.url.length +
      (2 * e.url.length + (26 * e.url.length + 15 * k + 13)))) := by
    unfold extractC
    refine andThen_le (fastTrimC_n _ _ _) ?_
    intro s0 hs0
    rw [lift_val, fastTrimC_val] at hs0
    have l0 := fastTrim_length_le (liftGo_isOk hs0)
    refine andThen_le (Nat.le_trans (stageSchemeC_n s0 {}) l0) ?_
    intro r hr
    rw [lift_val, stageSchemeC_val] at hr
    have l1 : r.2.length ≤ e.url.length := Nat.le_trans (stageScheme_length (v := r.1) (liftGo_isOk hr)) l0
    refine andThen_le (Nat.le_trans (stageUserInfoC_n r.2 r.1) (by omega)) ?_
    intro q hq
    rw [lift_val, stageUserInfoC_val] at hq
    have l2 : q.2.length ≤ e.url.length := Nat.le_trans (stageUserInfo_length (v := q.1) (liftGo_isOk hq)) l1
    have hsc := scanLoopC_n q.2.length q.2 0 (-1) (-1)
    simp only [step_n, bind_n]
    have key : ∀ c : Counted (M (ExtractResult × Option Err)), c.n ≤ 26 * e.url.length + 15 * k + 13 →
        q.2.length + ((scanLoopC q.2.length q.2 0 (-1) (-1)).n + c.n) ≤
          2 * e.url.length + (26 * e.url.length + 15 * k + 13) := by
      intro c hc; omega
    apply key
    cases (scanLoopC q.2.length q.2 0 (-1) (-1)).val with
    | err er => simp
    | done o c h =>
      simp only
      generalize adjustHostEnd q.2.length c h = h'
      have h6 := stageIPv6C_n q.2 o c h' q.1
      -- what follows the IPv6 check
      have rest : ∀ v, (stageIPv6C q.2 o c h' q.1).val = .ok v →
          ((ret (liftGo (stageSplit q.2 h'))).andThen fun hs =>
            (stagePortPathC hs.2 v).andThen fun u =>
            if u.hostType = .iPv6 then ret (.ok (u, none))
            else
              (stageIdnaC idna e hs.1 u).andThen fun netloc => stageHostC t e netloc u).n ≤
          2 * e.url.length + (if v.hostType = .iPv6 then 0 else 15 * k + 11) := by
        intro v hv
        apply andThen_ret_le
        intro hs hhs
        have ls := stageSplit_length (a := hs.1) (b := hs.2) (liftGo_isOk hhs)
        have : ((stagePortPathC hs.2 v).andThen fun u =>
            if u.hostType = .iPv6 then ret (.ok (u, none))
            else
              (stageIdnaC idna e hs.1 u).andThen fun netloc => stageHostC t e netloc u).n ≤
            2 * hs.2.length + (2 * hs.1.length + (if v.hostType = .iPv6 then 0 else 15 * k + 11)) := by
          refine andThen_le (stagePortPathC_n hs.2 v) ?_
          intro u hu
          rw [stagePortPathC_val] at hu
          have ht := stagePortPath_hostType hu
          rw [ht]
          split
          · simp
          · refine andThen_le (Nat.le_of_eq (stageIdnaC_n idna e hs.1 u)) ?_
            intro n hn
            rw [stageIdnaC_val] at hn
            have := hk hs.1 n u (by omega) hn
            have := stageHostC_n t e n u
            omega
        omega
      cases hv : (stageIPv6C q.2 o c h' q.1).val with
      | error er =>
        unfold andThen
        rw [hv]
        simp only
        omega
      | ok v =>
        have hr := rest v hv
        unfold andThen at hr ⊢
        rw [hv]
        simp only [step_n]
        have hv' := hv
        rw [stageIPv6C_val] at hv'
        rcases stageIPv6_cases hv' with h0 | h0
        · refine Nat.le_trans (Nat.add_le_add_left hr _) ?_
          rw [h0]
          split <;> omega
        · refine Nat.le_trans (Nat.add_le_add_left hr _) ?_
          rw [if_pos h0]
          omega
  omega

end Fasttld
