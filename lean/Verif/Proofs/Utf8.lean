import Verif.Spec.Utf8
import Verif.Model.Utf8

/-!
# UTF-8 decoding, forwards and backwards

`decodeRune` and `decodeLastRune` agree with the specification encoder, and both directions cut a
byte string into the same characters (`toks`), even when it is not valid UTF-8.
-/

namespace Fasttld
open Spec

theorem encode_length (r : Nat) : 1 ≤ (encode r).length ∧ (encode r).length ≤ 4 := by
  unfold encode; split <;> (try split) <;> (try split) <;> simp

theorem encode_ne_nil (r : Nat) : encode r ≠ [] := by
  intro h; have := encode_length r; simp [h] at this

theorem isCont_ofNat {n : Nat} (h : n < 256) : isCont (UInt8.ofNat n) = (decide (0x80 ≤ n) && decide (n ≤ 0xBF)) := by
  simp [isCont, UInt8.toNat_ofNat', Nat.mod_eq_of_lt h]

/-- The first byte of an encoding is not a continuation byte, all others are. -/
theorem encode_shape {r : Nat} (h : IsScalar r) :
    ∃ b t, encode r = b :: t ∧ isCont b = false ∧ ∀ c ∈ t, isCont c = true := by
  have h2 : r ≤ 0x10FFFF := by unfold IsScalar at h; omega
  unfold encode
  split
  · exact ⟨_, _, rfl, by rw [isCont_ofNat (by omega)]; simp; omega, by simp⟩
  split
  · refine ⟨_, _, rfl, by rw [isCont_ofNat (by omega)]; simp; omega, ?_⟩
    intro c hc; simp only [List.mem_cons, List.not_mem_nil, or_false] at hc; subst hc; rw [isCont_ofNat (by omega)]; simp; omega
  split
  · refine ⟨_, _, rfl, by rw [isCont_ofNat (by omega)]; simp; omega, ?_⟩
    intro c hc; simp only [List.mem_cons, List.not_mem_nil, or_false] at hc
    rcases hc with rfl | rfl <;> (rw [isCont_ofNat (by omega)]; simp; omega)
  · refine ⟨_, _, rfl, by rw [isCont_ofNat (by omega)]; simp; omega, ?_⟩
    intro c hc; simp only [List.mem_cons, List.not_mem_nil, or_false] at hc
    rcases hc with rfl | rfl | rfl <;> (rw [isCont_ofNat (by omega)]; simp; omega)

theorem toNat_ofNat_lt {n : Nat} (h : n < 256) : (UInt8.ofNat n).toNat = n := by
  simp [UInt8.toNat_ofNat', Nat.mod_eq_of_lt h]

/-- Decoding an encoding gives the character back. -/
theorem decode_encode {r : Nat} (h : IsScalar r) (t : Bytes) :
    decodeRune (encode r ++ t) = (r, (encode r).length) := by
  unfold IsScalar at h
  unfold encode
  split
  · simp [decodeRune, toNat_ofNat_lt (show r < 256 by omega)]; omega
  split
  · simp only [List.cons_append, List.nil_append, decodeRune, toNat_ofNat_lt (show 0xC0 + r / 64 < 256 by omega),
      isCont_ofNat (show 0x80 + r % 64 < 256 by omega), toNat_ofNat_lt (show 0x80 + r % 64 < 256 by omega)]
    rw [if_neg (by omega), if_neg (by omega), if_pos (by omega), if_pos (by simp; omega)]
    simp; omega
  split
  · simp only [List.cons_append, List.nil_append, decodeRune, toNat_ofNat_lt (show 0xE0 + r / 4096 < 256 by omega),
      isCont_ofNat (show 0x80 + r % 64 < 256 by omega), toNat_ofNat_lt (show 0x80 + r % 64 < 256 by omega),
      toNat_ofNat_lt (show 0x80 + r / 64 % 64 < 256 by omega)]
    rw [if_neg (by omega), if_neg (by omega), if_neg (by omega), if_pos (by omega), if_pos]
    · simp; omega
    · refine ⟨?_, ?_, by simp; omega⟩
      · split <;> omega
      · split <;> omega
  · simp only [List.cons_append, List.nil_append, decodeRune, toNat_ofNat_lt (show 0xF0 + r / 262144 < 256 by omega),
      isCont_ofNat (show 0x80 + r % 64 < 256 by omega), toNat_ofNat_lt (show 0x80 + r % 64 < 256 by omega),
      isCont_ofNat (show 0x80 + r / 64 % 64 < 256 by omega),
      toNat_ofNat_lt (show 0x80 + r / 64 % 64 < 256 by omega),
      toNat_ofNat_lt (show 0x80 + r / 4096 % 64 < 256 by omega)]
    rw [if_neg (by omega), if_neg (by omega), if_neg (by omega), if_neg (by omega), if_pos (by omega), if_pos]
    · simp; omega
    · refine ⟨?_, ?_, by simp; omega, by simp; omega⟩
      · split <;> omega
      · split <;> omega

theorem ofNat_eq_iff {b : UInt8} {n : Nat} (h : b.toNat = n) : UInt8.ofNat n = b := by
  subst h; simp

/-- `decodeRune` either finds an encoded scalar value, or reports an error of width one. -/
theorem decode_cases (b : UInt8) (t : Bytes) :
    (∃ r q, IsScalar r ∧ b :: t = encode r ++ q ∧ decodeRune (b :: t) = (r, (encode r).length))
    ∨ decodeRune (b :: t) = (runeError, 1) := by
  have hb := b.toNat_lt
  have key : ∀ r q, IsScalar r → b :: t = encode r ++ q →
      (∃ r q, IsScalar r ∧ b :: t = encode r ++ q ∧ decodeRune (b :: t) = (r, (encode r).length)) := by
    intro r q hr he
    exact ⟨r, q, hr, he, by rw [he]; exact decode_encode hr q⟩
  by_cases h1 : b.toNat < 0x80
  · left
    refine key b.toNat t (by unfold IsScalar; omega) ?_
    unfold encode; rw [if_pos h1]; simp
  by_cases h2 : b.toNat < 0xC2
  · right; unfold decodeRune; simp [h1, h2]
  by_cases h3 : b.toNat < 0xE0
  · rcases t with _ | ⟨b1, q⟩
    · right; simp [decodeRune, h1, h2, h3]
    · by_cases hc : isCont b1 = true
      · left
        have hc' : 0x80 ≤ b1.toNat ∧ b1.toNat ≤ 0xBF := by simpa [isCont] using hc
        refine key ((b.toNat - 0xC0) * 64 + (b1.toNat - 0x80)) q (by unfold IsScalar; omega) ?_
        unfold encode
        rw [if_neg (by omega), if_pos (by omega)]
        rw [ofNat_eq_iff (b := b) (by omega), ofNat_eq_iff (b := b1) (by omega)]; rfl
      · right; simp [decodeRune, h1, h2, h3, hc]
  by_cases h4 : b.toNat < 0xF0
  · rcases t with _ | ⟨b1, _ | ⟨b2, q⟩⟩
    · right; simp [decodeRune, h1, h2, h3, h4]
    · right; simp [decodeRune, h1, h2, h3, h4]
    · by_cases hc : (if b.toNat = 0xE0 then 0xA0 else 0x80) ≤ b1.toNat
            ∧ b1.toNat ≤ (if b.toNat = 0xED then 0x9F else 0xBF) ∧ isCont b2
      · left
        have hc2 : 0x80 ≤ b2.toNat ∧ b2.toNat ≤ 0xBF := by simpa [isCont] using hc.2.2
        have hc1 := hc.1
        have hc3 := hc.2.1
        refine key ((b.toNat - 0xE0) * 4096 + (b1.toNat - 0x80) * 64 + (b2.toNat - 0x80)) q
          (by unfold IsScalar; split at hc1 <;> split at hc3 <;> omega) ?_
        unfold encode
        have e1 : 0x80 ≤ b1.toNat := by split at hc1 <;> omega
        have e2 : b1.toNat ≤ 0xBF := by split at hc3 <;> omega
        have e3 : b.toNat = 0xE0 → 0xA0 ≤ b1.toNat := by intro h; rw [if_pos h] at hc1; exact hc1
        rw [if_neg (by omega), if_neg (by omega), if_pos (by omega)]
        rw [ofNat_eq_iff (b := b) (by omega), ofNat_eq_iff (b := b1) (by omega),
          ofNat_eq_iff (b := b2) (by omega)]; rfl
      · right; simp only [decodeRune, h1, h2, h3, h4, hc]; simp
  by_cases h5 : b.toNat < 0xF5
  · rcases t with _ | ⟨b1, _ | ⟨b2, _ | ⟨b3, q⟩⟩⟩
    · right; simp [decodeRune, h1, h2, h3, h4, h5]
    · right; simp [decodeRune, h1, h2, h3, h4, h5]
    · right; simp [decodeRune, h1, h2, h3, h4, h5]
    · by_cases hc : (if b.toNat = 0xF0 then 0x90 else 0x80) ≤ b1.toNat
            ∧ b1.toNat ≤ (if b.toNat = 0xF4 then 0x8F else 0xBF) ∧ isCont b2 ∧ isCont b3
      · left
        have hc2 : 0x80 ≤ b2.toNat ∧ b2.toNat ≤ 0xBF := by simpa [isCont] using hc.2.2.1
        have hc4 : 0x80 ≤ b3.toNat ∧ b3.toNat ≤ 0xBF := by simpa [isCont] using hc.2.2.2
        have hc1 := hc.1
        have hc3 := hc.2.1
        have e1 : 0x80 ≤ b1.toNat := by split at hc1 <;> omega
        have e2 : b1.toNat ≤ 0xBF := by split at hc3 <;> omega
        have e3 : b.toNat = 0xF0 → 0x90 ≤ b1.toNat := by intro h; rw [if_pos h] at hc1; exact hc1
        have e4 : b.toNat = 0xF4 → b1.toNat ≤ 0x8F := by intro h; rw [if_pos h] at hc3; exact hc3
        refine key ((b.toNat - 0xF0) * 262144 + (b1.toNat - 0x80) * 4096 + (b2.toNat - 0x80) * 64
            + (b3.toNat - 0x80)) q (by unfold IsScalar; omega) ?_
        unfold encode
        rw [if_neg (by omega), if_neg (by omega), if_neg (by omega)]
        rw [ofNat_eq_iff (b := b) (by omega), ofNat_eq_iff (b := b1) (by omega),
          ofNat_eq_iff (b := b2) (by omega), ofNat_eq_iff (b := b3) (by omega)]; rfl
      · right; simp only [decodeRune, h1, h2, h3, h4, h5, hc]; simp
  · right; unfold decodeRune; simp [h1, h2, h3, h4, h5]

/-! ## Characters of a byte string -/

/-- The characters of a byte string: (code point, its bytes).  A byte that is not part of a valid
encoding is a character of its own with code point U+FFFD. -/
def toks (s : Bytes) : List (Nat × Bytes) :=
  match s with
  | [] => []
  | b :: t =>
    let d := decodeRune (b :: t)
    (d.1, (b :: t).take d.2) :: toks (t.drop (d.2 - 1))
termination_by s.length
decreasing_by simp; omega

/-- The bytes of a character sequence. -/
def flat (ts : List (Nat × Bytes)) : Bytes := ts.flatMap Prod.snd

@[simp] theorem flat_nil : flat [] = [] := rfl
@[simp] theorem flat_cons (t) (ts) : flat (t :: ts) = t.2 ++ flat ts := rfl
@[simp] theorem flat_append (a b) : flat (a ++ b) = flat a ++ flat b := by simp [flat]

@[simp] theorem toks_nil : toks [] = [] := by rw [toks]

theorem toks_encode {r : Nat} (h : IsScalar r) (q : Bytes) :
    toks (encode r ++ q) = (r, encode r) :: toks q := by
  have hd := decode_encode h q
  obtain ⟨b, t, he, -, -⟩ := encode_shape h
  rw [he] at hd ⊢
  rw [List.cons_append, toks]
  rw [List.cons_append] at hd
  simp only [hd]
  simp

theorem toks_error {b : UInt8} {t : Bytes} (h : decodeRune (b :: t) = (runeError, 1)) :
    toks (b :: t) = (runeError, [b]) :: toks t := by
  rw [toks]; simp [h]

/-- Induction over characters. -/
theorem toks_induction {P : Bytes → Prop} (nil : P [])
    (enc : ∀ r q, IsScalar r → P q → P (encode r ++ q))
    (err : ∀ b t, decodeRune (b :: t) = (runeError, 1) → P t → P (b :: t)) : ∀ s, P s := by
  intro s
  induction h : s.length using Nat.strongRecOn generalizing s with
  | _ n ih =>
    rcases s with _ | ⟨b, t⟩
    · exact nil
    · rcases decode_cases b t with ⟨r, q, hr, he, hd⟩ | hd
      · rw [he]
        refine enc r q hr (ih q.length ?_ q rfl)
        have := congrArg List.length he
        have h1 := encode_length r
        simp at this h; omega
      · exact err b t hd (ih t.length (by simp at h; omega) t rfl)

@[simp] theorem flat_toks (s : Bytes) : flat (toks s) = s := by
  induction s using toks_induction with
  | nil => simp
  | enc r q hr ih => rw [toks_encode hr]; simp [ih]
  | err b t h ih => rw [toks_error h]; simp [ih]

/-- A decoding error at the front means that no encoding is there. -/
theorem no_encode_of_error {b : UInt8} {t : Bytes} (h : decodeRune (b :: t) = (runeError, 1))
    {r : Nat} (hr : IsScalar r) (q : Bytes) : b :: t ≠ encode r ++ q := by
  intro he
  rw [he, decode_encode hr] at h
  simp only [Prod.mk.injEq] at h
  obtain ⟨rfl, h2⟩ := h
  simp [encode, runeError] at h2

/-- Cutting off the tail of an undecodable string keeps it undecodable. -/
theorem error_of_prefix {b : UInt8} {t u : Bytes} (h : decodeRune (b :: (t ++ u)) = (runeError, 1)) :
    decodeRune (b :: t) = (runeError, 1) := by
  rcases decode_cases b t with ⟨r, q, hr, he, -⟩ | hd
  · exfalso
    refine no_encode_of_error h hr (q ++ u) ?_
    rw [← List.append_assoc, ← he]; rfl
  · exact hd

/-- Encodings synchronise: a valid encoding inside a string is always found as one character. -/
theorem toks_append_encode (p : Bytes) {r : Nat} (hr : IsScalar r) (q : Bytes) :
    toks (p ++ encode r ++ q) = toks p ++ (r, encode r) :: toks q := by
  induction h : p.length using Nat.strongRecOn generalizing p with
  | _ n ih =>
    rcases p with _ | ⟨b, t⟩
    · simp [toks_encode hr]
    · have hdc := decode_cases b (t ++ encode r ++ q)
      rcases hdc with ⟨c, q', hc, he, -⟩ | hd
      · -- a valid character at the front: it ends before `encode r` starts
        by_cases hl : (encode c).length ≤ (b :: t).length
        · have he' : (b :: t) ++ (encode r ++ q) = encode c ++ q' := by
            simpa [List.append_assoc] using he
          obtain ⟨p', hp'⟩ : ∃ p', b :: t = encode c ++ p' := by
            have : encode c <+: b :: t := by
              apply List.prefix_of_prefix_length_le (l₃ := (b :: t) ++ (encode r ++ q))
              · rw [he']; exact List.prefix_append _ _
              · exact List.prefix_append _ _
              · exact hl
            obtain ⟨p', hp'⟩ := this
            exact ⟨p', hp'.symm⟩
          rw [hp', List.append_assoc, List.append_assoc, toks_encode hc, toks_encode hc]
          rw [← List.append_assoc, ih p'.length ?_ p' rfl]
          · simp
          · have := congrArg List.length hp'
            have h1 := encode_length c
            simp at this h; omega
        · exfalso
          have he' : (b :: t) ++ (encode r ++ q) = encode c ++ q' := by
            simpa [List.append_assoc] using he
          obtain ⟨x, xs, hx, hx1, -⟩ := encode_shape hr
          obtain ⟨y, ys, hy, hy1, hy2⟩ := encode_shape hc
          have g1 : ((b :: t) ++ (encode r ++ q))[(b :: t).length]? = some x := by
            rw [List.getElem?_append_right (Nat.le_refl _), hx]; simp
          have hget : ys[t.length]? = some x := by
            rw [he', List.getElem?_append_left (by omega), hy] at g1
            simpa using g1
          rw [List.getElem?_eq_some_iff] at hget
          obtain ⟨_, hg⟩ := hget
          have hmem : x ∈ ys := hg ▸ List.getElem_mem _
          rw [hy2 x hmem] at hx1
          exact absurd hx1 (by simp)
      · rw [List.cons_append, List.cons_append, toks_error hd]
        rw [toks_error (b := b) (t := t) (error_of_prefix (u := encode r ++ q) (by simpa using hd))]
        rw [ih t.length (by simp at h; omega) t rfl]
        simp

/-- Every character is a scalar value with its encoding, or a stray byte. -/
def IsTok (t : Nat × Bytes) : Prop :=
  (IsScalar t.1 ∧ t.2 = encode t.1) ∨ (t.1 = runeError ∧ ∃ b, t.2 = [b])

theorem isTok_of_mem {s : Bytes} {t} (h : t ∈ toks s) : IsTok t := by
  induction s using toks_induction with
  | nil => simp at h
  | enc r q hr ih =>
    rw [toks_encode hr] at h
    rcases List.mem_cons.1 h with rfl | h
    · exact .inl ⟨hr, rfl⟩
    · exact ih h
  | err b u hd ih =>
    rw [toks_error hd] at h
    rcases List.mem_cons.1 h with rfl | h
    · exact .inr ⟨rfl, b, rfl⟩
    · exact ih h

theorem IsTok.ne_nil {t : Nat × Bytes} (h : IsTok t) : t.2 ≠ [] := by
  rcases h with ⟨_, h⟩ | ⟨_, b, h⟩
  · rw [h]; exact encode_ne_nil _
  · simp [h]

/-- A prefix of the characters is the characters of the prefix, likewise for the rest. -/
theorem toks_flat_split {s : Bytes} {A B} (h : toks s = A ++ B) :
    toks (flat A) = A ∧ toks (flat B) = B := by
  induction s using toks_induction generalizing A with
  | nil =>
    rw [toks_nil] at h
    obtain ⟨rfl, rfl⟩ := List.append_eq_nil_iff.1 h.symm
    simp
  | enc r q hr ih =>
    rcases A with _ | ⟨a, A⟩
    · simp at h; subst h; simp
    · rw [toks_encode hr, List.cons_append, List.cons.injEq] at h
      obtain ⟨rfl, h⟩ := h
      have := ih h
      rw [flat_cons, toks_encode hr, this.1]
      exact ⟨rfl, this.2⟩
  | err b t hd ih =>
    rcases A with _ | ⟨a, A⟩
    · simp at h; subst h; simp
    · rw [toks_error hd, List.cons_append, List.cons.injEq] at h
      obtain ⟨rfl, h⟩ := h
      have h' := ih h
      refine ⟨?_, h'.2⟩
      have ht : t = flat A ++ flat B := by rw [← flat_toks t, h, flat_append]
      rw [ht] at hd
      rw [flat_cons]
      show toks (b :: flat A) = _
      rw [toks_error (error_of_prefix hd), h'.1]

/-! ## Backward decoding -/

theorem getD_append_right' (a b : Bytes) {n : Nat} (h : a.length ≤ n) :
    (a ++ b).getD n 0 = b.getD (n - a.length) 0 := by
  simp [List.getD_eq_getElem?_getD, List.getElem?_append_right h]

theorem findStart_conts (s : Bytes) (lim k n : Nat) (hlim : lim ≤ k) (hk : k < n)
    (hstart : runeStart (s.getD k 0) = true)
    (hc : ∀ j, k < j → j < n → isCont (s.getD j 0) = true) : findStart s lim n = k := by
  induction n with
  | zero => omega
  | succ n ih =>
    rw [findStart, if_neg (by omega)]
    by_cases hkn : k = n
    · subst hkn; rw [if_pos hstart]
    · have := hc n (by omega) (by omega)
      rw [if_neg (by rw [runeStart, this]; simp)]
      exact ih (by omega) (fun j h1 h2 => hc j h1 (by omega))

/-- `decodeLastRune` finds an encoding at the end of a string. -/
theorem decodeLast_encode (p : Bytes) {r : Nat} (hr : IsScalar r) :
    decodeLastRune (p ++ encode r) = (r, (encode r).length) := by
  have hlen := encode_length r
  have hd := decode_encode hr []
  rw [List.append_nil] at hd
  obtain ⟨b, t, he, hb, ht⟩ := encode_shape hr
  unfold decodeLastRune
  have hne : p ++ encode r ≠ [] := by simp [encode_ne_nil]
  rw [List.getLast?_eq_some_getLast hne]
  simp only
  split
  · -- last byte is ASCII
    rename_i h
    rcases List.eq_nil_or_concat t with rfl | ⟨t', x, rfl⟩
    · have hl : (p ++ encode r).getLast hne = b := by simp [he]
      rw [hl] at h ⊢
      rw [he] at hd
      rw [he]
      simp [decodeRune, h] at hd
      simp [hd]
    · have hl : (p ++ encode r).getLast hne = x := by
        have : p ++ encode r = (p ++ b :: t') ++ [x] := by simp [he]
        simp only [this, List.getLast_concat]
      have := ht x (by simp)
      rw [hl] at h
      simp [isCont] at this; omega
  · rename_i h
    rcases t with _ | ⟨x, t'⟩
    · exfalso
      have hl : (p ++ encode r).getLast hne = b := by simp [he]
      rw [hl] at h
      rw [he] at hd
      unfold encode at he
      split at he
      · simp at he; subst he
        rename_i hr80
        rw [toNat_ofNat_lt (by omega)] at h
        omega
      all_goals (repeat' split at he) <;> simp at he
    · have hfs : findStart (p ++ encode r) ((p ++ encode r).length - 4) ((p ++ encode r).length - 1)
          = p.length := by
        apply findStart_conts
        · simp; omega
        · simp [he]
        · rw [he, getD_append_right' _ _ (Nat.le_refl _)]; simp [runeStart, hb]
        · intro j h1 h2
          rw [he, getD_append_right' _ _ (by omega)]
          simp [he] at h2
          obtain ⟨i, hi⟩ : ∃ i, j - p.length = i + 1 := ⟨j - p.length - 1, by omega⟩
          rw [hi]
          have hi2 : i < (x :: t').length := by simp; omega
          have : (b :: x :: t').getD (i + 1) 0 = (x :: t')[i] := by
            simp [List.getD_eq_getElem?_getD, List.getElem?_eq_getElem hi2]
          rw [this]
          exact ht _ (List.getElem_mem hi2)
      rw [hfs]
      simp [hd]

/-- `decodeLastRune` fails, with width one, when no encoding is at the end. -/
theorem decodeLast_error {s : Bytes} (hs : s ≠ [])
    (h : ∀ p r, IsScalar r → s ≠ p ++ encode r) : decodeLastRune s = (runeError, 1) := by
  unfold decodeLastRune
  rw [List.getLast?_eq_some_getLast hs]
  simp only
  split
  · rename_i hb
    exfalso
    refine h s.dropLast (s.getLast hs).toNat (by unfold IsScalar; omega) ?_
    rw [show encode (s.getLast hs).toNat = [s.getLast hs] by simp [encode, hb]]
    exact (List.dropLast_concat_getLast hs).symm
  · split
    · rfl
    · rename_i hw
      simp only [ne_eq, Decidable.not_not] at hw
      generalize hst : findStart s (s.length - 4) (s.length - 1) = st at hw
      rcases hdrop : s.drop st with _ | ⟨b, t⟩
      · rw [hdrop] at hw; simp [decodeRune] at hw ⊢
        have h1 : s.length ≤ st := by simpa using hdrop
        have h2 : st ≤ s.length - 1 := by
          rw [← hst]
          generalize s.length - 4 = lim
          generalize s.length - 1 = n
          clear hst h1 hw hdrop
          induction n with
          | zero => simp [findStart]
          | succ n ih => rw [findStart]; split; · omega
                         split <;> omega
        have := List.length_pos_iff.2 hs
        omega
      · rcases decode_cases b t with ⟨r, q, hr, he, hd⟩ | hd
        · exfalso
          rw [hdrop, hd] at hw
          have hq : q = [] := by
            have h1 := congrArg List.length hdrop
            have h2 := congrArg List.length he
            have h3 := encode_length r
            simp at h1 h2 hw
            apply List.eq_nil_of_length_eq_zero; omega
          subst hq
          refine h (s.take st) r hr ?_
          conv => lhs; rw [← List.take_append_drop st s, hdrop, he]
          simp
        · exact hd

/-- Backward decoding peels off the last character. -/
theorem decodeLast_toks {s : Bytes} {A t} (h : toks s = A ++ [t]) :
    decodeLastRune s = (t.1, t.2.length) ∧ s = flat A ++ t.2 := by
  have hs : s = flat A ++ t.2 := by rw [← flat_toks s, h]; simp
  refine ⟨?_, hs⟩
  have ht : IsTok t := isTok_of_mem (s := s) (by rw [h]; simp)
  rcases ht with ⟨h1, h2⟩ | ⟨h1, b, h2⟩
  · rw [hs, h2]; exact decodeLast_encode _ h1
  · rw [h1, h2]
    apply decodeLast_error
    · rw [hs, h2]; simp
    · intro p r hr he
      have hk := toks_append_encode p hr []
      rw [List.append_nil, ← he, h, toks_nil] at hk
      have h3 := (List.append_inj' hk rfl).2
      simp only [List.cons.injEq, and_true] at h3
      rw [h3] at h1 h2
      simp only at h1 h2
      subst h1
      simp [encode, runeError] at h2

end Fasttld
