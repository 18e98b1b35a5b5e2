import Verif.Spec.Net
import Verif.Proofs.Strings
import Verif.Proofs.Chars
import Verif.Proofs.Trim
import Verif.Model.Net

/-!
# IP address recognition equals the grammar
-/

set_option linter.unusedSimpArgs false

namespace Fasttld
open Spec

/-! ## Decimal numerals -/

/-- Value of decimal digits, starting from `n`. -/
def decFrom (n : Nat) (s : Bytes) : Nat := s.foldl (fun n c => n * 10 + (c.toNat - 48)) n

@[simp] theorem decFrom_nil (n : Nat) : decFrom n [] = n := rfl
@[simp] theorem decFrom_cons (n : Nat) (c : UInt8) (s : Bytes) :
    decFrom n (c :: s) = decFrom (n * 10 + (c.toNat - 48)) s := by
  unfold decFrom; rw [List.foldl_cons]
theorem decFrom_append (n : Nat) (s t : Bytes) : decFrom n (s ++ t) = decFrom (decFrom n s) t := by
  simp [decFrom]

theorem le_decFrom (n : Nat) (s : Bytes) : n ≤ decFrom n s := by
  induction s generalizing n with
  | nil => simp
  | cons c s ih => rw [decFrom_cons]; have := ih (n * 10 + (c.toNat - 48)); omega

theorem decimal_lt {n : Nat} (h : n < 10) : decimal n = [UInt8.ofNat (48 + n)] := by
  rw [decimal]; simp [h]
theorem decimal_ge {n : Nat} (h : ¬ n < 10) :
    decimal n = decimal (n / 10) ++ [UInt8.ofNat (48 + n % 10)] := by
  rw [decimal]; simp [h]

theorem decimal_spec (n : Nat) : decimal n ≠ [] ∧ (∀ c ∈ decimal n, isDigit c = true) ∧
    decFrom 0 (decimal n) = n ∧ ((decimal n).length > 1 → ∀ c t, decimal n = c :: t → c ≠ 48) := by
  induction n using Nat.strongRecOn with
  | _ n ih =>
    by_cases h : n < 10
    · rw [decimal_lt h]
      refine ⟨by simp, ?_, ?_, by simp⟩
      · intro c hc; simp only [List.mem_singleton] at hc; subst hc
        simp [isDigit, toNat_ofNat_lt (show 48 + n < 256 by omega)]; omega
      · rw [decFrom_cons, decFrom_nil, toNat_ofNat_lt (show 48 + n < 256 by omega)]; omega
    · rw [decimal_ge h]
      obtain ⟨h1, h2, h3, h4⟩ := ih (n / 10) (by omega)
      have hd : (UInt8.ofNat (48 + n % 10)).toNat = 48 + n % 10 := toNat_ofNat_lt (by omega)
      refine ⟨by simp, ?_, ?_, ?_⟩
      · intro c hc
        rcases List.mem_append.1 hc with hc | hc
        · exact h2 c hc
        · simp only [List.mem_singleton] at hc; subst hc; simp [isDigit, hd]; omega
      · rw [decFrom_append, h3]; simp only [decFrom_cons, decFrom_nil, hd]; omega
      · intro _ c t he
        rcases hdec : decimal (n / 10) with _ | ⟨x, xs⟩
        · exact absurd hdec h1
        · rw [hdec] at he
          simp at he
          rw [← he.1]
          by_cases hx : xs = []
          · subst hx
            intro h48
            rw [hdec, h48] at h3
            simp [decFrom] at h3
            omega
          · refine h4 ?_ x xs hdec
            rw [hdec]; have := List.length_pos_iff.2 hx; simp; omega

theorem digit_bounds {c : UInt8} (h : isDigit c = true) : 48 ≤ c.toNat ∧ c.toNat ≤ 57 := by
  simpa [isDigit] using h

theorem eq_decimal {ds : Bytes} (hne : ds ≠ []) (hd : ∀ c ∈ ds, isDigit c = true)
    (hz : ds.length > 1 → ds.head? ≠ some 48) : ds = decimal (decFrom 0 ds) := by
  induction h : ds.length using Nat.strongRecOn generalizing ds with
  | _ n ih =>
    rcases List.eq_nil_or_concat ds with rfl | ⟨ds', d, rfl⟩
    · exact absurd rfl hne
    · rw [List.concat_eq_append] at *
      have hdb := digit_bounds (hd d (by simp))
      rcases ds' with _ | ⟨x, xs⟩
      · simp only [List.nil_append, decFrom_cons, decFrom_nil]
        rw [decimal_lt (by omega)]
        rw [ofNat_eq_iff (b := d) (by omega)]
      · have hx : x ≠ 48 := by
          have := hz (by simp)
          simpa using this
        have hxb := digit_bounds (hd x (by simp))
        have hx1 : 1 ≤ x.toNat - 48 := by
          rcases Nat.lt_or_ge 48 x.toNat with h1 | h1
          · omega
          · exfalso; apply hx; rw [← UInt8.toNat_inj]; simp; omega
        have hpos : 1 ≤ decFrom 0 (x :: xs) := by
          rw [decFrom_cons]
          have := le_decFrom (0 * 10 + (x.toNat - 48)) xs; omega
        have ihh := ih (x :: xs).length (by simp at h ⊢; omega) (by simp)
          (fun c hc => hd c (by simp at hc ⊢; rcases hc with h | h <;> simp [h]))
          (by intro _; simpa using hx) rfl
        rw [decFrom_append, decFrom_cons, decFrom_nil]
        rw [decimal_ge (by omega)]
        have e1 : (decFrom 0 (x :: xs) * 10 + (d.toNat - 48)) / 10 = decFrom 0 (x :: xs) := by omega
        have e2 : (decFrom 0 (x :: xs) * 10 + (d.toNat - 48)) % 10 = d.toNat - 48 := by omega
        rw [e1, e2, ← ihh, ofNat_eq_iff (b := d) (by omega)]

/-- Octets: digits without leading zero, value at most 255. -/
theorem isOctet_iff (ds : Bytes) : IsOctet ds ↔
    ds ≠ [] ∧ (∀ c ∈ ds, isDigit c = true) ∧ decFrom 0 ds ≤ 255 ∧ ¬ (ds.length > 1 ∧ ds.head? = some 48) := by
  constructor
  · rintro ⟨n, hn, rfl⟩
    obtain ⟨h1, h2, h3, h4⟩ := decimal_spec n
    refine ⟨h1, h2, by omega, ?_⟩
    rintro ⟨h5, h6⟩
    cases hdec : decimal n with
    | nil => exact h1 hdec
    | cons c t => rw [hdec] at h6; simp at h6; exact h4 h5 c t hdec h6
  · rintro ⟨h1, h2, h3, h4⟩
    exact ⟨decFrom 0 ds, h3, eq_decimal h1 h2 (fun h => fun h' => h4 ⟨h, h'⟩)⟩

theorem dtoiLoop_eq (s : Bytes) (n i : Nat) (hn : n < big) :
    (decFrom n (s.takeWhile isDigit) < big →
      dtoiLoop s n i = if i + (s.takeWhile isDigit).length = 0 then (0, 0, false)
        else (decFrom n (s.takeWhile isDigit), i + (s.takeWhile isDigit).length, true)) ∧
    (decFrom n (s.takeWhile isDigit) ≥ big → (dtoiLoop s n i).2.2 = false) := by
  induction s generalizing n i with
  | nil => refine ⟨fun _ => by cases i <;> simp [dtoiLoop], fun h => ?_⟩; simp at h; omega
  | cons c r ih =>
    rw [dtoiLoop]
    by_cases hc : isDigit c = true
    · have hb := digit_bounds hc
      simp only [List.takeWhile_cons, hc, if_true, decFrom_cons, List.length_cons]
      rw [if_pos hb]
      by_cases hbig : n * 10 + (c.toNat - 48) ≥ big
      · rw [if_pos hbig]
        refine ⟨fun h => ?_, fun _ => rfl⟩
        have := le_decFrom (n * 10 + (c.toNat - 48)) (r.takeWhile isDigit); omega
      · rw [if_neg hbig]
        have := ih (n * 10 + (c.toNat - 48)) (i + 1) (by omega)
        refine ⟨fun h => ?_, this.2⟩
        rw [this.1 h, if_neg (by omega), if_neg (by omega)]
        congr 2; omega
    · have hb : ¬ (48 ≤ c.toNat ∧ c.toNat ≤ 57) := by simpa [isDigit] using hc
      simp only [List.takeWhile_cons, hc]
      rw [if_neg hb]
      simp; omega

theorem dtoi_nil {s : Bytes} (h : s.takeWhile isDigit = []) : dtoi s = (0, 0, false) := by
  have := (dtoiLoop_eq s 0 0 (by simp [big])).1 (by simp [h, big])
  rw [dtoi, this]; simp [h]

theorem dtoi_ok {s : Bytes} (h : s.takeWhile isDigit ≠ []) (hv : decFrom 0 (s.takeWhile isDigit) < big) :
    dtoi s = (decFrom 0 (s.takeWhile isDigit), (s.takeWhile isDigit).length, true) := by
  have := (dtoiLoop_eq s 0 0 (by simp [big])).1 hv
  have hl := List.length_pos_iff.2 h
  rw [dtoi, this, if_neg (by omega)]; simp

theorem dtoi_big {s : Bytes} (hv : ¬ decFrom 0 (s.takeWhile isDigit) < big) : (dtoi s).2.2 = false :=
  (dtoiLoop_eq s 0 0 (by simp [big])).2 (by omega)

theorem takeWhile_append_of_all {P : UInt8 → Bool} {a b : Bytes} (h : ∀ c ∈ a, P c = true)
    (hb : ∀ x t, b = x :: t → P x = false) : (a ++ b).takeWhile P = a := by
  induction a with
  | nil =>
    cases b with
    | nil => rfl
    | cons x t => simp [hb x t rfl]
  | cons c a ih => simp [h c (by simp)]; exact ih (fun d hd => h d (by simp [hd]))

theorem takeWhile_all {P : UInt8 → Bool} {s : Bytes} : ∀ c ∈ s.takeWhile P, P c = true := by
  induction s with
  | nil => simp
  | cons a s ih =>
    by_cases h : P a = true
    · simp only [List.takeWhile_cons, h, if_true, List.mem_cons]
      rintro c (rfl | hc); exact h; exact ih c hc
    · simp [List.takeWhile_cons, h]

/-! ## IPv4 -/

/-- `k` times a separator and an octet. -/
inductive QuadTail : Nat → Bytes → Prop
  | nil : QuadTail 0 []
  | cons {r d s k} : r ∈ separators → IsOctet d → QuadTail k s → QuadTail (k + 1) (encode r ++ d ++ s)

theorem separators_scalar {r : Nat} (h : r ∈ separators) : IsScalar r := by
  simp [separators] at h; unfold IsScalar; omega

/-- Separators start with `.` or a byte above 0x7F. -/
theorem separator_head {r : Nat} (h : r ∈ separators) :
    ∃ b t, encode r = b :: t ∧ (b = 46 ∨ 128 ≤ b.toNat) := by
  simp [separators] at h
  rcases h with rfl | rfl | rfl | rfl
  · exact ⟨46, [], by decide, by decide⟩
  · exact ⟨0xE3, [0x80, 0x82], by decide, by decide⟩
  · exact ⟨0xEF, [0xBC, 0x8E], by decide, by decide⟩
  · exact ⟨0xEF, [0xBD, 0xA1], by decide, by decide⟩

theorem QuadTail.head {k s} (h : QuadTail k s) : ∀ x t, s = x :: t → isDigit x = false := by
  intro x t hs
  cases h with
  | nil => simp at hs
  | cons hr hd ht =>
    obtain ⟨b, u, hb, hb2⟩ := separator_head hr
    rw [hb] at hs; simp at hs
    rw [← hs.1]
    rcases hb2 with rfl | hb2
    · decide
    · simp [isDigit]; omega

/-- The octet at the front of the string, as the code checks it. -/
theorem octet_step {s : Bytes} {k i : Nat} :
    ∃ b, (let r := dtoi s
        if r.2.2 = false ∨ r.1 > 0xFF then .ok false
        else
          (if r.2.1 > 1 then index s 0 else .ok 0) >>= fun b0 =>
          if r.2.1 > 1 ∧ b0 = 48 then .ok false
          else (slice s r.2.1 s.length) >>= fun s'' => isIPv4Loop k i s'')
        = (b : Go Bool) ∧
      ((IsOctet (s.takeWhile isDigit) ∧ b = isIPv4Loop k i (s.dropWhile isDigit)) ∨
       (¬ IsOctet (s.takeWhile isDigit) ∧ b = .ok false)) := by
  refine ⟨_, rfl, ?_⟩
  simp only
  have happ := (List.takeWhile_append_dropWhile (p := isDigit) (l := s)).symm
  by_cases h0 : s.takeWhile isDigit = []
  · right
    rw [dtoi_nil h0]
    exact ⟨by rw [isOctet_iff]; simp [h0], by simp⟩
  · by_cases hv : decFrom 0 (s.takeWhile isDigit) < big
    · rw [dtoi_ok h0 hv]
      by_cases h255 : decFrom 0 (s.takeWhile isDigit) > 255
      · right
        refine ⟨by rw [isOctet_iff]; intro h; omega, ?_⟩
        rw [if_pos (.inr h255)]
      · rw [if_neg (by simp; omega)]
        cases hs : s with
        | nil => simp [hs] at h0
        | cons c t =>
          rw [← hs]
          have hi : index s 0 = .ok c := index_eq (a := []) (c := t) (by simp [hs]) rfl
          have htw : (s.takeWhile isDigit).head? = some c := by
            rw [hs] at h0 ⊢
            by_cases hc : isDigit c = true
            · simp [List.takeWhile_cons, hc]
            · simp [List.takeWhile_cons, hc] at h0
          by_cases h1 : (s.takeWhile isDigit).length > 1
          · simp only [h1, if_true, hi, bind_ok, true_and]
            by_cases hc48 : c = 48
            · right
              refine ⟨by rw [isOctet_iff]; intro h; exact h.2.2.2 ⟨h1, by rw [htw, hc48]⟩, ?_⟩
              rw [if_pos hc48]
            · left
              refine ⟨by
                rw [isOctet_iff]
                refine ⟨h0, takeWhile_all, by omega, ?_⟩
                rintro ⟨-, h⟩; rw [htw] at h; simp at h; exact hc48 h, ?_⟩
              rw [if_neg hc48, slice_suffix happ rfl, bind_ok]
          · left
            refine ⟨by
              rw [isOctet_iff]
              exact ⟨h0, takeWhile_all, by omega, fun h => h1 h.1⟩, ?_⟩
            simp only [h1, if_false, bind_ok, false_and]
            rw [slice_suffix happ rfl, bind_ok]
    · right
      refine ⟨by rw [isOctet_iff]; intro h; have := h.2.2.1; simp [big] at hv; omega, ?_⟩
      rw [if_pos (.inl (dtoi_big hv))]

theorem isIPv4Loop_tail (k i : Nat) (hi : 0 < i) (s : Bytes) :
    ∃ b, isIPv4Loop k i s = .ok b ∧ (b = true ↔ QuadTail k s) := by
  induction k generalizing i s with
  | zero =>
    refine ⟨_, rfl, ?_⟩
    simp only [decide_eq_true_eq, List.length_eq_zero_iff]
    constructor
    · rintro rfl; exact .nil
    · intro h; cases h; rfl
  | succ k ih =>
    rw [isIPv4Loop]
    cases s with
    | nil =>
      refine ⟨false, by simp, by simp; intro h
                                 generalize hs : ([] : Bytes) = s at h
                                 cases h with
                                 | cons hr hd ht => simp [encode_ne_nil] at hs⟩
    | cons c t =>
      rw [if_neg (by simp)]
      simp only [hi, decide_true, Bool.true_and, gt_iff_lt, if_true]
      rcases decode_cases c t with ⟨r, q, hr, he, hd⟩ | hd
      · simp only [hd]
        by_cases hsep : labelSeparatorsRuneSet.exists r = true
        · have hmem : r ∈ separators := by simpa [RuneSet.exists, labelSeparators_eq] using hsep
          rw [hsep]
          simp only [Bool.not_true, Bool.false_eq_true, if_false]
          rw [slice_suffix (s := c :: t) he rfl, bind_ok]
          obtain ⟨b, hb1, hb2⟩ := octet_step (s := q) (k := k) (i := i + 1)
          simp only [gt_iff_lt] at hb1
          rw [hb1]
          have hqapp := (List.takeWhile_append_dropWhile (p := isDigit) (l := q)).symm
          have inv : QuadTail (k + 1) (c :: t) → IsOctet (q.takeWhile isDigit) ∧
              QuadTail k (q.dropWhile isDigit) := by
            intro h
            generalize hs : c :: t = s at h he
            cases h with
            | @cons r' d s' _ hr' hd' ht' =>
              have hh := congrArg decodeRune he
              rw [List.append_assoc, decode_encode (separators_scalar hr'), decode_encode hr] at hh
              simp at hh
              have : r' = r := hh.1
              subst this
              have hq : q = d ++ s' := by
                rw [List.append_assoc] at he
                exact (List.append_cancel_left he).symm
              have hdig := ((isOctet_iff d).1 hd').2.1
              have htw : q.takeWhile isDigit = d := by
                rw [hq]; exact takeWhile_append_of_all hdig ht'.head
              rw [htw] at hqapp ⊢
              rw [hq] at hqapp
              have := List.append_cancel_left hqapp
              rw [← hq] at this
              rw [← this]
              exact ⟨hd', ht'⟩
          rcases hb2 with ⟨ho, hb2⟩ | ⟨ho, hb2⟩
          · obtain ⟨b', hb3, hb4⟩ := ih (i + 1) (by omega) (q.dropWhile isDigit)
            refine ⟨b', by rw [hb2, hb3], ?_⟩
            rw [hb4]
            constructor
            · intro h
              rw [he, hqapp, ← List.append_assoc]
              exact .cons hmem ho h
            · intro h; exact (inv h).2
          · refine ⟨false, hb2, ?_⟩
            simp only [Bool.false_eq_true, false_iff]
            intro h; exact ho (inv h).1
        · refine ⟨false, by simp [hsep], ?_⟩
          simp only [Bool.false_eq_true, false_iff]
          intro h
          generalize hs : c :: t = s at h he
          cases h with
          | @cons r' d s' _ hr' hd' ht' =>
            have hh := congrArg decodeRune he
            rw [List.append_assoc, decode_encode (separators_scalar hr'), decode_encode hr] at hh
            simp at hh
            apply hsep
            rw [← hh.1]
            simpa [RuneSet.exists, labelSeparators_eq] using hr'
      · simp only [hd]
        have : labelSeparatorsRuneSet.exists runeError = false := by decide
        refine ⟨false, by simp [this], ?_⟩
        simp only [Bool.false_eq_true, false_iff]
        intro h
        generalize hs : c :: t = s at h
        cases h with
        | @cons r' d s' _ hr' hd' ht' =>
          exact no_encode_of_error hd (separators_scalar hr') (d ++ s') (by rw [hs]; simp)

theorem isIPv4Loop_start (s : Bytes) :
    ∃ b, isIPv4Loop 4 0 s = .ok b ∧ (b = true ↔ IsQuad s) := by
  have hquad : IsQuad s ↔ IsOctet (s.takeWhile isDigit) ∧ QuadTail 3 (s.dropWhile isDigit) := by
    have happ := (List.takeWhile_append_dropWhile (p := isDigit) (l := s)).symm
    constructor
    · rintro ⟨a, b, c, d, r1, r2, r3, ha, hb, hc, hd, h1, h2, h3, rfl⟩
      have ht : QuadTail 3 (encode r1 ++ b ++ (encode r2 ++ c ++ (encode r3 ++ d ++ []))) :=
        .cons h1 hb (.cons h2 hc (.cons h3 hd .nil))
      have hdig := ((isOctet_iff a).1 ha).2.1
      have htw := takeWhile_append_of_all hdig ht.head
      have e : a ++ encode r1 ++ b ++ encode r2 ++ c ++ encode r3 ++ d
        = a ++ (encode r1 ++ b ++ (encode r2 ++ c ++ (encode r3 ++ d ++ []))) := by simp
      rw [e] at happ ⊢
      rw [htw] at happ ⊢
      have := List.append_cancel_left happ
      rw [← this]
      exact ⟨ha, ht⟩
    · rintro ⟨ho, ht⟩
      generalize hk : 3 = k3 at ht
      generalize hz : s.dropWhile isDigit = z at ht happ
      cases ht with
      | nil => simp at hk
      | @cons r1 b z1 k2 h1 hb ht1 =>
        cases ht1 with
        | nil => simp at hk
        | @cons r2 c z2 k1 h2 hc ht2 =>
          cases ht2 with
          | nil => simp at hk
          | @cons r3 d z3 k0 h3 hd ht3 =>
            cases ht3 with
            | nil =>
              refine ⟨_, b, c, d, r1, r2, r3, ho, hb, hc, hd, h1, h2, h3, ?_⟩
              simpa using happ
            | cons => simp at hk
  rw [isIPv4Loop]
  cases s with
  | nil =>
    refine ⟨false, by simp, ?_⟩
    rw [hquad]; simp [isOctet_iff]
  | cons c t =>
    rw [if_neg (by simp)]
    simp only [Nat.lt_irrefl, decide_false, Bool.false_and, Bool.false_eq_true, if_false, gt_iff_lt, bind_ok]
    obtain ⟨b, hb1, hb2⟩ := octet_step (s := c :: t) (k := 3) (i := 0 + 1)
    simp only [gt_iff_lt] at hb1
    rw [hb1, hquad]
    rcases hb2 with ⟨ho, hb2⟩ | ⟨ho, hb2⟩
    · obtain ⟨b', hb3, hb4⟩ := isIPv4Loop_tail 3 (0 + 1) (by omega) ((c :: t).dropWhile isDigit)
      exact ⟨b', by rw [hb2, hb3], by rw [hb4]; simp [ho]⟩
    · exact ⟨false, hb2, by simp [ho]⟩

theorem encode_digit {c : UInt8} (h : isDigit c = true) : encode c.toNat = [c] := by
  have := digit_bounds h
  rw [encode, if_pos (by omega), ofNat_eq_iff rfl]

/-- An octet ends with a digit. -/
theorem Spec.IsOctet.last {d : Bytes} (h : IsOctet d) : ∃ d' c, d = d' ++ [c] ∧ isDigit c = true := by
  rw [isOctet_iff] at h
  rcases List.eq_nil_or_concat d with rfl | ⟨d', c, rfl⟩
  · exact absurd rfl h.1
  · rw [List.concat_eq_append] at *
    exact ⟨d', c, rfl, h.2.1 c (by simp)⟩

theorem Spec.IsQuad.last {q : Bytes} (h : IsQuad q) : ∃ q' c, q = q' ++ [c] ∧ isDigit c = true := by
  obtain ⟨a, b, c, d, r1, r2, r3, ha, hb, hc, hd, h1, h2, h3, rfl⟩ := h
  obtain ⟨d', x, rfl, hx⟩ := IsOctet.last hd
  exact ⟨a ++ encode r1 ++ b ++ encode r2 ++ c ++ encode r3 ++ d', x, by simp, hx⟩

/-- A string ending with an ASCII digit does not end with a separator. -/
theorem no_sep_suffix {q' : Bytes} {c : UInt8} (h : isDigit c = true) :
    ∀ r ∈ separators, ¬ encode r <:+ q' ++ [c] := by
  intro r hr hs
  have hb := digit_bounds h
  have hr' := goodSet_separators r hr
  obtain ⟨A, t, ht, rfl⟩ := (suffix_encode_iff hr'.1 hr'.2 _).1 hs
  have := toks_append_encode q' (r := c.toNat) (by unfold IsScalar; omega) []
  rw [encode_digit h] at this
  simp at this
  rw [this] at ht
  have := (List.append_inj' ht rfl).2
  simp at this
  rw [← this] at hr
  simp [separators] at hr; omega

theorem isIPv4_eq (s : Bytes) : ∃ b, isIPv4 s = .ok b ∧ (b = true ↔ IsIPv4 s) := by
  obtain ⟨t, ht, htrim⟩ := fastTrim_isTrim goodSet_separators s .trimRight
  rw [isIPv4, labelSeparators_eq, ht, bind_ok]
  obtain ⟨b, hb1, hb2⟩ := isIPv4Loop_start t
  refine ⟨b, hb1, hb2.trans ?_⟩
  constructor
  · intro hq
    obtain ⟨a, z, rfl, -, hz, ha, -, -, -⟩ := htrim
    obtain rfl := ha rfl
    exact ⟨t, z, hq, hz, by simp⟩
  · rintro ⟨q, z, hq, hz, rfl⟩
    obtain ⟨q', c, rfl, hc⟩ := IsQuad.last hq
    have : IsTrim (trimsLeft .trimRight) (trimsRight .trimRight) separators (q' ++ [c] ++ z) (q' ++ [c]) :=
      ⟨[], z, by simp, madeOf_nil _, hz, by simp, by simp [trimsRight], by simp [trimsLeft], fun _ => no_sep_suffix hc⟩
    have h2 := fastTrim_of_isTrim goodSet_separators this
    rw [ht] at h2
    injection h2 with h2
    rw [h2]; exact hq

/-! ## IPv6 -/

theorem hexVal_eq (c : UInt8) : hexVal c = hexDigit c := by
  unfold hexVal hexDigit isDigit
  simp only [Bool.and_eq_true, decide_eq_true_eq]
  split
  · rfl
  · split
    · congr 1; omega
    · split
      · congr 1; omega
      · rfl

/-- Is it a hexadecimal digit? -/
def isHex (c : UInt8) : Bool := (hexDigit c).isSome

/-- Value of hexadecimal digits, starting from `n`. -/
def hexFrom (n : Nat) (s : Bytes) : Nat := s.foldl (fun n c => n * 16 + (hexDigit c).getD 0) n

theorem hexFrom_cons (n : Nat) (c : UInt8) (s : Bytes) :
    hexFrom n (c :: s) = hexFrom (n * 16 + (hexDigit c).getD 0) s := by
  unfold hexFrom; rw [List.foldl_cons]

theorem le_hexFrom (n : Nat) (s : Bytes) : n ≤ hexFrom n s := by
  induction s generalizing n with
  | nil => simp [hexFrom]
  | cons c s ih => rw [hexFrom_cons]; have := ih (n * 16 + (hexDigit c).getD 0); omega

theorem xtoiLoop_eq (s : Bytes) (n i : Nat) (hn : n < big) :
    (hexFrom n (s.takeWhile isHex) < big →
      xtoiLoop s n i = if i + (s.takeWhile isHex).length = 0 then (0, 0, false)
        else (hexFrom n (s.takeWhile isHex), i + (s.takeWhile isHex).length, true)) ∧
    (hexFrom n (s.takeWhile isHex) ≥ big → (xtoiLoop s n i).2.2 = false) := by
  induction s generalizing n i with
  | nil => refine ⟨fun _ => by cases i <;> simp [xtoiLoop, hexFrom], fun h => ?_⟩; simp [hexFrom] at h; omega
  | cons c r ih =>
    rw [xtoiLoop, hexVal_eq]
    cases hc : hexDigit c with
    | some d =>
      have hx : isHex c = true := by simp [isHex, hc]
      simp only [List.takeWhile_cons, hx, if_true, hexFrom_cons, List.length_cons, hc, Option.getD_some]
      by_cases hbig : n * 16 + d ≥ big
      · rw [if_pos hbig]
        refine ⟨fun h => ?_, fun _ => rfl⟩
        have := le_hexFrom (n * 16 + d) (r.takeWhile isHex); omega
      · rw [if_neg hbig]
        have := ih (n * 16 + d) (i + 1) (by omega)
        refine ⟨fun h => ?_, this.2⟩
        rw [this.1 h, if_neg (by omega), if_neg (by omega)]
        congr 2; omega
    | none =>
      have hx : isHex c = false := by simp [isHex, hc]
      simp only [List.takeWhile_cons, hx]
      refine ⟨fun _ => ?_, fun h => ?_⟩
      · cases i <;> simp [hexFrom]
      · simp [hexFrom] at h; omega

theorem xtoi_spec (s : Bytes) :
    (IsGroup (s.takeWhile isHex) ∧ xtoi s = (hexValue (s.takeWhile isHex), (s.takeWhile isHex).length, true) ∧
      ¬ hexValue (s.takeWhile isHex) > 0xFFFF) ∨
    (¬ IsGroup (s.takeWhile isHex) ∧ ((xtoi s).2.2 = false ∨ (xtoi s).1 > 0xFFFF)) := by
  have h := xtoiLoop_eq s 0 0 (by simp [big])
  have hall : ∀ c ∈ s.takeWhile isHex, (hexDigit c).isSome = true := takeWhile_all
  by_cases h0 : s.takeWhile isHex = []
  · right
    refine ⟨fun hg => hg.1 h0, .inl ?_⟩
    rw [xtoi, h.1 (by simp [h0, hexFrom, big])]; simp [h0]
  · have hl := List.length_pos_iff.2 h0
    by_cases hv : hexFrom 0 (s.takeWhile isHex) < big
    · have hx := h.1 hv
      rw [if_neg (by omega)] at hx
      by_cases hf : hexValue (s.takeWhile isHex) > 0xFFFF
      · right
        refine ⟨fun hg => by have := hg.2.2; omega, .inr ?_⟩
        rw [xtoi, hx]; exact hf
      · left
        refine ⟨⟨h0, hall, by omega⟩, ?_, hf⟩
        rw [xtoi, hx]; simp; rfl
    · right
      refine ⟨fun hg => ?_, .inl (h.2 (by omega))⟩
      have := hg.2.2
      have e : hexValue (s.takeWhile isHex) = hexFrom 0 (s.takeWhile isHex) := rfl
      simp [big] at hv; omega

/-- Does the string start with a separator? -/
def SepStart (s : Bytes) : Prop := ∃ r ∈ separators, encode r <+: s

theorem isHex_of_isDigit {c : UInt8} (h : isDigit c = true) : isHex c = true := by
  simp [isHex, hexDigit, h]

theorem not_isHex_sep {s : Bytes} (h : SepStart s) : ∀ x t, s = x :: t → isHex x = false ∧ x ≠ 58 := by
  rintro x t rfl
  obtain ⟨r, hr, hp⟩ := h
  obtain ⟨b, u, hb, hb2⟩ := separator_head hr
  rw [hb] at hp
  have : b = x := by
    obtain ⟨w, hw⟩ := hp
    simp at hw; exact hw.1
  subst this
  rcases hb2 with rfl | hb2
  · decide
  · constructor
    · have : hexDigit b = none := by
        unfold hexDigit
        rw [if_neg (by simp [isDigit]; omega), if_neg (by omega), if_neg (by omega)]
      simp [isHex, this]
    · intro h; rw [h] at hb2; simp at hb2

/-- An IPv4 text starts with hexadecimal digits followed by a separator; read as hexadecimal they make
a group. -/
theorem Spec.IsIPv4.hexHead {s : Bytes} (h : IsIPv4 s) :
    IsGroup (s.takeWhile isHex) ∧ SepStart (s.dropWhile isHex) := by
  obtain ⟨q, t, ⟨a, b, c, d, r1, r2, r3, ha, hb, hc, hd, h1, h2, h3, rfl⟩, ht, rfl⟩ := h
  have e : a ++ encode r1 ++ b ++ encode r2 ++ c ++ encode r3 ++ d ++ t
    = a ++ (encode r1 ++ (b ++ encode r2 ++ c ++ encode r3 ++ d ++ t)) := by simp
  rw [e]
  generalize b ++ encode r2 ++ c ++ encode r3 ++ d ++ t = w
  have hs : SepStart (encode r1 ++ w) := ⟨r1, h1, w, rfl⟩
  have hdig := ((isOctet_iff a).1 ha)
  have htw : (a ++ (encode r1 ++ w)).takeWhile isHex = a :=
    takeWhile_append_of_all (fun c hc => isHex_of_isDigit (hdig.2.1 c hc))
      (fun x t h => (not_isHex_sep hs x t h).1)
  have happ := (List.takeWhile_append_dropWhile (p := isHex) (l := a ++ (encode r1 ++ w)))
  rw [htw] at happ
  have hdw := List.append_cancel_left happ
  rw [htw, hdw]
  refine ⟨⟨hdig.1, fun c hc => isHex_of_isDigit (hdig.2.1 c hc), ?_⟩, hs⟩
  -- at most three decimal digits
  obtain ⟨n, hn, rfl⟩ := ha
  have : ∀ n : Nat, n ≤ 255 → hexValue (decimal n) ≤ 0xFFFF := by
    intro n hn
    have hlen : (decimal n).length ≤ 3 := by
      by_cases g1 : n < 10
      · rw [decimal_lt g1]; simp
      · rw [decimal_ge g1]
        by_cases g2 : n / 10 < 10
        · rw [decimal_lt g2]; simp
        · rw [decimal_ge g2, decimal_lt (by omega)]; simp
    have hdg : ∀ c ∈ decimal n, (hexDigit c).getD 0 ≤ 9 := by
      intro c hc
      have h := (decimal_spec n).2.1 c hc
      have := digit_bounds h
      simp [hexDigit, h]; omega
    generalize decimal n = l at hlen hdg
    unfold hexValue
    match l, hlen, hdg with
    | [], _, _ => simp
    | [x], _, h => have := h x (by simp); simp; omega
    | [x, y], _, h => have := h x (by simp); have := h y (by simp); simp; omega
    | [x, y, z], _, h =>
      have := h x (by simp); have := h y (by simp); have := h z (by simp); simp; omega
  exact this n hn

/-- The head of a group sequence. -/
theorem Groups_inv {quad : Bytes → Prop} (hq : ∀ s, quad s → IsGroup (s.takeWhile isHex) ∧ SepStart (s.dropWhile isHex))
    {n : Nat} {s : Bytes} (h : Groups quad n s) :
    IsGroup (s.takeWhile isHex) ∧
    ((s.dropWhile isHex = [] ∧ n = 1) ∨
     (∃ s' m, s.dropWhile isHex = 58 :: s' ∧ n = m + 1 ∧ Groups quad m s') ∨
     (SepStart (s.dropWhile isHex) ∧ n = 2 ∧ quad s)) := by
  cases h with
  | one hg =>
    have htw : s.takeWhile isHex = s := by
      have := takeWhile_append_of_all (P := isHex) (a := s) (b := []) (fun c hc => hg.2.1 c hc) (by simp)
      simpa using this
    have happ := (List.takeWhile_append_dropWhile (p := isHex) (l := s))
    rw [htw] at happ
    refine ⟨by rw [htw]; exact hg, .inl ⟨?_, rfl⟩⟩
    simpa using happ
  | dotted h =>
    exact ⟨(hq s h).1, .inr (.inr ⟨(hq s h).2, rfl, h⟩)⟩
  | @cons g s' m hg hs =>
    have htw : (g ++ 58 :: s').takeWhile isHex = g := by
      refine takeWhile_append_of_all (P := isHex) (fun c hc => hg.2.1 c hc) ?_
      intro x t h; simp at h; rw [← h.1]; decide
    have happ := (List.takeWhile_append_dropWhile (p := isHex) (l := g ++ 58 :: s'))
    rw [htw] at happ
    refine ⟨by rw [htw]; exact hg, .inr (.inl ⟨s', m, List.append_cancel_left happ, rfl, hs⟩)⟩

theorem Spec.Groups.pos {quad n s} (h : Groups quad n s) : 1 ≤ n := by
  cases h <;> omega

theorem Spec.Groups.ne_nil {quad : Bytes → Prop} (hq : ∀ s, quad s → s ≠ []) {n s} (h : Groups quad n s) : s ≠ [] := by
  cases h with
  | one hg => exact hg.1
  | dotted h => exact hq _ h
  | cons => simp

/-- First code point of the rest: is it a separator? -/
theorem sepTest_eq {s h t : Bytes} (hs : s = h ++ t) :
    ∃ b, (if h.length < s.length then
           (slice s h.length s.length) >>= fun t => firstIsSeparator t
         else .ok false) = (Except.ok b : Go Bool) ∧ (b = true ↔ SepStart t) := by
  cases t with
  | nil =>
    refine ⟨false, by simp [hs], ?_⟩
    simp only [Bool.false_eq_true, false_iff]
    rintro ⟨r, hr, hp⟩
    exact encode_ne_nil r (List.prefix_nil.1 hp)
  | cons x t =>
    rw [if_pos (by rw [hs]; simp), slice_suffix hs rfl, bind_ok, firstIsSeparator, rangeString_eq]
    cases htk : toks (x :: t) with
    | nil =>
      have := flat_toks (x :: t); rw [htk] at this; simp at this
    | cons y ys =>
      refine ⟨_, rfl, ?_⟩
      rw [labelSeparators_eq, show RuneSet.exists separators y.1 = inSet separators y from rfl, inSet_iff]
      constructor
      · intro h
        have hg := goodSet_separators _ h
        exact ⟨y.1, h, (prefix_encode_iff hg.1 hg.2 _).2 ⟨ys, y, htk, rfl⟩⟩
      · rintro ⟨r, hr, hp⟩
        have hg := goodSet_separators _ hr
        obtain ⟨B, t', h1, rfl⟩ := (prefix_encode_iff hg.1 hg.2 _).1 hp
        rw [htk] at h1; simp at h1; rw [h1.1]; exact hr

/-- What may follow before a `::` was seen, `u` groups read. -/
def V6Start (u : Nat) (s : Bytes) : Prop :=
  Groups IsIPv4 (8 - u) s ∨
  ∃ l r n m, Groups (fun _ => False) n l ∧ OptGroups IsIPv4 m r ∧ u + n + m ≤ 7 ∧ s = l ++ 58 :: 58 :: r

/-- What may follow after a `::` was seen. -/
def V6Rest (u : Nat) (s : Bytes) : Prop := ∃ m, Groups IsIPv4 m s ∧ u + m ≤ 7

theorem dropWhile_head {P : UInt8 → Bool} {s : Bytes} : ∀ x t, s.dropWhile P = x :: t → P x = false := by
  intro x t h
  obtain ⟨A, -, -, h3⟩ := dropWhile_decomp P s
  exact h3 x t h

theorem Spec.Groups.isHex_head {quad : Bytes → Prop}
    (hq : ∀ s, quad s → IsGroup (s.takeWhile isHex) ∧ SepStart (s.dropWhile isHex)) {n s}
    (h : Groups quad n s) : ∃ c t, s = c :: t ∧ isHex c = true := by
  have := (Groups_inv hq h).1
  cases s with
  | nil => exact absurd rfl this.1
  | cons c t =>
    refine ⟨c, t, rfl, ?_⟩
    by_cases hc : isHex c = true
    · exact hc
    · have h1 := this.1; simp [List.takeWhile_cons, hc] at h1

/-- Inversion of the part before `::`. -/
theorem V6_ellipsis_inv {s : Bytes} {u : Nat} :
    (∃ l r n m, Groups (fun _ => False) n l ∧ OptGroups IsIPv4 m r ∧ u + n + m ≤ 7 ∧ s = l ++ 58 :: 58 :: r) ↔
    IsGroup (s.takeWhile isHex) ∧
      ((∃ r m, s.dropWhile isHex = 58 :: 58 :: r ∧ OptGroups IsIPv4 m r ∧ u + 1 + m ≤ 7) ∨
       (∃ s', s.dropWhile isHex = 58 :: s' ∧
          ∃ l r n m, Groups (fun _ => False) n l ∧ OptGroups IsIPv4 m r ∧ (u + 1) + n + m ≤ 7 ∧ s' = l ++ 58 :: 58 :: r)) := by
  constructor
  · rintro ⟨l, r, n, m, hl, hr, hle, rfl⟩
    have hg := (Groups_inv (quad := fun _ => False) (by simp) hl)
    have happ := (List.takeWhile_append_dropWhile (p := isHex) (l := l))
    have key : (l ++ 58 :: 58 :: r).takeWhile isHex = l.takeWhile isHex ∧
        (l ++ 58 :: 58 :: r).dropWhile isHex = l.dropWhile isHex ++ 58 :: 58 :: r := by
      have e : l ++ 58 :: 58 :: r = l.takeWhile isHex ++ (l.dropWhile isHex ++ 58 :: 58 :: r) := by
        rw [← List.append_assoc, happ]
      have htw : (l ++ 58 :: 58 :: r).takeWhile isHex = l.takeWhile isHex := by
        rw [e]
        refine takeWhile_append_of_all takeWhile_all ?_
        intro x t h
        cases hd : l.dropWhile isHex with
        | nil => rw [hd] at h; simp at h; rw [← h.1]; decide
        | cons y ys => rw [hd] at h; simp at h; rw [← h.1]; exact dropWhile_head y ys hd
      refine ⟨htw, ?_⟩
      have h2 := (List.takeWhile_append_dropWhile (p := isHex) (l := l ++ 58 :: 58 :: r))
      rw [htw] at h2
      conv at h2 => rhs; rw [e]
      exact List.append_cancel_left h2
    rw [key.1, key.2]
    refine ⟨hg.1, ?_⟩
    rcases hg.2 with ⟨h1, rfl⟩ | ⟨s', k, h1, rfl, h2⟩ | ⟨_, _, h⟩
    · rw [h1]; exact .inl ⟨r, m, rfl, hr, hle⟩
    · rw [h1]; exact .inr ⟨s' ++ 58 :: 58 :: r, rfl, s', r, k, m, h2, hr, by omega, rfl⟩
    · exact h.elim
  · rintro ⟨hg, ⟨r, m, h1, h2, h3⟩ | ⟨s', h1, l, r, n, m, h2, h3, h4, rfl⟩⟩
    · refine ⟨s.takeWhile isHex, r, 1, m, .one hg, h2, h3, ?_⟩
      rw [← h1, List.takeWhile_append_dropWhile]
    · refine ⟨s.takeWhile isHex ++ 58 :: l, r, n + 1, m, .cons hg h2, h3, by omega, ?_⟩
      have happ := (List.takeWhile_append_dropWhile (p := isHex) (l := s))
      rw [h1] at happ
      rw [← List.cons_append, ← List.append_assoc] at happ
      exact happ.symm

theorem isIPv6Loop_eq (fuel u : Nat) (s : Bytes) (ell : Int) (hu : u ≤ 8) (hf : 8 - u < fuel)
    (hs : u = 8 → s ≠ []) :
    ∃ b, isIPv6Loop fuel s (2 * u) ell = .ok b ∧
      (b = true ↔ u < 8 ∧ if ell < 0 then V6Start u s else V6Rest u s) := by
  induction fuel generalizing u s ell with
  | zero => omega
  | succ fuel ih =>
    rw [isIPv6Loop]
    by_cases hu8 : u = 8
    · subst hu8
      refine ⟨_, by rw [if_neg (by simp [iPv6len])], ?_⟩
      have : s.length ≠ 0 := by simpa using hs rfl
      simp [isIPv6Finish, this]
    · have hult : u < 8 := by omega
      rw [if_pos (by simp [iPv6len]; omega)]
      simp only [hult, true_and]
      have happ := (List.takeWhile_append_dropWhile (p := isHex) (l := s)).symm
      rcases xtoi_spec s with ⟨hg, hx, hv⟩ | ⟨hg, hx⟩
      · rw [hx]
        simp only [Bool.true_eq_false, false_or, hv, if_false]
        obtain ⟨isSep, hsep1, hsep2⟩ := sepTest_eq happ
        rw [hsep1, bind_ok]
        by_cases hsp : SepStart (s.dropWhile isHex)
        · rw [if_pos (hsep2.2 hsp)]
          obtain ⟨ok4, h41, h42⟩ := isIPv4_eq s
          -- only a dotted tail is possible
          have hgr : ∀ n, Groups IsIPv4 n s ↔ n = 2 ∧ ok4 = true := by
            intro n
            constructor
            · intro h
              rcases (Groups_inv (fun s => IsIPv4.hexHead) h).2 with ⟨h1, _⟩ | ⟨s', m, h1, _⟩ | ⟨_, h1, h2⟩
              · obtain ⟨r, hr, hp⟩ := hsp
                rw [h1] at hp; exact absurd (List.prefix_nil.1 hp) (encode_ne_nil r)
              · exact absurd rfl (not_isHex_sep hsp _ _ h1).2
              · exact ⟨h1, h42.2 h2⟩
            · rintro ⟨rfl, h⟩; exact .dotted (h42.1 h)
          have hne : ¬ ∃ l r n m, Groups (fun _ => False) n l ∧ OptGroups IsIPv4 m r ∧ u + n + m ≤ 7 ∧
              s = l ++ 58 :: 58 :: r := by
            rw [V6_ellipsis_inv]
            rintro ⟨_, ⟨r, m, h1, _⟩ | ⟨s', h1, _⟩⟩ <;> exact absurd rfl (not_isHex_sep hsp _ _ h1).2
          by_cases he : ell < 0
          · simp only [he, true_and, if_true, V6Start, hne, or_false, hgr]
            by_cases hi : 2 * u ≠ lenDiff
            · refine ⟨false, by rw [if_pos hi], ?_⟩
              simp [lenDiff, iPv6len, iPv4len] at hi ⊢; omega
            · rw [if_neg hi]
              have hu6 : u = 6 := by simp [lenDiff, iPv6len, iPv4len] at hi; omega
              subst hu6
              rw [if_neg (by simp [lenDiff, iPv6len, iPv4len]), h41, bind_ok]
              cases ok4
              · exact ⟨false, by simp, by simp⟩
              · refine ⟨true, ?_, by simp⟩
                simp [isIPv6Finish, iPv4len, iPv6len]; omega
          · simp only [he, false_and, if_false, V6Rest, hgr]
            by_cases hi : 2 * u > lenDiff
            · refine ⟨false, by rw [if_pos hi], ?_⟩
              simp [lenDiff, iPv6len, iPv4len] at hi ⊢; omega
            · rw [if_neg hi, h41, bind_ok]
              simp [lenDiff, iPv6len, iPv4len] at hi
              cases ok4
              · exact ⟨false, by simp, by simp⟩
              · by_cases hu6 : u = 6
                · subst hu6
                  refine ⟨false, ?_, by simp⟩
                  simp [isIPv6Finish, iPv4len, iPv6len]; omega
                · refine ⟨true, ?_, by simp; omega⟩
                  have h16 : 2 * u + 4 < 16 := by omega
                  simp [isIPv6Finish, iPv4len, iPv6len, h16]; omega
        · have hisf : isSep = false := by
            cases isSep
            · rfl
            · exact absurd (hsep2.1 rfl) hsp
          rw [hisf]
          simp only [Bool.false_eq_true, if_false]
          rw [slice_suffix happ rfl, bind_ok]
          have hgr : ∀ n, Groups IsIPv4 n s ↔ ((s.dropWhile isHex = [] ∧ n = 1) ∨
              (∃ s' m, s.dropWhile isHex = 58 :: s' ∧ n = m + 1 ∧ Groups IsIPv4 m s')) := by
            intro n
            constructor
            · intro h
              rcases (Groups_inv (fun s => IsIPv4.hexHead) h).2 with h1 | h1 | ⟨h1, _⟩
              · exact .inl h1
              · exact .inr h1
              · exact absurd h1 hsp
            · rintro (⟨h1, rfl⟩ | ⟨s', m, h1, rfl, h2⟩)
              · rw [happ, h1, List.append_nil]; exact .one hg
              · rw [happ, h1]; exact .cons hg h2
          cases ht : s.dropWhile isHex with
          | nil =>
            simp only [ht, List.length_nil, if_true]
            refine ⟨_, rfl, ?_⟩
            by_cases he : ell < 0
            · simp only [he, if_true, V6Start]
              rw [V6_ellipsis_inv]
              simp only [hgr, ht]
              by_cases h7 : u = 7
              · subst h7; simp [isIPv6Finish, iPv6len]; omega
              · simp [isIPv6Finish, iPv6len, he]; omega
            · simp only [he, if_false, V6Rest, hgr, ht]
              by_cases h7 : u = 7
              · subst h7; simp [isIPv6Finish, iPv6len]; omega
              · simp [isIPv6Finish, iPv6len, he]; omega
          | cons c0 s2 =>
            rw [if_neg (by simp), index_zero, bind_ok]
            by_cases h1 : c0 ≠ 58 ∨ (c0 :: s2).length = 1
            · rw [if_pos h1]
              refine ⟨false, rfl, ?_⟩
              simp only [Bool.false_eq_true, false_iff]
              have hno : ∀ s', c0 :: s2 = 58 :: s' → s' = [] := by
                intro s' h; simp at h
                rcases h1 with h1 | h1
                · exact absurd h.1 h1
                · rw [← h.2]; simpa using h1
              have hgn : ∀ n, ¬ Groups IsIPv4 n s := by
                intro n; rw [hgr, ht]
                rintro (⟨h, _⟩ | ⟨s', m, h, _, h2⟩)
                · simp at h
                · rw [hno s' h] at h2
                  obtain ⟨c, t, h3, _⟩ := h2.isHex_head (fun s => IsIPv4.hexHead)
                  simp at h3
              split
              · rw [V6Start, V6_ellipsis_inv, ht]
                rintro (h | ⟨_, ⟨r, m, h, _⟩ | ⟨s', h, l, r, n, m, _, _, _, h2⟩⟩)
                · exact hgn _ h
                · have := hno _ h; simp at this
                · rw [hno s' h] at h2; simp at h2
              · rintro ⟨m, h, _⟩; exact hgn _ h
            · rw [if_neg h1]
              have hc0 : c0 = 58 := by
                by_cases h : c0 = 58
                · exact h
                · exact absurd (.inl h) h1
              subst hc0
              rw [slice_from_one, bind_ok]
              cases s2 with
              | nil => simp at h1
              | cons c1 s3 =>
                rw [index_zero, bind_ok]
                by_cases hc1 : c1 = 58
                · subst hc1
                  rw [if_pos rfl]
                  have hgn : ∀ n, ¬ Groups IsIPv4 n s := by
                    intro n; rw [hgr, ht]
                    rintro (⟨h, _⟩ | ⟨s', m, h, _, h2⟩)
                    · simp at h
                    · simp at h; rw [← h] at h2
                      obtain ⟨c, t, h3, h4⟩ := h2.isHex_head (fun s => IsIPv4.hexHead)
                      simp at h3; rw [← h3.1] at h4; exact absurd h4 (by decide)
                  by_cases he : ell < 0
                  · rw [if_neg (by omega), slice_from_one, bind_ok]
                    simp only [he, if_true, V6Start]
                    rw [V6_ellipsis_inv]
                    simp only [ht, hgn, false_or, hg, true_and]
                    have hno : ¬ ∃ s', (58 :: 58 :: s3 : Bytes) = 58 :: s' ∧ ∃ l r n m,
                        Groups (fun _ => False) n l ∧ OptGroups IsIPv4 m r ∧ (u + 1) + n + m ≤ 7 ∧ s' = l ++ 58 :: 58 :: r := by
                      rintro ⟨s', h, l, r, n, m, hl, _, _, h2⟩
                      simp at h; subst h
                      obtain ⟨c, t, h3, h4⟩ := hl.isHex_head (by simp)
                      rw [h3] at h2; simp at h2; rw [← h2.1] at h4; exact absurd h4 (by decide)
                    cases s3 with
                    | nil =>
                      rw [if_pos (by simp)]
                      refine ⟨_, rfl, ?_⟩
                      constructor
                      · intro h
                        left
                        refine ⟨[], 0, rfl, .inl ⟨rfl, rfl⟩, ?_⟩
                        by_cases h7 : u = 7
                        · subst h7; simp [isIPv6Finish, iPv6len] at h
                        · omega
                      · rintro (⟨r, m, _, _, hle⟩ | h)
                        · have h16 : 2 * u + 2 < 16 := by omega
                          simp [isIPv6Finish, iPv6len, h16]; omega
                        · exact absurd h hno
                    | cons c3 s4 =>
                      rw [if_neg (by simp)]
                      obtain ⟨b, hb1, hb2⟩ := ih (u + 1) (c3 :: s4) ((2 * u : Nat) + 2 : Int) (by omega) (by omega) (by simp)
                      refine ⟨b, by rw [← hb1]; congr 1, ?_⟩
                      rw [hb2, if_neg (by omega)]
                      constructor
                      · rintro ⟨_, m, hm, hle⟩
                        exact .inl ⟨_, m, rfl, .inr hm, by omega⟩
                      · rintro (⟨r, m, h, hm, hle⟩ | h)
                        · simp at h; subst h
                          rcases hm with ⟨_, h⟩ | hm
                          · simp at h
                          · exact ⟨by have := hm.pos; omega, m, hm, hle⟩
                        · exact absurd h hno
                  · rw [if_pos (by omega)]
                    refine ⟨false, rfl, ?_⟩
                    simp only [Bool.false_eq_true, false_iff, he, if_false]
                    rintro ⟨m, h, _⟩; exact hgn _ h
                · rw [if_neg hc1]
                  obtain ⟨b, hb1, hb2⟩ := ih (u + 1) (c1 :: s3) ell (by omega) (by omega) (by simp)
                  refine ⟨b, by rw [← hb1]; congr 1, ?_⟩
                  rw [hb2]
                  have hcons : ∀ n, Groups IsIPv4 n s ↔ ∃ m, n = m + 1 ∧ Groups IsIPv4 m (c1 :: s3) := by
                    intro n; rw [hgr, ht]
                    constructor
                    · rintro (⟨h, _⟩ | ⟨s', m, h, h1, h2⟩)
                      · simp at h
                      · simp at h; subst h; exact ⟨m, h1, h2⟩
                    · rintro ⟨m, h1, h2⟩; exact .inr ⟨_, m, rfl, h1, h2⟩
                  by_cases he : ell < 0
                  · simp only [he, if_true, V6Start]
                    rw [V6_ellipsis_inv (s := s), hcons, ht]
                    constructor
                    · rintro ⟨_, h | h⟩
                      · exact .inl ⟨_, by omega, h⟩
                      · exact .inr ⟨hg, .inr ⟨_, rfl, h⟩⟩
                    · rintro (⟨m, h, h2⟩ | ⟨_, ⟨r, m, h, _⟩ | ⟨s', h, h2⟩⟩)
                      · have := h2.pos
                        refine ⟨by omega, .inl ?_⟩
                        have : 8 - (u + 1) = m := by omega
                        rw [this]; exact h2
                      · simp at h; exact absurd h.1 hc1
                      · simp at h; subst h
                        obtain ⟨l, r, n, m, hl, hr, hle, hh⟩ := h2
                        exact ⟨by omega, .inr ⟨l, r, n, m, hl, hr, hle, hh⟩⟩
                  · simp only [he, if_false, V6Rest]
                    simp only [hcons]
                    constructor
                    · rintro ⟨_, m, h, hle⟩; exact ⟨m + 1, ⟨m, rfl, h⟩, by omega⟩
                    · rintro ⟨_, ⟨m, rfl, h⟩, hle⟩
                      have := h.pos
                      exact ⟨by omega, m, h, by omega⟩
      · refine ⟨false, by rw [if_pos hx], ?_⟩
        simp only [Bool.false_eq_true, false_iff]
        have hgn : ∀ n, ¬ Groups IsIPv4 n s := fun n h => hg (Groups_inv (fun s => IsIPv4.hexHead) h).1
        split
        · rw [V6Start, V6_ellipsis_inv]
          rintro (h | ⟨h, _⟩)
          · exact hgn _ h
          · exact hg h
        · rintro ⟨m, h, _⟩; exact hgn _ h

theorem isIPv6_eq (s : Bytes) : ∃ b, isIPv6 s = .ok b ∧ (b = true ↔ IsIPv6 IsIPv4 s) := by
  -- without a leading `::`
  have plain : (∀ r, s ≠ 58 :: 58 :: r) →
      ∃ b, isIPv6Loop 9 s 0 (-1) = .ok b ∧ (b = true ↔ IsIPv6 IsIPv4 s) := by
    intro hn
    obtain ⟨b, hb1, hb2⟩ := isIPv6Loop_eq 9 0 s (-1) (by omega) (by omega) (by omega)
    refine ⟨b, hb1, ?_⟩
    rw [hb2]
    simp only [Nat.zero_lt_succ, true_and, show ((-1 : Int) < 0) = True by simp, if_true, V6Start, IsIPv6]
    apply or_congr Iff.rfl
    constructor
    · rintro ⟨l, r, n, m, hl, hr, hle, h⟩
      exact ⟨l, r, n, m, .inr hl, hr, by omega, h⟩
    · rintro ⟨l, r, n, m, hl, hr, hle, h⟩
      rcases hl with ⟨rfl, rfl⟩ | hl
      · exact absurd h (hn r)
      · exact ⟨l, r, n, m, hl, hr, by omega, h⟩
  rw [isIPv6]
  match s, plain with
  | [], plain => exact plain (by simp)
  | [a], plain => exact plain (by simp)
  | c0 :: c1 :: t, plain =>
    rw [if_pos (by simp), index_zero, bind_ok,
      index_one, bind_ok]
    by_cases h : c0 = 58 ∧ c1 = 58
    · rw [if_pos h]
      obtain ⟨rfl, rfl⟩ := h
      rw [slice_from_two, bind_ok]
      cases t with
      | nil =>
        refine ⟨true, by simp, ?_⟩
        simp only [true_iff]
        exact .inr ⟨[], [], 0, 0, .inl ⟨rfl, rfl⟩, .inl ⟨rfl, rfl⟩, by omega, rfl⟩
      | cons c2 t =>
        rw [if_neg (by simp)]
        obtain ⟨b, hb1, hb2⟩ := isIPv6Loop_eq 9 0 (c2 :: t) 0 (by omega) (by omega) (by omega)
        refine ⟨b, hb1, ?_⟩
        rw [hb2]
        simp only [Nat.zero_lt_succ, true_and, Int.lt_irrefl, if_false, V6Rest, IsIPv6]
        constructor
        · rintro ⟨m, hm, hle⟩
          exact .inr ⟨[], c2 :: t, 0, m, .inl ⟨rfl, rfl⟩, .inr hm, by omega, rfl⟩
        · rintro (h | ⟨l, r, n, m, hl, hr, hle, h⟩)
          · obtain ⟨c, t', h3, h4⟩ := h.isHex_head (fun s => IsIPv4.hexHead)
            simp at h3; rw [← h3.1] at h4; exact absurd h4 (by decide)
          · rcases hl with ⟨rfl, rfl⟩ | hl
            · simp at h; subst h
              rcases hr with ⟨_, h⟩ | hr
              · simp at h
              · exact ⟨m, hr, by omega⟩
            · obtain ⟨c, t', h3, h4⟩ := hl.isHex_head (by simp)
              rw [h3] at h; simp at h; rw [← h.1] at h4; exact absurd h4 (by decide)
    · rw [if_neg h]
      apply plain
      intro r hr; simp at hr; exact h ⟨hr.1, hr.2.1⟩

end Fasttld
