import Verif.Proofs.Punycode
import Verif.Proofs.ExactText
import Verif.Spec.Mishandled
import Verif.Spec.Psl

/-!
# Labels in Punycode
-/

set_option linter.unusedSimpArgs false

namespace Fasttld.Spec.Punycode
open Fasttld

/-! ## Code points -/

theorem codePointsFrom_toks (s : Bytes) : ∀ bound, s.length ≤ bound → codePointsFrom bound s = (toks s).map Prod.fst := by
  induction s using toks_induction with
  | nil => intro bound _; cases bound <;> simp [codePointsFrom]
  | enc r q hr ih =>
    intro bound hb
    have hd := Fasttld.decode_encode hr q
    have hl := encode_length r
    rw [toks_encode hr]
    obtain ⟨b, t, he⟩ := List.exists_cons_of_ne_nil (encode_ne_nil r)
    rw [he, List.cons_append] at hd hb ⊢
    rw [he] at hl
    cases bound with
    | zero => simp at hb
    | succ bound =>
      rw [codePointsFrom, hd]
      simp only [List.length_cons, Nat.add_sub_cancel, List.map_cons, List.drop_left]
      rw [ih bound (by simp at hb; omega)]
  | err b t h ih =>
    intro bound hb
    rw [toks_error h]
    cases bound with
    | zero => simp at hb
    | succ bound =>
      rw [codePointsFrom, h]
      simp only [Nat.sub_self, List.drop_zero, List.map_cons]
      rw [ih bound (by simpa using hb)]

theorem codePoints_toks (s : Bytes) : codePoints s = (toks s).map Prod.fst := codePointsFrom_toks s _ (Nat.le_refl _)

theorem codePoints_text (cs : List Nat) (h : ∀ c ∈ cs, IsScalar c) : codePoints (cs.flatMap Spec.encode) = cs := by
  rw [codePoints_toks]
  induction cs with
  | nil => simp
  | cons c cs ih =>
    rw [List.flatMap_cons, toks_encode (h c (by simp)), List.map_cons, ih (fun c hc => h c (by simp [hc]))]

theorem text_inj {l l' : Bytes} (h : IsText l) (h' : IsText l') (e : codePoints l = codePoints l') : l = l' := by
  obtain ⟨cs, h1, rfl⟩ := h
  obtain ⟨cs', h1', rfl⟩ := h'
  rw [codePoints_text cs h1, codePoints_text cs' h1'] at e
  rw [e]

theorem encode_small {r : Nat} (h : r < 128) : Spec.encode r = [UInt8.ofNat r] := by
  unfold Spec.encode; rw [if_pos (by omega)]

/-- Code points below 128 are bytes of the text. -/
theorem mem_codePoints {s : Bytes} {c : Nat} (h : c ∈ codePoints s) (hc : c < 128) : UInt8.ofNat c ∈ s := by
  rw [codePoints_toks] at h
  induction s using toks_induction with
  | nil => simp at h
  | enc r q hr ih =>
    rw [toks_encode hr, List.map_cons] at h
    rcases List.mem_cons.1 h with rfl | h
    · rw [encode_small hc]; simp
    · exact List.mem_append.2 (.inr (ih h))
  | err b t hd ih =>
    rw [toks_error hd, List.map_cons] at h
    rcases List.mem_cons.1 h with rfl | h
    · exact absurd hc (by simp [runeError])
    · exact List.mem_cons.2 (.inr (ih h))

theorem codePoints_big {s : Bytes} (h : ¬ ∀ b ∈ s, b < 128) : ∃ c ∈ codePoints s, 128 ≤ c := by
  rw [codePoints_toks]
  induction s using toks_induction with
  | nil => simp at h
  | enc r q hr ih =>
    rw [toks_encode hr]
    by_cases hs : r < 128
    · have : ¬ ∀ b ∈ q, b < 128 := by
        intro hq
        apply h
        rw [encode_small hs]
        intro b hb
        rcases List.mem_append.1 hb with hb | hb
        · rw [List.mem_singleton.1 hb, UInt8.lt_iff_toNat_lt, UInt8.toNat_ofNat']
          simp only [UInt8.reduceToNat]
          omega
        · exact hq b hb
      obtain ⟨c, h1, h2⟩ := ih this
      exact ⟨c, by simp only [List.map_cons, List.mem_cons]; exact .inr h1, h2⟩
    · exact ⟨r, by simp, by omega⟩
  | err b t hd ih => exact ⟨runeError, by rw [toks_error hd]; simp, by simp [runeError]⟩

/-! ## What is written -/

theorem deltas_ne_nil {cs : List Nat} (h : ∃ c ∈ cs, 128 ≤ c) : deltas cs cs.length 128 0 (cs.filter (fun c => c < 128)).length ≠ [] := by
  intro e
  have := deltas_spec cs cs.length 128 0 128 0 (List.length_filter_le _ _) (Nat.le_refl _) (by simp)
  rw [e, insertAll] at this
  obtain ⟨c, h1, h2⟩ := h
  rw [← this] at h1
  have := (List.mem_filter.1 h1).2
  simp at this
  omega

theorem numbers_ne_nil {ds : List Nat} (h : ds ≠ []) (bias k : Nat) (first : Bool) : numbers ds bias k first ≠ [] := by
  cases ds with
  | nil => exact absurd rfl h
  | cons d ds => simp [numbers, number_ne_nil]

/-- The bytes of what is written: code points below 128, hyphens and digits. -/
theorem mem_encode {cs : List Nat} {b : UInt8} (h : b ∈ encode cs) : (∃ c ∈ cs, c < 128 ∧ b = UInt8.ofNat c) ∨ b = 45 ∨ ∃ d < 36, b = digit d := by
  unfold encode at h
  simp only [List.mem_append] at h
  rcases h with (h | h) | h
  · obtain ⟨c, h1, rfl⟩ := List.mem_map.1 h
    obtain ⟨h1, h2⟩ := List.mem_filter.1 h1
    exact .inl ⟨c, h1, by simpa using h2, rfl⟩
  · split at h
    · simp at h
    · exact .inr (.inl (by simpa using h))
  · exact .inr (.inr (numbers_chars _ _ _ _ b h))

theorem label_ascii {l : Bytes} (h : ∀ b ∈ l, b < 128) : label l = l := by unfold label; rw [if_pos h]

theorem label_other {l : Bytes} (h : ¬ ∀ b ∈ l, b < 128) : label l = b! "xn--" ++ encode (codePoints l) := by
  unfold label; rw [if_neg h]

/-- The bytes of a label in Punycode: those of the label below 128, hyphens, lower case letters and digits. -/
theorem mem_label {l : Bytes} {b : UInt8} (h : b ∈ label l) : (b ∈ l ∧ b < 128) ∨ b = 45 ∨ ∃ d < 36, b = digit d := by
  by_cases ha : ∀ b ∈ l, b < 128
  · rw [label_ascii ha] at h
    exact .inl ⟨h, ha b h⟩
  · rw [label_other ha] at h
    rcases List.mem_append.1 h with h | h
    · simp only [List.mem_cons, List.not_mem_nil, or_false] at h
      rcases h with rfl | rfl | rfl | rfl
      · exact .inr (.inr ⟨23, by decide⟩)
      · exact .inr (.inr ⟨13, by decide⟩)
      · exact .inr (.inl rfl)
      · exact .inr (.inl rfl)
    · rcases mem_encode h with ⟨c, h1, h2, rfl⟩ | h | h
      · refine .inl ⟨mem_codePoints h1 h2, ?_⟩
        rw [UInt8.lt_iff_toNat_lt, UInt8.toNat_ofNat']
        simp only [UInt8.reduceToNat]
        omega
      · exact .inr (.inl h)
      · exact .inr (.inr h)

theorem label_lt {l : Bytes} {b : UInt8} (h : b ∈ label l) : b < 128 := by
  rcases mem_label h with ⟨-, h⟩ | rfl | ⟨d, hd, rfl⟩
  · exact h
  · decide
  · have : ∀ d < 36, digit d < 128 := by decide
    exact this d hd

theorem label_inj {l l' : Bytes} (h : IsText l) (h' : IsText l') (ha : ¬ b! "xn--" <+: l) (ha' : ¬ b! "xn--" <+: l')
    (e : label l = label l') : l = l' := by
  by_cases h1 : ∀ b ∈ l, b < 128 <;> by_cases h2 : ∀ b ∈ l', b < 128
  · rwa [label_ascii h1, label_ascii h2] at e
  · rw [label_ascii h1, label_other h2] at e
    exact absurd ⟨_, e.symm⟩ ha
  · rw [label_other h1, label_ascii h2] at e
    exact absurd ⟨_, e⟩ ha'
  · rw [label_other h1, label_other h2] at e
    exact text_inj h h' (encode_injective (List.append_cancel_left e))

theorem label_last {l : Bytes} (ha : ¬ ∀ b ∈ l, b < 128) : ∃ x d, label l = 120 :: (x ++ [digit d]) ∧ d < 36 := by
  rw [label_other ha]
  have hne := numbers_ne_nil (deltas_ne_nil (codePoints_big ha)) 72 ((codePoints l).filter (fun c => c < 128)).length true
  have hc := numbers_chars (deltas (codePoints l) (codePoints l).length 128 0 ((codePoints l).filter (fun c => c < 128)).length)
    72 ((codePoints l).filter (fun c => c < 128)).length true
  unfold encode
  simp only
  generalize numbers _ _ _ _ = n at *
  obtain ⟨y, b, rfl⟩ : ∃ y b, n = y ++ [b] := ⟨n.dropLast, n.getLast hne, (List.dropLast_concat_getLast hne).symm⟩
  obtain ⟨d, hd, rfl⟩ := hc b (by simp)
  refine ⟨b! "n--" ++ (((codePoints l).filter (fun c => c < 128)).map UInt8.ofNat ++
    (if (codePoints l).filter (fun c => c < 128) = [] then [] else [45]) ++ y), d, ?_, hd⟩
  simp

theorem encode_ascii {r : Nat} (h : ∀ b ∈ Spec.encode r, b < 128) : r < 128 := by
  refine Classical.byContradiction fun hr => ?_
  unfold Spec.encode at h
  rw [if_neg hr] at h
  split at h
  · rename_i h2
    have := h (UInt8.ofNat (0xC0 + r / 64)) (by simp)
    rw [UInt8.lt_iff_toNat_lt, UInt8.toNat_ofNat'] at this
    simp only [UInt8.reduceToNat] at this
    omega
  · split at h
    · have := h (UInt8.ofNat (0x80 + r % 64)) (by simp)
      rw [UInt8.lt_iff_toNat_lt, UInt8.toNat_ofNat'] at this
      simp only [UInt8.reduceToNat] at this
      omega
    · have := h (UInt8.ofNat (0x80 + r % 64)) (by simp)
      rw [UInt8.lt_iff_toNat_lt, UInt8.toNat_ofNat'] at this
      simp only [UInt8.reduceToNat] at this
      omega

/-- A label that can occur in host names is converted to one. -/
theorem label_good {l : Bytes} (hg : GoodLabel l) : GoodLabel (label l) := by
  by_cases ha : ∀ b ∈ l, b < 128
  · rwa [label_ascii ha]
  obtain ⟨x, d, e, hd⟩ := label_last ha
  -- a character that occurs in the new label, and is neither a hyphen nor a digit, occurs in the old one
  have key : ∀ r, Spec.encode r <:+: label l → r ≠ 45 → (∀ d < 36, r ≠ (digit d).toNat) → Spec.encode r <:+: l := by
    intro r hr h1 h2
    have hlt : r < 128 := encode_ascii fun b hb => label_lt (hr.subset hb)
    have hb : UInt8.ofNat r ∈ label l := hr.subset (by rw [encode_small hlt]; simp)
    have hn : (UInt8.ofNat r).toNat = r := by rw [UInt8.toNat_ofNat']; omega
    rcases mem_label hb with ⟨h, -⟩ | h | ⟨d, hd, h⟩
    · rw [encode_small hlt]
      obtain ⟨a, b, e⟩ := List.append_of_mem h
      exact ⟨a, b, by rw [e]; simp⟩
    · exact absurd (by rw [← hn, h]; rfl) h1
    · exact absurd (by rw [← hn, h]) (h2 d hd)
  have hsep : FreeOf separators (label l) := by
    intro r hr h
    refine hg.free r hr (key r h ?_ ?_)
    · rintro rfl; revert hr; decide
    · intro d hd e
      have : ∀ d < 36, (digit d).toNat ∉ separators := by decide
      exact this d hd (e ▸ hr)
  refine ⟨by rw [e]; simp, hsep, ⟨?_, ?_, ?_, ?_, ?_⟩, ?_⟩
  · rw [e]
    rintro ⟨t, h⟩
    simp [Spec.encode] at h
  · rw [e]
    rintro ⟨t, h⟩
    rw [show Spec.encode 45 = [45] from by decide, ← List.cons_append] at h
    have := List.append_inj_right' h rfl
    exact (digit_shape hd).1 (by simpa using this.symm)
  · exact fun a hs h => hsep a (strict_sub hs) h.isInfix
  · exact fun a hs b _ h => hsep a (strict_sub hs) (List.IsInfix.trans (List.infix_append [] _ _) h)
  · intro c hc hm h
    refine hg.chars.2.2.2.2 c hc hm (key c h ?_ ?_)
    · rintro rfl; revert hc; decide
    · intro d hd e
      have : ∀ d < 36, (digit d).toNat ∉ invalidChars := by decide
      exact this d hd (e ▸ hc)
  · intro h
    rcases mem_label h with ⟨h, -⟩ | h | ⟨d, hd, h⟩
    · exact hg.noEscape h
    · revert h; decide
    · have : ∀ d < 36, digit d ≠ 37 := by decide
      exact this d hd h.symm

theorem label_free {l : Bytes} (h : 46 ∉ l) : 46 ∉ label l := by
  intro hm
  rcases mem_label hm with ⟨h', -⟩ | h' | ⟨d, hd, h'⟩
  · exact h h'
  · revert h'; decide
  · exact (digit_shape hd).2 h'.symm

/-- The conversion is label by label, if it is what Punycode says. -/
theorem byLabel {toASCII : Bytes → Option Bytes} {rules : List Bytes}
    (h : ∀ r ∈ rules, ∀ ls, IsLabels r ls → toASCII r = some (List.intercalate [46] (ls.map label))) :
    ByLabel toASCII label rules :=
  ⟨fun _ => label_ascii, fun l hl => ⟨_, label_other hl, fun h0 h1 => label_free h0 (by rw [label_other hl]; exact List.mem_append.2 (.inr h1))⟩,
    fun r hr ls h1 h2 h3 => h r hr ls ⟨h1, h2, h3⟩⟩

/-- And it keeps labels apart that are texts in UTF-8. -/
theorem faithful {rules : List Bytes} (h : ∀ r ∈ rules, ∀ ls, IsLabels r ls → ∀ l ∈ ls,
      IsText l ∧ ¬ b! "xn--" <+: l ∧ (¬ (∀ b ∈ l, b < 128) → GoodLabel l)) : Faithful label rules :=
  ⟨fun r hr r' hr' ls ls' hl hl' l h1 l' h2 e => label_inj (h r hr ls hl l h1).1 (h r' hr' ls' hl' l' h2).1
      (h r hr ls hl l h1).2.1 (h r' hr' ls' hl' l' h2).2.1 e,
    fun r hr ls hl l h1 h2 => label_good ((h r hr ls hl l h1).2.2 h2)⟩

end Fasttld.Spec.Punycode
