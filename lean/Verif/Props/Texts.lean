import Verif.Model.Errors
import Verif.Spec.Literal
import Verif.Props.Complete
import Verif.Props.Print

/-!
# C65: what the texts of the errors say
-/

set_option linter.unusedSimpArgs false

namespace Fasttld.Props
open Fasttld Fasttld.Spec Trie

/-! ## String literals -/

theorem encode_head {r : Nat} (h : IsScalar r) {c : UInt8} {t : Bytes} (hc : c.toNat < 128) (he : encode r = c :: t) :
    r = c.toNat ∧ t = [] := by
  have hd := decode_encode h []
  rw [List.append_nil, he, decodeRune.eq_def] at hd
  dsimp only at hd
  rw [if_pos hc] at hd
  simp only [Prod.mk.injEq, List.length_cons] at hd
  exact ⟨hd.1.symm, List.length_eq_zero_iff.1 (by omega)⟩

theorem encode_cancel {r r' : Nat} (h : IsScalar r) (h' : IsScalar r') {t t' : Bytes} (he : encode r ++ t = encode r' ++ t') :
    r = r' ∧ t = t' := by
  have hd := decode_encode h t
  rw [he, decode_encode h' t'] at hd
  obtain rfl : r' = r := (Prod.mk.inj hd).1
  exact ⟨rfl, List.append_cancel_left he⟩

theorem char_ne_escape {r : Nat} (h : IsScalar r) (h92 : r ≠ 92) {t u : Bytes} : encode r ++ t ≠ 92 :: u := by
  intro he
  cases hx : encode r with
  | nil => exact encode_ne_nil r hx
  | cons c x =>
    rw [hx] at he
    simp only [List.cons_append, List.cons.injEq] at he
    obtain ⟨rfl, -⟩ := he
    exact h92 (encode_head h (by decide) hx).1

/-- The value of a literal is unique. -/
theorem interpreted_unique {body v v' : Bytes} (h : Interpreted body v) (h' : Interpreted body v') : v = v' := by
  have hex : ∀ {n : Nat} {ds ds' t t' : Bytes}, ds.length = n → ds'.length = n → ds ++ t = ds' ++ t' → ds = ds' ∧ t = t' :=
    fun h1 h2 he => List.append_inj he (by omega)
  have simp_oct : ∀ {c x : UInt8}, (c, x) ∈ simpleEscapes → ¬ IsOctal c := by
    intro c x hm
    simp only [simpleEscapes, List.mem_cons, Prod.mk.injEq, List.not_mem_nil, or_false] at hm
    rcases hm with h | h | h | h | h | h | h | h | h <;> (obtain ⟨rfl, -⟩ := h; unfold IsOctal; decide)
  have simp_hex : ∀ {c x : UInt8}, (c, x) ∈ simpleEscapes → c ≠ 120 ∧ c ≠ 117 ∧ c ≠ 85 := by
    intro c x hm
    simp only [simpleEscapes, List.mem_cons, Prod.mk.injEq, List.not_mem_nil, or_false] at hm
    rcases hm with h | h | h | h | h | h | h | h | h <;> (obtain ⟨rfl, -⟩ := h; decide)
  have oct_hex : ∀ {c : UInt8}, IsOctal c → c ≠ 120 ∧ c ≠ 117 ∧ c ≠ 85 := by
    intro c hc
    refine ⟨?_, ?_, ?_⟩ <;> (rintro rfl; revert hc; unfold IsOctal; decide)
  induction h generalizing v' with
  | nil =>
    generalize hb : ([] : Bytes) = b at h'
    cases h' with
    | nil => rfl
    | @char r t => exact absurd (List.append_eq_nil_iff.1 hb.symm).1 (encode_ne_nil r)
    | _ => simp at hb
  | @char r t v hs _ _ h92 _ ih =>
    generalize hb : encode r ++ t = b at h'
    cases h' with
    | nil => exact absurd (List.append_eq_nil_iff.1 hb).1 (encode_ne_nil r)
    | @char r' t' v' hs' _ _ _ g =>
      obtain ⟨rfl, rfl⟩ := encode_cancel hs hs' hb
      rw [ih g]
    | simple => exact absurd hb (char_ne_escape hs h92)
    | octal => exact absurd hb (char_ne_escape hs h92)
    | byte => exact absurd hb (char_ne_escape hs h92)
    | short => exact absurd hb (char_ne_escape hs h92)
    | long => exact absurd hb (char_ne_escape hs h92)
  | @simple c x t v hm _ ih =>
    generalize hb : 92 :: c :: t = b at h'
    cases h' with
    | nil => simp at hb
    | char hs _ _ h92 => exact absurd hb.symm (char_ne_escape hs h92)
    | @simple c' x' t' v' hm' g =>
      simp only [List.cons.injEq, true_and] at hb
      obtain ⟨rfl, rfl⟩ := hb
      have : x = x' := by
        simp only [simpleEscapes, List.mem_cons, Prod.mk.injEq, List.not_mem_nil, or_false] at hm hm'
        rcases hm with h | h | h | h | h | h | h | h | h <;>
          (obtain ⟨rfl, rfl⟩ := h; revert hm'; simp; try exact fun h => h.symm)
      rw [this, ih g]
    | octal ha =>
      simp only [List.cons.injEq, true_and] at hb
      exact absurd (hb.1 ▸ ha) (simp_oct hm)
    | byte => simp at hb; exact absurd hb.1 (simp_hex hm).1
    | short => simp at hb; exact absurd hb.1 (simp_hex hm).2.1
    | long => simp at hb; exact absurd hb.1 (simp_hex hm).2.2
  | @octal a b c t v ha hb1 hc _ _ ih =>
    generalize hb : 92 :: a :: b :: c :: t = body at h'
    cases h' with
    | nil => simp at hb
    | char hs _ _ h92 => exact absurd hb.symm (char_ne_escape hs h92)
    | simple hm =>
      simp only [List.cons.injEq, true_and] at hb
      exact absurd (hb.1 ▸ ha) (simp_oct hm)
    | octal _ _ _ _ g =>
      simp only [List.cons.injEq, true_and] at hb
      obtain ⟨rfl, rfl, rfl, rfl⟩ := hb
      rw [ih g]
    | byte => simp at hb; exact absurd hb.1 (oct_hex ha).1
    | short => simp at hb; exact absurd hb.1 (oct_hex ha).2.1
    | long => simp at hb; exact absurd hb.1 (oct_hex ha).2.2
  | @byte ds t v hl _ _ ih =>
    generalize hb : 92 :: 120 :: ds ++ t = body at h'
    cases h' with
    | nil => simp at hb
    | char hs _ _ h92 => exact absurd hb.symm (by simpa using char_ne_escape hs h92)
    | simple hm => simp at hb; exact absurd hb.1.symm (simp_hex hm).1
    | octal ha => simp at hb; exact absurd hb.1.symm (oct_hex ha).1
    | byte hl' _ g =>
      simp at hb
      obtain ⟨rfl, rfl⟩ := hex hl hl' hb
      rw [ih g]
    | short => simp at hb
    | long => simp at hb
  | @short ds t v hl _ _ _ ih =>
    generalize hb : 92 :: 117 :: ds ++ t = body at h'
    cases h' with
    | nil => simp at hb
    | char hs _ _ h92 => exact absurd hb.symm (by simpa using char_ne_escape hs h92)
    | simple hm => simp at hb; exact absurd hb.1.symm (simp_hex hm).2.1
    | octal ha => simp at hb; exact absurd hb.1.symm (oct_hex ha).2.1
    | byte => simp at hb
    | short hl' _ _ g =>
      simp at hb
      obtain ⟨rfl, rfl⟩ := hex hl hl' hb
      rw [ih g]
    | long => simp at hb
  | @long ds t v hl _ _ _ ih =>
    generalize hb : 92 :: 85 :: ds ++ t = body at h'
    cases h' with
    | nil => simp at hb
    | char hs _ _ h92 => exact absurd hb.symm (by simpa using char_ne_escape hs h92)
    | simple hm => simp at hb; exact absurd hb.1.symm (simp_hex hm).2.2
    | octal ha => simp at hb; exact absurd hb.1.symm (oct_hex ha).2.2
    | byte => simp at hb
    | short => simp at hb
    | long hl' _ _ g =>
      simp at hb
      obtain ⟨rfl, rfl⟩ := hex hl hl' hb
      rw [ih g]

theorem literal_unique {src v v' : Bytes} (h : IsLiteral src v) (h' : IsLiteral src v') : v = v' := by
  obtain ⟨body, rfl, h⟩ := h
  obtain ⟨body', he, h'⟩ := h'
  have : body = body' := by simpa using he
  subst this
  exact interpreted_unique h h'

/-! ## Quote writes literals -/

/-- What is assumed of `strconv.IsPrint`: control characters are not printable. -/
def PrintTable (isPrint : Nat → Bool) : Prop := ∀ r, r < 32 ∨ r = 127 → isPrint r = false

theorem hexChar_digit {n : Nat} (h : n < 16) : hexDigit (hexChar n) = some n := by
  have : ∀ n < 16, hexDigit (hexChar n) = some n := by decide +kernel
  exact this n h

theorem hexText_length (w n : Nat) : (hexText w n).length = w := by
  induction w generalizing n with
  | zero => rfl
  | succ w ih => simp [hexText, ih]

theorem hexText_allHex (w n : Nat) : AllHex (hexText w n) := by
  induction w generalizing n with
  | zero => intro c hc; simp [hexText] at hc
  | succ w ih =>
    intro c hc
    simp only [hexText, List.mem_append, List.mem_singleton] at hc
    rcases hc with hc | rfl
    · exact ih _ c hc
    · rw [hexChar_digit (Nat.mod_lt _ (by decide))]; rfl

theorem hexText_value {w n : Nat} (h : n < 16 ^ w) : hexValue (hexText w n) = n := by
  induction w generalizing n with
  | zero => simp at h; subst h; rfl
  | succ w ih =>
    have h1 : n / 16 < 16 ^ w := by
      rw [Nat.pow_succ] at h
      exact Nat.div_lt_of_lt_mul (by omega)
    have h2 := ih h1
    unfold hexValue at h2 ⊢
    rw [hexText, List.foldl_append, h2]
    simp only [List.foldl_cons, List.foldl_nil, hexChar_digit (Nat.mod_lt n (show 0 < 16 by decide)), Option.getD_some]
    omega

theorem appendRune_eq (r : Nat) : appendRune r = encode r := rfl

theorem escapedRune_interpreted {isPrint : Nat → Bool} (hp : PrintTable isPrint) {r : Nat} (hr : IsScalar r) {t v : Bytes}
    (h : Interpreted t v) : Interpreted (escapedRune isPrint r ++ t) (encode r ++ v) := by
  have simple : ∀ {c x : UInt8}, (c, x) ∈ simpleEscapes → r = x.toNat → Interpreted (92 :: c :: t) (encode r ++ v) := by
    intro c x hm hx
    have : encode r = [x] := by
      subst hx
      unfold encode
      have : x.toNat < 128 := by
        simp only [simpleEscapes, List.mem_cons, Prod.mk.injEq, List.not_mem_nil, or_false] at hm
        rcases hm with h | h | h | h | h | h | h | h | h <;> (obtain ⟨-, rfl⟩ := h; decide)
      rw [if_pos this]; simp
    rw [this]
    exact .simple hm h
  unfold escapedRune
  split
  · rename_i h1
    rcases h1 with rfl | rfl
    · exact simple (c := 34) (x := 34) (by decide) (by decide)
    · exact simple (c := 92) (x := 92) (by decide) (by decide)
  rename_i hq
  split
  · rename_i hpr
    have h10 : r ≠ 10 := by
      rintro rfl
      rw [hp 10 (.inl (by decide))] at hpr; cases hpr
    exact .char hr h10 (by omega) (by omega) h
  split
  · exact simple (c := 97) (x := 7) (by decide) (by assumption)
  split
  · exact simple (c := 98) (x := 8) (by decide) (by assumption)
  split
  · exact simple (c := 102) (x := 12) (by decide) (by assumption)
  split
  · exact simple (c := 110) (x := 10) (by decide) (by assumption)
  split
  · exact simple (c := 114) (x := 13) (by decide) (by assumption)
  split
  · exact simple (c := 116) (x := 9) (by decide) (by assumption)
  split
  · exact simple (c := 118) (x := 11) (by decide) (by assumption)
  split
  · rename_i h1
    have hv : hexValue (hexText 2 r) = r := hexText_value (by omega)
    have := Interpreted.byte (hexText_length 2 r) (hexText_allHex 2 r) h
    rw [hv] at this
    have he : encode r = [UInt8.ofNat r] := by unfold encode; rw [if_pos (by omega)]
    rw [he]; exact this
  split
  · have hv : hexValue (hexText 4 r) = r := hexText_value (by omega)
    have := Interpreted.short (hexText_length 4 r) (hexText_allHex 4 r) (by rw [hv]; exact hr) h
    rw [hv] at this
    exact this
  · have hv : hexValue (hexText 8 r) = r := hexText_value (by
      have : r ≤ 0x10FFFF := by unfold IsScalar at hr; omega
      omega)
    have := Interpreted.long (hexText_length 8 r) (hexText_allHex 8 r) (by rw [hv]; exact hr) h
    rw [hv] at this
    exact this

theorem quoteBody_encode (isPrint : Nat → Bool) {r : Nat} (hr : IsScalar r) (q : Bytes) :
    quoteBody isPrint (encode r ++ q) = escapedRune isPrint r ++ quoteBody isPrint q := by
  have hd := decode_encode hr q
  obtain ⟨b, t, he, -, -⟩ := encode_shape hr
  rw [he] at hd ⊢
  rw [List.cons_append] at hd ⊢
  rw [quoteBody, hd]
  have : ¬ ((b :: t).length = 1 ∧ r = runeError) := by
    rintro ⟨h1, rfl⟩
    have := congrArg List.length he
    rw [h1] at this
    revert this; decide
  simp only [if_neg this]
  simp

theorem quoteBody_error (isPrint : Nat → Bool) {b : UInt8} {t : Bytes} (h : decodeRune (b :: t) = (runeError, 1)) :
    quoteBody isPrint (b :: t) = b! "\\x" ++ hexText 2 b.toNat ++ quoteBody isPrint t := by
  rw [quoteBody, h]
  simp

theorem quote_literal {isPrint : Nat → Bool} (hp : PrintTable isPrint) (s : Bytes) : IsLiteral (quote isPrint s) s := by
  refine ⟨quoteBody isPrint s, rfl, ?_⟩
  induction s using toks_induction with
  | nil => rw [quoteBody]; exact .nil
  | enc r q hr ih => rw [quoteBody_encode isPrint hr]; exact escapedRune_interpreted hp hr ih
  | err b t h ih =>
    rw [quoteBody_error isPrint h]
    have hv : hexValue (hexText 2 b.toNat) = b.toNat := hexText_value (by have := b.toNat_lt; omega)
    have := Interpreted.byte (hexText_length 2 b.toNat) (hexText_allHex 2 b.toNat) ih
    rw [hv] at this
    simpa using this

/-! ## C65 -/

/-- Not an error of the IDNA library. -/
def Own (e : Err) : Prop := ∀ m, e ≠ .idna m

/-- C65: the text of an error of a bad escape contains the escape, as a string literal of Go. -/
theorem C65_escape (isPrint : Nat → Bool) (hp : PrintTable isPrint) (esc : Bytes) :
    ∃ lit, (Err.badEscape esc).text isPrint = b! "invalid URL escape " ++ lit ∧ IsLiteral lit esc :=
  ⟨quote isPrint esc, rfl, quote_literal hp esc⟩

/-- The texts of the other errors. -/
theorem text_fixed (isPrint : Nat → Bool) {e : Err} (ho : Own e) : (∃ esc, e = .badEscape esc) ∨
    (e.text isPrint = e.text (fun _ => false) ∧ (e.text isPrint).take 12 ≠ b! "invalid URL " ∧ (10 : UInt8) ∉ e.text isPrint ∧
      (∀ c ∈ e.text isPrint, 32 ≤ c.toNat ∧ c.toNat < 127)) := by
  cases e with
  | badEscape esc => exact .inl ⟨esc, rfl⟩
  | idna m => exact absurd rfl (ho m)
  | _ =>
    refine .inr ⟨rfl, ?_⟩
    clear ho
    simp only [Err.text]
    decide +kernel

/-- C65: different errors have different texts. -/
theorem C65_texts (isPrint : Nat → Bool) (hp : PrintTable isPrint) {e e' : Err} (ho : Own e) (ho' : Own e')
    (h : e.text isPrint = e'.text isPrint) : e = e' := by
  have hbad : ∀ esc, ((Err.badEscape esc).text isPrint).take 12 = b! "invalid URL " := by
    intro esc
    show (b! "invalid URL escape " ++ quote isPrint esc).take 12 = _
    rw [List.take_append_of_le_length (by decide)]
    decide +kernel
  rcases text_fixed isPrint ho with ⟨esc, rfl⟩ | ⟨h1, h2, -, -⟩
  · rcases text_fixed isPrint ho' with ⟨esc', rfl⟩ | ⟨-, h2', -, -⟩
    · have h3 : quote isPrint esc = quote isPrint esc' := List.append_cancel_left (as := b! "invalid URL escape ") h
      have h4 := quote_literal hp esc
      rw [h3] at h4
      rw [literal_unique h4 (quote_literal hp esc')]
    · rw [← h, hbad] at h2'; exact absurd rfl h2'
  · rcases text_fixed isPrint ho' with ⟨esc', rfl⟩ | ⟨h1', h2', -, -⟩
    · rw [h, hbad] at h2; exact absurd rfl h2
    · rw [h1, h1'] at h
      clear h1 h1'
      cases e with
      | badEscape => exact absurd (hbad _) h2
      | idna m => exact absurd rfl (ho m)
      | _ =>
        cases e' with
        | badEscape => exact absurd (hbad _) h2'
        | idna m => exact absurd rfl (ho' m)
        | _ => first | rfl | exact absurd h (by decide +kernel)

/-- What quoting writes has no control characters in it. -/
theorem quote_controls {isPrint : Nat → Bool} (hp : PrintTable isPrint) (s : Bytes) :
    ∀ c ∈ quote isPrint s, ¬ (c.toNat < 32 ∨ c.toNat = 127) := by
  have hhex : ∀ w n, ∀ c ∈ hexText w n, ¬ (c.toNat < 32 ∨ c.toNat = 127) := by
    intro w n c hc
    have := hexText_allHex w n c hc
    revert this
    exact forall_byte (P := fun c => (hexDigit c).isSome → ¬ (c.toNat < 32 ∨ c.toNat = 127)) (by decide +kernel) c
  have henc : ∀ r, IsScalar r → ¬ (r < 32 ∨ r = 127) → ∀ c ∈ encode r, ¬ (c.toNat < 32 ∨ c.toNat = 127) := by
    intro r hr hn c hc
    unfold encode at hc
    have hle : r ≤ 0x10FFFF := by unfold IsScalar at hr; omega
    split at hc
    · simp only [List.mem_singleton] at hc
      subst hc
      rw [toNat_ofNat_lt (by omega)]; exact hn
    have key : ∀ n, 128 ≤ n → n < 256 → ¬ ((UInt8.ofNat n).toNat < 32 ∨ (UInt8.ofNat n).toNat = 127) := by
      intro n h1 h2
      rw [toNat_ofNat_lt h2]; omega
    split at hc
    · simp only [List.mem_cons, List.not_mem_nil, or_false] at hc
      rcases hc with rfl | rfl <;> exact key _ (by omega) (by omega)
    split at hc
    · simp only [List.mem_cons, List.not_mem_nil, or_false] at hc
      rcases hc with rfl | rfl | rfl <;> exact key _ (by omega) (by omega)
    · simp only [List.mem_cons, List.not_mem_nil, or_false] at hc
      rcases hc with rfl | rfl | rfl | rfl <;> exact key _ (by omega) (by omega)
  have hrune : ∀ r, IsScalar r → ∀ c ∈ escapedRune isPrint r, ¬ (c.toNat < 32 ∨ c.toNat = 127) := by
    intro r hr c hc
    unfold escapedRune at hc
    split at hc
    · rename_i h1
      rcases h1 with rfl | rfl <;> (revert c; decide +kernel)
    split at hc
    · rename_i hpr
      refine henc r hr ?_ c hc
      intro h1
      rw [hp r h1] at hpr; cases hpr
    iterate 7
      split at hc
      · revert c; decide +kernel
    split at hc
    · rcases List.mem_append.1 hc with h1 | h1
      · clear hc; revert c; decide +kernel
      · exact hhex _ _ c h1
    split at hc
    · rcases List.mem_append.1 hc with h1 | h1
      · clear hc; revert c; decide +kernel
      · exact hhex _ _ c h1
    · rcases List.mem_append.1 hc with h1 | h1
      · clear hc; revert c; decide +kernel
      · exact hhex _ _ c h1
  have hbody : ∀ c ∈ quoteBody isPrint s, ¬ (c.toNat < 32 ∨ c.toNat = 127) := by
    induction s using toks_induction with
    | nil => rw [quoteBody]; intro c hc; simp at hc
    | enc r q hr ih =>
      rw [quoteBody_encode isPrint hr]
      intro c hc
      rcases List.mem_append.1 hc with h1 | h1
      · exact hrune r hr c h1
      · exact ih c h1
    | err b t h ih =>
      rw [quoteBody_error isPrint h]
      intro c hc
      rcases List.mem_append.1 hc with h1 | h1
      · rcases List.mem_append.1 h1 with h2 | h2
        · clear hc h1; revert c; decide +kernel
        · exact hhex _ _ c h2
      · exact ih c h1
  intro c hc
  unfold quote at hc
  simp only [List.mem_append, List.mem_singleton] at hc
  rcases hc with (rfl | hc) | rfl
  · decide
  · exact hbody c hc
  · decide

/-- C65: the text of an error has no control characters, so it is one line; what a bad escape contains cannot change that. -/
theorem C65_controls (isPrint : Nat → Bool) (hp : PrintTable isPrint) {e : Err} (ho : Own e) :
    ∀ c ∈ e.text isPrint, ¬ (c.toNat < 32 ∨ c.toNat = 127) := by
  intro c hc
  rcases text_fixed isPrint ho with ⟨esc, rfl⟩ | ⟨-, -, -, h4⟩
  · rcases List.mem_append.1 hc with h1 | h1
    · clear hc; revert c; decide +kernel
    · exact quote_controls hp esc c h1
  · have := h4 c hc; omega

/-- An error of Extract, or one of the IDNA library, whose texts begin with `idna: ` and are one line. -/
def Plain (e : Err) : Prop := ∀ m, e = .idna m → b! "idna: " <+: m ∧ (10 : UInt8) ∉ m

theorem plain_texts (isPrint : Nat → Bool) (hp : PrintTable isPrint) {e e' : Err} (ho : Plain e) (ho' : Plain e')
    (h : e.text isPrint = e'.text isPrint) : e = e' := by
  have hown : ∀ {x : Err}, Own x → (x.text isPrint).take 2 ≠ b! "id" := by
    intro x hx
    cases x with
    | idna m => exact absurd rfl (hx m)
    | badEscape esc =>
      show (b! "invalid URL escape " ++ quote isPrint esc).take 2 ≠ _
      rw [List.take_append_of_le_length (by decide)]
      decide +kernel
    | _ => simp only [Err.text]; decide +kernel
  have hid : ∀ {m : Bytes}, b! "idna: " <+: m → m.take 2 = b! "id" := by
    rintro m ⟨t, rfl⟩
    rw [List.take_append_of_le_length (by decide)]
    decide +kernel
  by_cases h1 : Own e <;> by_cases h2 : Own e'
  · exact C65_texts isPrint hp h1 h2 h
  · simp only [Own, Classical.not_forall, Classical.not_not] at h2
    obtain ⟨m, rfl⟩ := h2
    exact absurd (by rw [h]; exact hid (ho' m rfl).1) (hown h1)
  · simp only [Own, Classical.not_forall, Classical.not_not] at h1
    obtain ⟨m, rfl⟩ := h1
    exact absurd (by rw [← h]; exact hid (ho m rfl).1) (hown h2)
  · simp only [Own, Classical.not_forall, Classical.not_not] at h1 h2
    obtain ⟨m, rfl⟩ := h1
    obtain ⟨m', rfl⟩ := h2
    exact congrArg _ h

/-- C65: different errors have different texts, also if they are from the IDNA library. -/
theorem C65_texts_idna (isPrint : Nat → Bool) (hp : PrintTable isPrint) {e e' : Err} (ho : Plain e) (ho' : Plain e') (hne : e ≠ e') :
    e.text isPrint ≠ e'.text isPrint := fun h => hne (plain_texts isPrint hp ho ho' h)

/-- C65: the output of `fasttld extract` determines the argument, the result and the error, if the values have no line
breaks. -/
theorem C65_output (isPrint : Nat → Bool) (hp : PrintTable isPrint) {arg arg' : Bytes} {r r' : ExtractResult} {err err' : Option Err}
    (ho : OneLiners arg r) (ho' : OneLiners arg' r') (he : ∀ e, err = some e → Plain e) (he' : ∀ e, err' = some e → Plain e)
    (h : textOf (cliPrint (Err.text isPrint) arg r err) = textOf (cliPrint (Err.text isPrint) arg' r' err')) :
    arg = arg' ∧ r = r' ∧ err = err' := by
  have app : ∀ a b, textOf (a ++ b) = textOf a ++ textOf b := by intro a b; simp [textOf]
  have head : ∀ u x, ∃ t, textOf (printRes u x) = 32 :: t := by
    intro u x
    have : (textOf (printRes u x)).head? = some 32 := by
      unfold printRes printComponent
      simp only [List.append_assoc, List.cons_append]
      split <;> rfl
    cases hx : textOf (printRes u x) with
    | nil => rw [hx] at this; cases this
    | cons c t => rw [hx] at this; cases this; exact ⟨t, rfl⟩
  have line : ∀ {e : Err}, Plain e → (10 : UInt8) ∉ e.text isPrint := by
    intro e hpl
    by_cases h1 : Own e
    · intro h2
      exact C65_controls isPrint hp h1 10 h2 (.inl (by decide))
    · simp only [Own, Classical.not_forall, Classical.not_not] at h1
      obtain ⟨m, rfl⟩ := h1
      exact (hpl m rfl).2
  have cut : ∀ {a b x y : Bytes}, (10 : UInt8) ∉ a → (10 : UInt8) ∉ b → a ++ 10 :: x = b ++ 10 :: y → a = b ∧ x = y := by
    intro a
    induction a with
    | nil =>
      intro b x y _ hb hh
      cases b with
      | nil => simp at hh; exact ⟨rfl, hh⟩
      | cons c b => simp at hh; exact absurd hh.1 (by intro h; exact hb (by simp [← h]))
    | cons c a ih =>
      intro b x y ha hb hh
      cases b with
      | nil => simp at hh; exact absurd hh.1 (by intro h; exact ha (by simp [h]))
      | cons d b =>
        simp only [List.cons_append, List.cons.injEq] at hh
        obtain ⟨rfl, hh⟩ := hh
        obtain ⟨rfl, rfl⟩ := ih (fun h => ha (by simp [h])) (fun h => hb (by simp [h])) hh
        exact ⟨rfl, rfl⟩
  unfold cliPrint at h
  rw [app, app] at h
  cases err with
  | none =>
    cases err' with
    | none =>
      obtain ⟨rfl, rfl⟩ := C46_injective _ _ _ _ ho ho' (by simpa [textOf] using h)
      exact ⟨rfl, rfl, rfl⟩
    | some e' =>
      exfalso
      obtain ⟨t, ht⟩ := head arg r
      rw [ht] at h
      have := congrArg List.head? h
      revert this
      simp [textOf]
  | some e =>
    cases err' with
    | none =>
      exfalso
      obtain ⟨t, ht⟩ := head arg' r'
      rw [ht] at h
      have := congrArg List.head? h
      revert this
      simp [textOf]
    | some e' =>
      have h1 : b! "Error: " ++ (e.text isPrint ++ 10 :: textOf (printRes arg r)) =
          b! "Error: " ++ (e'.text isPrint ++ 10 :: textOf (printRes arg' r')) := by
        simpa [textOf] using h
      obtain ⟨h2, h3⟩ := cut (line (he e rfl)) (line (he' e' rfl)) (List.append_cancel_left h1)
      obtain ⟨rfl, rfl⟩ := C46_injective _ _ _ _ ho ho' h3
      rw [plain_texts isPrint hp (he e rfl) (he' e' rfl) h2]
      exact ⟨rfl, rfl, rfl⟩

/-- C65: if the text of the error of Extract speaks of an escape, then it shows the first escape of the host that is
malformed, as a string literal of Go. -/
theorem C65_extract (isPrint : Nat → Bool) (hp : PrintTable isPrint) (idna : Idna) (rules : List Bytes) (e : URLParams)
    {r : ExtractResult} {err : Err} (h : extract idna (buildTrie rules) e = .ok (r, some err)) (ho : Own err)
    (ht : b! "invalid URL " <+: err.text isPrint) :
    ∃ host after esc lit, Authority e.url r.scheme r.userInfo (host ++ after) ∧ HostAt (host ++ after) (.name host after) ∧
      FirstBadEscape host esc ∧ err.text isPrint = b! "invalid URL escape " ++ lit ∧ IsLiteral lit esc := by
  rcases text_fixed isPrint ho with ⟨esc, rfl⟩ | ⟨-, h2, -, -⟩
  · have hx := (extracts_iff idna rules e r _).1 h
    obtain ⟨sch, ui, a, part, hA, hat, hf⟩ := hx
    generalize hg : some (Err.badEscape esc) = er at hf
    cases hf with
    | brackets =>
      cases hg
      exact absurd hat (by intro h; cases h)
    | @escape host after port path esc' h1 h2 =>
      cases hg
      have hat2 : a = host ++ after := by cases hat; rfl
      subst hat2
      obtain ⟨lit, h3, h4⟩ := C65_escape isPrint hp esc
      exact ⟨host, after, esc, lit, hA, hat, h2, h3, h4⟩
    | host h1 h2 h3 =>
      exfalso
      subst hg
      obtain ⟨first, rest, tail, ds, w, -, -, -, hj⟩ := h3
      cases hj
    | _ => cases hg
  · exfalso
    apply h2
    obtain ⟨t, ht⟩ := ht
    rw [← ht, List.take_append_of_le_length (by decide)]
    decide +kernel

-- texts, with the printable characters of ASCII
example : ((Err.badEscape (b! "%4")).text (fun r => 32 ≤ r && r < 127), (Err.badEscape (b! "%\"\n")).text (fun r => 32 ≤ r && r < 127),
      (Err.badEscape [37, 0xC3, 0xA9]).text (fun r => 32 ≤ r && r < 127), (Err.badEscape [37, 0x80, 127]).text (fun r => 32 ≤ r && r < 127)) =
    (b! "invalid URL escape \"%4\"", b! "invalid URL escape \"%\\\"\\n\"",
     b! "invalid URL escape \"%\\u00e9\"", b! "invalid URL escape \"%\\x80\\x7f\"") := by decide +kernel

example : PrintTable (fun r => 32 ≤ r && r < 127) := by
  intro r h
  simp; omega

example : outOf (.printed (cliPrint (Err.text (fun r => 32 ≤ r && r < 127)) (b! "a:x") {} (some .invalidPort))) =
    b! "Error: invalid port\n" ++ textOf (printRes (b! "a:x") {}) := by decide +kernel

end Fasttld.Props
