import Verif.Spec.Spelling
import Verif.Proofs.InventoryMore
import Verif.Proofs.Spelling

/-!
# More checks for long lists: lines in UTF-8
-/

set_option linter.unusedSimpArgs false

namespace Fasttld.Inv
open Fasttld Fasttld.Spec
open Punycode (IsText)

/-- A continuation byte. -/
def contByte (b : Nat) : Bool := bif Nat.ble 128 b then Nat.ble b 191 else false

/-- A text in UTF-8 whose characters have at most three bytes. -/
def textOK : (fuel : Nat) → Nat → Bool
  | 0, _ => false
  | fuel + 1, n =>
    bif Nat.beq n 0 then true
    else bif Nat.ble (Nat.mod n 256) 127 then textOK fuel (Nat.div n 256)
    else bif Nat.ble (Nat.mod n 256) 223 then
      bif Nat.ble 194 (Nat.mod n 256) then bif contByte (Nat.mod (Nat.div n 256) 256) then textOK fuel (Nat.div n 65536) else false
      else false
    else bif Nat.ble (Nat.mod n 256) 239 then
      bif contByte (Nat.mod (Nat.div n 256) 256) then bif contByte (Nat.mod (Nat.div n 65536) 256) then
        bif Nat.beq (Nat.mod n 256) 224 then
          bif Nat.ble 160 (Nat.mod (Nat.div n 256) 256) then textOK fuel (Nat.div n 16777216) else false
        else bif Nat.beq (Nat.mod n 256) 237 then
          bif Nat.ble (Nat.mod (Nat.div n 256) 256) 159 then textOK fuel (Nat.div n 16777216) else false
        else textOK fuel (Nat.div n 16777216)
      else false else false
    else false

/-- Only bytes below 128. -/
def asciiOK : (fuel : Nat) → Nat → Bool
  | 0, _ => false
  | fuel + 1, n => bif Nat.beq n 0 then true else bif Nat.ble (Nat.mod n 256) 127 then asciiOK fuel (Nat.div n 256) else false

/-- A rule is a text, and in ASCII if it begins with `!`. -/
def lineText (n : Nat) : Bool :=
  bif isRule n then bif textOK 200 n then bif Nat.beq (Nat.mod n 256) 33 then asciiOK 200 n else true else false else true

theorem contByte_sound {b : Nat} (h : contByte b = true) : 128 ≤ b ∧ b ≤ 191 := by
  unfold contByte at h
  rw [Bool.cond_eq_ite] at h
  split at h
  · rename_i h1
    exact ⟨Nat.le_of_ble_eq_true h1, Nat.le_of_ble_eq_true h⟩
  · simp at h

theorem isText_nil : IsText [] := ⟨[], by simp, rfl⟩

theorem isText_cons {r : Nat} {l : Bytes} (hr : IsScalar r) (h : IsText l) : IsText (encode r ++ l) := by
  obtain ⟨cs, h1, rfl⟩ := h
  refine ⟨r :: cs, ?_, rfl⟩
  intro c hc
  rcases List.mem_cons.1 hc with rfl | hc
  · exact hr
  · exact h1 c hc

theorem encode_two {a b : Nat} (ha : 194 ≤ a) (ha' : a ≤ 223) (hb : 128 ≤ b) (hb' : b ≤ 191) :
    encode ((a - 192) * 64 + (b - 128)) = [UInt8.ofNat a, UInt8.ofNat b] := by
  unfold encode
  rw [if_neg (by omega), if_pos (by omega), show 0xC0 + ((a - 192) * 64 + (b - 128)) / 64 = a by omega,
    show 0x80 + ((a - 192) * 64 + (b - 128)) % 64 = b by omega]

theorem encode_three {a b c : Nat} (ha : 224 ≤ a) (ha' : a ≤ 239) (hb : 128 ≤ b) (hb' : b ≤ 191) (hc : 128 ≤ c) (hc' : c ≤ 191)
    (h : a = 224 → 160 ≤ b) : encode ((a - 224) * 4096 + (b - 128) * 64 + (c - 128)) = [UInt8.ofNat a, UInt8.ofNat b, UInt8.ofNat c] := by
  unfold encode
  have : a = 224 ∨ 225 ≤ a := by omega
  have : 2048 ≤ (a - 224) * 4096 + (b - 128) * 64 + (c - 128) := by
    rcases this with h1 | h1
    · have := h h1
      omega
    · omega
  rw [if_neg (by omega), if_neg (by omega), if_pos (by omega),
    show 0xE0 + ((a - 224) * 4096 + (b - 128) * 64 + (c - 128)) / 4096 = a by omega,
    show 0x80 + ((a - 224) * 4096 + (b - 128) * 64 + (c - 128)) / 64 % 64 = b by omega,
    show 0x80 + ((a - 224) * 4096 + (b - 128) * 64 + (c - 128)) % 64 = c by omega]

theorem textOK_sound : ∀ {fuel n : Nat}, textOK fuel n = true → IsText (unpack n) := by
  intro fuel
  induction fuel with
  | zero => intro n h; simp [textOK] at h
  | succ fuel ih =>
    intro n h
    rw [textOK] at h
    simp only [mod_def, div_def, Bool.cond_eq_ite] at h
    by_cases hn : n = 0
    · subst hn; rw [unpack_zero]; exact isText_nil
    · rw [if_neg (by rw [beq_false hn]; simp)] at h
      have e1 := unpack_pos hn
      split at h
      · rename_i h1
        have h1 := Nat.le_of_ble_eq_true h1
        rw [e1]
        have := isText_cons (r := n % 256) (.inl (by omega)) (ih h)
        rwa [Punycode.encode_small (by omega)] at this
      · rename_i h1
        have h1 : ¬ n % 256 ≤ 127 := fun h => h1 (Nat.ble_eq_true_of_le h)
        split at h
        · rename_i h2
          have h2 := Nat.le_of_ble_eq_true h2
          split at h
          · rename_i h3
            have h3 := Nat.le_of_ble_eq_true h3
            split at h
            · rename_i h4
              have h4 := contByte_sound h4
              rw [e1, unpack_pos (n := n / 256) (by omega), show n / 256 / 256 = n / 65536 by omega]
              have := isText_cons (r := (n % 256 - 192) * 64 + (n / 256 % 256 - 128)) (.inl (by omega)) (ih h)
              rwa [encode_two h3 h2 h4.1 h4.2] at this
            · simp at h
          · simp at h
        · rename_i h2
          have h2 : ¬ n % 256 ≤ 223 := fun h => h2 (Nat.ble_eq_true_of_le h)
          split at h
          · rename_i h3
            have h3 := Nat.le_of_ble_eq_true h3
            split at h
            · rename_i h4
              have h4 := contByte_sound h4
              split at h
              · rename_i h5
                have h5 := contByte_sound h5
                have key : (n % 256 = 224 → 160 ≤ n / 256 % 256) ∧ (n % 256 = 237 → n / 256 % 256 ≤ 159) ∧ textOK fuel (n / 16777216) = true := by
                  split at h
                  · rename_i h6
                    have h6 := Nat.eq_of_beq_eq_true h6
                    split at h
                    · rename_i h7
                      exact ⟨fun _ => Nat.le_of_ble_eq_true h7, fun h => by omega, h⟩
                    · simp at h
                  · rename_i h6
                    have h6 : n % 256 ≠ 224 := fun e => h6 (by rw [e]; rfl)
                    split at h
                    · rename_i h7
                      split at h
                      · rename_i h8
                        exact ⟨fun h => by omega, fun _ => Nat.le_of_ble_eq_true h8, h⟩
                      · simp at h
                    · rename_i h7
                      have h7 : n % 256 ≠ 237 := fun e => h7 (by rw [e]; rfl)
                      exact ⟨fun h => by omega, fun h => by omega, h⟩
                obtain ⟨k1, k2, k3⟩ := key
                rw [e1, unpack_pos (n := n / 256) (by omega), unpack_pos (n := n / 256 / 256) (by omega),
                  show n / 256 / 256 / 256 = n / 16777216 by omega, show n / 256 / 256 = n / 65536 by omega]
                have := isText_cons (r := (n % 256 - 224) * 4096 + (n / 256 % 256 - 128) * 64 + (n / 65536 % 256 - 128)) ?_ (ih k3)
                · rwa [encode_three (by omega) h3 h4.1 h4.2 h5.1 h5.2 k1] at this
                · have : n % 256 ≤ 236 ∨ n % 256 = 237 ∨ 238 ≤ n % 256 := by omega
                  unfold IsScalar
                  rcases this with h | h | h
                  · exact .inl (by omega)
                  · have := k2 h
                    exact .inl (by omega)
                  · exact .inr (by omega)
              · simp at h
            · simp at h
          · simp at h

theorem asciiOK_sound : ∀ {fuel n : Nat}, asciiOK fuel n = true → ∀ b ∈ unpack n, b < 128 := by
  intro fuel
  induction fuel with
  | zero => intro n h; simp [asciiOK] at h
  | succ fuel ih =>
    intro n h
    rw [asciiOK] at h
    simp only [mod_def, div_def, Bool.cond_eq_ite] at h
    by_cases hn : n = 0
    · subst hn; rw [unpack_zero]; simp
    · rw [if_neg (by rw [beq_false hn]; simp)] at h
      split at h
      · rename_i h1
        have h1 := Nat.le_of_ble_eq_true h1
        rw [unpack_pos hn]
        intro b hb
        rcases List.mem_cons.1 hb with rfl | hb
        · rw [UInt8.lt_iff_toNat_lt, UInt8.toNat_ofNat']
          simp only [UInt8.reduceToNat]
          omega
        · exact ih h b hb
      · simp at h

theorem lineText_sound {n : Nat} (h : lineText n = true) (hr : isRule n = true) :
    IsText (unpack n) ∧ (∀ s, unpack n = 33 :: s → ∀ b ∈ unpack n, b < 128) := by
  unfold lineText at h
  rw [hr, cond_true] at h
  simp only [mod_def, Bool.cond_eq_ite] at h
  split at h
  · rename_i h1
    refine ⟨textOK_sound h1, fun s e => ?_⟩
    have hn : n ≠ 0 := by rintro rfl; rw [unpack_zero] at e; simp at e
    rw [unpack_pos hn] at e
    simp only [List.cons.injEq] at e
    have := congrArg UInt8.toNat e.1
    simp at this
    rw [if_pos (by rw [show n % 256 = 33 by omega]; rfl)] at h
    exact asciiOK_sound h
  · simp at h

/-! ## Labels of texts -/

theorem isText_iff {s : Bytes} : IsText s ↔ ∀ t ∈ toks s, IsScalar t.1 ∧ t.2 = encode t.1 := by
  constructor
  · rintro ⟨cs, h, rfl⟩
    induction cs with
    | nil => simp
    | cons c cs ih =>
      rw [List.flatMap_cons, toks_encode (h c (by simp))]
      intro t ht
      rcases List.mem_cons.1 ht with rfl | ht
      · exact ⟨h c (by simp), rfl⟩
      · exact ih (fun c hc => h c (by simp [hc])) t ht
  · intro h
    refine ⟨(toks s).map Prod.fst, ?_, ?_⟩
    · intro c hc
      obtain ⟨t, ht, rfl⟩ := List.mem_map.1 hc
      exact (h t ht).1
    · conv => lhs; rw [← flat_toks s]
      unfold flat
      rw [List.flatMap_map]
      generalize toks s = ts at h
      induction ts with
      | nil => rfl
      | cons t ts ih =>
        rw [List.flatMap_cons, List.flatMap_cons, ih (fun t ht => h t (by simp [ht])), (h t (by simp)).2]

theorem isText_dot {a b : Bytes} (h : IsText (a ++ 46 :: b)) : IsText a ∧ IsText b := by
  rw [isText_iff] at h
  have e := toks_append_encode a (r := 46) (by decide) b
  rw [show a ++ encode 46 ++ b = a ++ 46 :: b by simp [show encode 46 = [46] by decide]] at e
  rw [e] at h
  exact ⟨isText_iff.2 fun t ht => h t (by simp [ht]), isText_iff.2 fun t ht => h t (by simp [ht])⟩

theorem isText_labels {r : Bytes} {ls : List Bytes} (hl : IsLabels r ls) (h : IsText r) : ∀ l ∈ ls, IsText l := by
  obtain ⟨-, -, rfl⟩ := hl
  induction ls with
  | nil => simp
  | cons a ls ih =>
    cases ls with
    | nil =>
      rw [intercalate_singleton] at h
      simpa using h
    | cons b ls =>
      rw [intercalate_cons_cons, List.append_assoc, List.singleton_append] at h
      obtain ⟨h1, h2⟩ := isText_dot h
      intro l hl
      rcases List.mem_cons.1 hl with rfl | hl
      · exact h1
      · exact ih h2 l hl

end Fasttld.Inv
