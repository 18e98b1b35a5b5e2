import Verif.Proofs.InventoryMore

/-!
# Lines that do not end in a digit, and lines that end in `za`
-/

set_option linter.unusedSimpArgs false

namespace Fasttld.Inv
open Fasttld Fasttld.Spec

/-- The last byte, `c` if there are no more, is not a digit. -/
def lastNoDigit : Nat → Nat → Nat → Bool
  | 0, _, _ => false
  | fuel + 1, c, n =>
    bif Nat.beq n 0 then bif Nat.ble 48 c then Nat.ble 58 c else true else lastNoDigit fuel (Nat.mod n 256) (Nat.div n 256)

theorem lastNoDigit_sound : ∀ {fuel c n : Nat}, lastNoDigit fuel c n = true → c < 256 →
    ∀ b, (UInt8.ofNat c :: unpack n).getLast? = some b → isDigit b = false
  | 0, _, _, h, _, _, _ => by simp [lastNoDigit] at h
  | fuel + 1, c, n, h, hc, b, hb => by
    unfold lastNoDigit at h
    simp only [mod_def, div_def, Bool.cond_eq_ite] at h
    split at h
    · rename_i h0
      obtain rfl := Nat.eq_of_beq_eq_true h0
      rw [unpack_zero] at hb
      simp at hb
      subst hb
      have hc' : c < 48 ∨ 58 ≤ c := by
        split at h
        · exact .inr (Nat.le_of_ble_eq_true h)
        · rename_i h1
          left
          refine Nat.lt_of_not_le fun h2 => h1 (Nat.ble_eq_true_of_le h2)
      have : ∀ c < 256, c < 48 ∨ 58 ≤ c → isDigit (UInt8.ofNat c) = false := by decide +kernel
      exact this c hc hc'
    · rename_i h0
      have hn : n ≠ 0 := by rintro rfl; exact h0 rfl
      rw [unpack_pos hn, List.getLast?_cons_cons] at hb
      exact lastNoDigit_sound h (Nat.mod_lt _ (by omega)) b hb

/-- The text is in ASCII if it ends in `za`; `c` and `d` are the last two bytes so far, `hi` says that one was not in ASCII. -/
def zaAscii : Nat → Nat → Nat → Bool → Nat → Bool
  | 0, _, _, _, _ => false
  | fuel + 1, c, d, hi, n =>
    bif Nat.beq n 0 then bif hi then bif Nat.beq c 122 then not (Nat.beq d 97) else true else true
    else zaAscii fuel d (Nat.mod n 256) (bif hi then true else Nat.ble 128 (Nat.mod n 256)) (Nat.div n 256)

theorem zaAscii_sound : ∀ {fuel c d n : Nat} {hi : Bool}, zaAscii fuel c d hi n = true → c < 256 → d < 256 →
    (hi = true ∨ ∃ b ∈ unpack n, ¬ b < 128) → ¬ (b! "za") <:+ (UInt8.ofNat c :: UInt8.ofNat d :: unpack n)
  | 0, _, _, _, _, h, _, _, _ => by simp [zaAscii] at h
  | fuel + 1, c, d, n, hi, h, hc, hd, hh => by
    unfold zaAscii at h
    simp only [mod_def, div_def, Bool.cond_eq_ite] at h
    split at h
    · rename_i h0
      obtain rfl := Nat.eq_of_beq_eq_true h0
      rw [unpack_zero] at hh ⊢
      have hh : hi = true := by simpa using hh
      subst hh
      rintro ⟨t, ht⟩
      have e := congrArg List.length ht
      have : t = [] := List.eq_nil_of_length_eq_zero (by simpa using e)
      subst this
      have key : ∀ c < 256, ∀ d < 256, (UInt8.ofNat c = 122 → c = 122) ∧ (UInt8.ofNat d = 97 → d = 97) := by
        intro c hc d hd
        have : ∀ c < 256, (UInt8.ofNat c = 122 → c = 122) ∧ (UInt8.ofNat c = 97 → c = 97) := by decide +kernel
        exact ⟨(this c hc).1, (this d hd).2⟩
      have ht : (122 : UInt8) = UInt8.ofNat c ∧ (97 : UInt8) = UInt8.ofNat d := by simpa using ht
      have h1 := (key c hc d hd).1 ht.1.symm
      have h2 := (key c hc d hd).2 ht.2.symm
      subst h1 h2
      simp at h
    · rename_i h0
      have hn : n ≠ 0 := by rintro rfl; exact h0 rfl
      have hm : n % 256 < 256 := Nat.mod_lt _ (by omega)
      have next := zaAscii_sound h hd hm
      rw [unpack_pos hn] at hh ⊢
      intro hs
      refine next ?_ ?_
      · rcases hh with rfl | ⟨b, hb, hb'⟩
        · simp
        · rcases List.mem_cons.1 hb with rfl | hb
          · left
            have key : ∀ c < 256, ¬ UInt8.ofNat c < 128 → 128 ≤ c := by decide +kernel
            have := Nat.ble_eq_true_of_le (key _ hm hb')
            rw [this]; simp
          · exact .inr ⟨b, hb, hb'⟩
      · rcases List.suffix_cons_iff.1 hs with h | h
        · have := congrArg List.length h
          simp at this
        · exact h

/-- A rule does not end in a digit, and is in ASCII if it ends in `za`. -/
def lineTop (n : Nat) : Bool := bif isRule n then bif lastNoDigit 200 0 n then zaAscii 200 0 0 false n else false else true

theorem lineTop_sound {n : Nat} (h : lineTop n = true) (hr : isRule n = true) :
    ∀ b, (unpack n).getLast? = some b → isDigit b = false := by
  unfold lineTop at h
  rw [hr] at h
  simp only [Bool.cond_eq_ite, if_true] at h
  split at h
  · rename_i h0
    intro b hb
    refine lastNoDigit_sound (c := 0) h0 (by omega) b ?_
    cases hu : unpack n with
    | nil => rw [hu] at hb; simp at hb
    | cons x t => rw [List.getLast?_cons_cons, ← hu]; exact hb
  · simp at h

theorem lineTop_za {n : Nat} (h : lineTop n = true) (hr : isRule n = true) {t : Bytes} (hz : unpack n = t ++ b! "za") :
    ∀ b ∈ unpack n, b < 128 := by
  unfold lineTop at h
  rw [hr] at h
  simp only [Bool.cond_eq_ite, if_true] at h
  split at h
  · refine fun b hb => Classical.byContradiction fun hlt => ?_
    refine zaAscii_sound h (by omega) (by omega) (.inr ⟨b, hb, hlt⟩) ?_
    rw [hz]
    exact ⟨UInt8.ofNat 0 :: UInt8.ofNat 0 :: t, rfl⟩
  · simp at h

end Fasttld.Inv
