import Verif.Proofs.FactsRules
import Verif.Proofs.InventoryMore

/-!
# The number of labels in a line
-/

set_option linter.unusedSimpArgs false

namespace Fasttld.Inv
open Fasttld Fasttld.Spec

/-- At most `d` dots. -/
def dotsWithin : Nat → Nat → Nat → Bool
  | 0, _, _ => false
  | fuel + 1, d, n =>
    bif Nat.beq n 0 then true
    else bif Nat.beq (Nat.mod n 256) 46 then
      bif Nat.beq d 0 then false else dotsWithin fuel (Nat.pred d) (Nat.div n 256)
    else dotsWithin fuel d (Nat.div n 256)

theorem dotsWithin_sound : ∀ {fuel d n : Nat}, dotsWithin fuel d n = true → (unpack n).count 46 ≤ d
  | 0, _, _, h => by simp [dotsWithin] at h
  | fuel + 1, d, n, h => by
    unfold dotsWithin at h
    simp only [mod_def, div_def, Bool.cond_eq_ite] at h
    split at h
    · rename_i h0
      obtain rfl := Nat.eq_of_beq_eq_true h0
      rw [unpack_zero]; simp
    · rename_i h0
      have hn : n ≠ 0 := by rintro rfl; exact h0 rfl
      rw [unpack_pos hn, List.count_cons]
      split at h
      · split at h
        · simp at h
        · rename_i h1
          have hd : d ≠ 0 := by rintro rfl; exact h1 rfl
          have := dotsWithin_sound h
          simp only [Nat.pred_eq_sub_one] at this
          split <;> omega
      · rename_i h1
        have h2 : n % 256 ≠ 46 := by intro hc; rw [hc] at h1; exact h1 rfl
        have := dotsWithin_sound h
        have h3 : UInt8.ofNat (n % 256) ≠ 46 := by
          intro hc
          have := congrArg UInt8.toNat hc
          simp at this
          omega
        rw [if_neg (by simpa using h3)]
        exact this

/-- A rule has at most `d` labels after the first. -/
def lineDots (d n : Nat) : Bool := bif isRule n then dotsWithin 200 d n else true

theorem lineDots_sound {d n : Nat} (h : lineDots d n = true) (hr : isRule n = true) : (unpack n).count 46 ≤ d := by
  unfold lineDots at h
  rw [hr] at h
  exact dotsWithin_sound h

theorem revLabels_length (r : Bytes) : (revLabels r).length = r.count 46 + 1 := by
  unfold revLabels
  rw [List.length_reverse]
  induction r with
  | nil => rfl
  | cons c r ih =>
    unfold splitByte
    rw [List.count_cons]
    by_cases hc : c = 46
    · rw [if_pos hc, if_pos (by simpa using hc), List.length_cons, ih]
    · rw [if_neg hc, if_neg (by simpa using hc), Nat.add_zero]
      cases hs : splitByte 46 r with
      | nil => rw [hs] at ih; simp at ih
      | cons w ws => rw [hs] at ih; simpa using ih

end Fasttld.Inv
