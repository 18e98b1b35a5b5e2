import Verif.Model.Sets

/-!
# asciiSet: the bit vector holds exactly the characters put in
-/

namespace Fasttld

theorem bit_test (x : BitVec 32) {j : Nat} (hj : j < 32) :
    ((x &&& (1#32 <<< j)) != 0#32) = x.getLsbD j := by
  cases h : x.getLsbD j with
  | true =>
    rw [bne_iff_ne]
    intro h0
    have := congrArg (fun y => BitVec.getLsbD y j) h0
    simp only [BitVec.getLsbD_and, h, BitVec.getLsbD_shiftLeft, BitVec.getLsbD_one] at this
    simp [hj] at this
  | false =>
    rw [bne_eq_false_iff_eq]
    ext i hi
    simp only [BitVec.getElem_and, BitVec.getElem_zero]
    by_cases hij : i = j
    · subst hij; simp [← BitVec.getLsbD_eq_getElem, h]
    · have : (1#32 <<< j)[i] = false := by
        simp [BitVec.getElem_shiftLeft]
        omega
      simp [this]

theorem contains_eq (as : AsciiSet) (c : UInt8) :
    as.contains c = (as[c.toNat / 32]'(by have := c.toNat_lt; omega)).getLsbD (c.toNat % 32) := by
  unfold AsciiSet.contains
  exact bit_test _ (Nat.mod_lt _ (by omega))

theorem contains_addASCII (as : AsciiSet) (n : Nat) (c : UInt8) :
    (addASCII as n).contains c = (as.contains c || (decide (n < 128) && decide (c.toNat = n))) := by
  rw [contains_eq, contains_eq]
  unfold addASCII
  split
  · rename_i h
    have hc := c.toNat_lt
    by_cases hd : c.toNat / 32 = n / 32
    · simp only [Vector.getElem_set, hd, if_true]
      simp only [BitVec.getLsbD_or, BitVec.getLsbD_shiftLeft, BitVec.getLsbD_one]
      by_cases hm : c.toNat % 32 = n % 32
      · have : c.toNat = n := by omega
        subst this
        simp [h]; try omega
      · have : c.toNat ≠ n := by intro h; subst h; exact hm rfl
        simp [this]; omega
    · rw [Vector.getElem_set_ne _ _ (by omega)]
      have : c.toNat ≠ n := by intro h; subst h; exact hd rfl
      simp [this]
  · rename_i h; simp [h]

theorem contains_foldl (chars : List Nat) (as : AsciiSet) (c : UInt8) :
    (chars.foldl addASCII as).contains c
      = (as.contains c || (decide (c.toNat < 128) && chars.contains c.toNat)) := by
  induction chars generalizing as with
  | nil => simp
  | cons n chars ih =>
    rw [List.foldl_cons, ih, contains_addASCII, List.contains_cons]
    by_cases h : c.toNat = n
    · subst h
      by_cases h2 : c.toNat < 128 <;> simp [h2]
    · have : (c.toNat == n) = false := by simp [h]
      simp [h, this]

theorem contains_makeASCIISet (chars : List Nat) (c : UInt8) :
    (makeASCIISet chars).contains c = (decide (c.toNat < 128) && chars.contains c.toNat) := by
  rw [makeASCIISet, contains_foldl]
  have : AsciiSet.contains (Vector.replicate 8 0#32) c = false := by
    rw [contains_eq]; simp
  simp [this]

end Fasttld
