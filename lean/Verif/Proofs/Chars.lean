import Verif.Spec.Chars
import Verif.Spec.Utf8
import Verif.Proofs.Sets
import Verif.Proofs.Utf8

/-!
# The character sets of strings.go are the classes of the specification
-/

namespace Fasttld
open Spec

theorem forall_byte {P : UInt8 → Prop} (h : ∀ n, n < 256 → P (UInt8.ofNat n)) (c : UInt8) : P c := by
  have := h c.toNat c.toNat_lt
  simpa using this

theorem contains_alnum (c : UInt8) : alphaNumericSet.contains c = (isLetter c || isDigit c) := by
  rw [alphaNumericSet, contains_makeASCIISet]
  exact forall_byte (P := fun c => (decide (c.toNat < 128) && (alphabets ++ numbers).contains c.toNat)
    = (isLetter c || isDigit c)) (by decide +kernel) c

theorem contains_numeric (c : UInt8) : numericSet.contains c = isDigit c := by
  rw [numericSet, contains_makeASCIISet]
  exact forall_byte (P := fun c => (decide (c.toNat < 128) && numbers.contains c.toNat)
    = isDigit c) (by decide +kernel) c

theorem contains_pathStart (c : UInt8) : endOfHostWithPortDelimitersSet.contains c = isPathStart c := by
  rw [endOfHostWithPortDelimitersSet, contains_makeASCIISet]
  exact forall_byte (P := fun c => (decide (c.toNat < 128) && endOfHostWithPortDelimiters.contains c.toNat)
    = isPathStart c) (by decide +kernel) c

theorem contains_hostEnd (c : UInt8) : endOfHostDelimitersSet.contains c = isHostEnd c := by
  rw [endOfHostDelimitersSet, contains_makeASCIISet]
  exact forall_byte (P := fun c => (decide (c.toNat < 128) && endOfHostDelimiters.contains c.toNat)
    = isHostEnd c) (by decide +kernel) c

theorem contains_userInfoStop (c : UInt8) : invalidUserInfoCharsSet.contains c = isUserInfoStop c := by
  rw [invalidUserInfoCharsSet, contains_makeASCIISet]
  exact forall_byte (P := fun c => (decide (c.toNat < 128) && invalidUserInfoChars.contains c.toNat)
    = isUserInfoStop c) (by decide +kernel) c

theorem contains_schemeFirst (c : UInt8) : schemeFirstCharSet.contains c = isLetter c := by
  rw [schemeFirstCharSet, contains_makeASCIISet]
  exact forall_byte (P := fun c => (decide (c.toNat < 128) && alphabets.contains c.toNat)
    = isLetter c) (by decide +kernel) c

theorem contains_schemeChar (c : UInt8) : schemeRemainingCharSet.contains c = isSchemeChar c := by
  rw [schemeRemainingCharSet, contains_makeASCIISet]
  exact forall_byte (P := fun c => (decide (c.toNat < 128)
      && (alphabets ++ numbers ++ codes (b! "+-.")).contains c.toNat)
    = isSchemeChar c) (by decide +kernel) c

theorem contains_slash (c : UInt8) : slashes.contains c = isSlash c := by
  rw [slashes, contains_makeASCIISet]
  exact forall_byte (P := fun c => (decide (c.toNat < 128) && (codes (b! "/\\")).contains c.toNat)
    = isSlash c) (by decide +kernel) c

theorem labelSeparators_eq : labelSeparatorsRuneSet = separators := rfl

theorem whitespace_eq : whitespaceRuneSet = whiteSpace := by decide +kernel

end Fasttld
