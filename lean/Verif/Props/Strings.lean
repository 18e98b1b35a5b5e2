import Verif.Proofs.Reverse
import Verif.Proofs.Sets
import Verif.Proofs.Trim
import Verif.Proofs.Invalid

/-!
# C32-C35: string helpers
-/

namespace Fasttld.Props
open Fasttld Fasttld.Spec

/-- C32: a set built from the code points `chars` contains a byte iff it is ASCII and among them; in
particular no byte of a multi-byte character. -/
theorem C32_asciiSet_exact (chars : List Nat) (c : UInt8) :
    (makeASCIISet chars).contains c = true ↔ c.toNat < 128 ∧ c.toNat ∈ chars := by
  rw [contains_makeASCIISet]; simp

-- non-vacuity: 'k' put in; U+006B + 256 is not confused with it; a byte above 127 never is
example : (makeASCIISet [0x6B, 0x3F]).contains 0x6B = true ∧ (makeASCIISet [0x16B]).contains 0x6B = false ∧
    (makeASCIISet [0xE3]).contains 0xE3 = false := by decide

/-- C33: for every byte string, valid UTF-8 or not, `fastTrim` does not fault and returns the one text
left after removing the maximal runs of trim characters at the ends the mode asks for.  Missing: sets with
U+FFFD, with which invalid bytes are removed too (`C33_counterexample`); the library has no such set. -/
theorem C33_fastTrim_exact_partial (set : List Nat) (hset : ∀ r ∈ set, IsScalar r ∧ r ≠ 0xFFFD) (s : Bytes)
    (mode : TrimMode) :
    (∃ t, fastTrim s set mode = .ok t ∧
      IsTrim (mode != .trimRight) (mode != .trimLeft) set s t) ∧
    ∀ t, IsTrim (mode != .trimRight) (mode != .trimLeft) set s t → fastTrim s set mode = .ok t := by
  have h1 : (mode != .trimRight) = trimsLeft mode := by cases mode <;> rfl
  have h2 : (mode != .trimLeft) = trimsRight mode := by cases mode <;> rfl
  rw [h1, h2]
  exact ⟨fastTrim_isTrim hset s mode, fun t h => fastTrim_of_isTrim hset h⟩

/-- With U+FFFD to trim, a byte that is not valid UTF-8 is removed, although it is not the character. -/
theorem C33_counterexample : fastTrim [0xFF] [0xFFFD] .trimBoth = .ok [] ∧ encode 0xFFFD ≠ [0xFF] := by decide +kernel

-- non-vacuity: spaces around a byte that is invalid UTF-8
example : IsTrim true true [0x20, 0x3000] (b! "  " ++ [0xFF] ++ [0xE3, 0x80, 0x80]) [0xFF] := by
  refine ⟨b! "  ", [0xE3, 0x80, 0x80], rfl, ⟨[0x20, 0x20], by decide, by decide⟩, ⟨[0x3000], by decide, by decide⟩,
    by decide, by decide, ?_, ?_⟩
  · intro _ r hr; simp at hr; rcases hr with rfl | rfl <;> decide
  · intro _ r hr; simp at hr; rcases hr with rfl | rfl <;> decide

/-- C34: `lastIndexAny` finds the last offset at which the encoding of a member occurs, or returns -1 if
there is none, on every byte string. -/
theorem C34_lastIndexAny_exact (set : List Nat) (hset : ∀ r ∈ set, IsScalar r ∧ r ≠ 0xFFFD) (s : Bytes) :
    ((∀ r ∈ set, ∀ i, ¬ OccursAt s r i) ∧ lastIndexAny s set = .ok (-1)) ∨
    ∃ r ∈ set, ∃ i : Nat, OccursAt s r i ∧ (∀ r' ∈ set, ∀ j, OccursAt s r' j → j ≤ i) ∧
      lastIndexAny s set = .ok i := by
  rcases lastIndexAny_spec hset s with ⟨h1, h2⟩ | ⟨p, q, r, hr, rfl, hq, h2⟩
  · left
    refine ⟨?_, h2⟩
    rintro r hr i ⟨p, q, rfl, -⟩
    exact h1 r hr ⟨p, q, rfl⟩
  · right
    refine ⟨r, hr, p.length, ⟨p, q, rfl, rfl⟩, ?_, h2⟩
    rintro r' hr' j ⟨p', q', he, rfl⟩
    rcases Nat.lt_or_ge p.length p'.length with hlt | hge
    · exfalso
      -- the later occurrence starts inside the character at `p` or lies in `q`
      have hp' : p' = (p ++ encode r ++ q).take p'.length := by rw [he]; simp
      rcases Nat.lt_or_ge p'.length (p ++ encode r).length with hin | hout
      · -- starts strictly inside `encode r`: impossible by self-synchronisation
        exact no_occurrence_inside (hset r hr).1 (hset r' hr').1 he.symm hlt (by simpa using hin)
      · have : q = q.take (p'.length - (p ++ encode r).length) ++ (encode r' ++ q') := by
          have hd := congrArg (List.drop p'.length) he
          rw [List.append_assoc p' (encode r') q', List.drop_left' rfl, List.drop_append,
            List.drop_eq_nil_of_le hout, List.nil_append] at hd
          rw [← hd, List.take_append_drop]
        exact hq r' hr' ⟨_, q', by rw [List.append_assoc]; exact this.symm⟩
    · exact hge

-- non-vacuity: found after invalid bytes; a stray tail byte of a separator is not found
example : lastIndexAny ([0xFF] ++ encode 0x3002 ++ b! "a") [0x2E, 0x3002] = .ok 1 ∧
    lastIndexAny [0x80, 0x82] [0x2E, 0x3002] = .ok (-1) := by decide

/-- C35: `reverse` keeps the length and puts at position `i` what was at the mirrored position; applying
it twice gives the original back. -/
theorem C35_reverse_mirrors (l : List Bytes) :
    (reverse l).length = l.length ∧
    (∀ i, i < l.length → (reverse l)[i]? = l[l.length - 1 - i]?) ∧
    reverse (reverse l) = l := by
  rw [reverse_eq]
  refine ⟨by simp, fun i hi => ?_, by rw [reverse_eq]; simp⟩
  rw [List.getElem?_reverse hi]

example : reverse [b! "us", b! "gov", b! "pl"] = [b! "pl", b! "gov", b! "us"] := by decide

/-- C48: the character check accepts exactly the byte strings (valid UTF-8 or not) without a hyphen at either end, without
a separator at the start, without two separators in a row, and without an invalid character, where U+FF61 does not count as
a separator and U+0378, U+206B, U+2A74 do not count as invalid. -/
theorem C48_character_check (s : Bytes) :
    hasInvalidChars s = false ↔
      ¬ encode 45 <+: s ∧ ¬ encode 45 <:+ s ∧
      (∀ a ∈ [0x2E, 0x3002, 0xFF0E], ¬ encode a <+: s) ∧
      (∀ a ∈ [0x2E, 0x3002, 0xFF0E], ∀ b ∈ [0x2E, 0x3002, 0xFF0E], ¬ encode a ++ encode b <:+: s) ∧
      ∀ c ∈ invalidChars, c ∉ [0x0378, 0x206b, 0x2a74] → ¬ encode c <:+: s :=
  hasInvalidChars_false_iff s

-- each condition matters, and invalid UTF-8 is no reason to reject
example : hasInvalidChars (b! "-a") = true ∧ hasInvalidChars (b! "a-") = true ∧ hasInvalidChars (b! ".a") = true ∧
    hasInvalidChars (b! "a" ++ encode 0x3002 ++ b! ".b") = true ∧ hasInvalidChars (b! "a_b") = true ∧
    hasInvalidChars (b! "a.-b-.c." ++ [0xFF]) = false ∧ hasInvalidChars (b! "a." ++ encode 0xFF61 ++ encode 0x206b) = false := by
  decide +kernel

end Fasttld.Props
