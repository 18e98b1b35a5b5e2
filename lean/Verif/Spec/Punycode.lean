import Verif.Model.Utf8
import Verif.Spec.Utf8

/-!
# Specification: Punycode

RFC 3492: how a sequence of code points is written with letters, digits and hyphens, and read back.  Loops of the RFC have
a bound here that is never reached.  The limits on overflow (section 6.4) are left out: numbers are unbounded.

This is what `idna.ToASCII` of golang.org/x/net does to each label that is not in ASCII (called at psl.go:38).
-/

namespace Fasttld.Spec.Punycode
open Fasttld

/-- The threshold of the digit at place `k` = 36, 72, … (sections 3.3 and 5, with `tmin` = 1 and `tmax` = 26). -/
def threshold (bias k : Nat) : Nat := if k ≤ bias then 1 else if bias + 26 ≤ k then 26 else k - bias

/-- The digits are `a` to `z` and `0` to `9` (section 5). -/
def digit (d : Nat) : UInt8 := if d < 26 then UInt8.ofNat (97 + d) else UInt8.ofNat (22 + d)

/-- The value of a digit; 36 if it is none. -/
def value (b : UInt8) : Nat :=
  if 97 ≤ b.toNat ∧ b.toNat ≤ 122 then b.toNat - 97
  else if 65 ≤ b.toNat ∧ b.toNat ≤ 90 then b.toNat - 65
  else if 48 ≤ b.toNat ∧ b.toNat ≤ 57 then b.toNat - 22
  else 36

/-- The loop of section 6.1. -/
def divide : (bound delta k : Nat) → Nat
  | 0, delta, k => k + 36 * delta / (delta + 38)
  | bound + 1, delta, k => if 455 < delta then divide bound (delta / 35) (k + 36) else k + 36 * delta / (delta + 38)

/-- Bias adaptation (section 6.1, with `skew` = 38 and `damp` = 700). -/
def adapt (delta points : Nat) (first : Bool) : Nat :=
  let d := if first then delta / 700 else delta / 2
  divide d (d + d / points) 0

/-! ## Writing -/

/-- A number as a sequence of digits, the first at place `k` (section 3.3). -/
def number (bias : Nat) : (bound q k : Nat) → Bytes
  | 0, _, _ => []
  | bound + 1, q, k =>
    let t := threshold bias k
    if q < t then [digit q] else digit (t + (q - t) % (36 - t)) :: number bias bound ((q - t) / (36 - t)) (k + 36)

/-- Numbers, each with the bias that those before it give; `h` code points are written already (section 6.3). -/
def numbers : (ds : List Nat) → (bias h : Nat) → (first : Bool) → Bytes
  | [], _, _, _ => []
  | d :: ds, bias, h, first => number bias (d + 1) d 36 ++ numbers ds (adapt d (h + 1) first) (h + 1) false

/-- The inner loop of section 6.3, for the code point `n`: the numbers it writes, and `delta` and `h` after it. -/
def scan (n : Nat) : List Nat → (delta h : Nat) → List Nat × Nat × Nat
  | [], delta, h => ([], delta, h)
  | c :: cs, delta, h =>
    if c < n then scan n cs (delta + 1) h
    else if c = n then
      let r := scan n cs 0 (h + 1)
      (delta :: r.1, r.2)
    else scan n cs delta h

/-- The outer loop of section 6.3: the numbers that are written. -/
def deltas (cs : List Nat) : (bound n delta h : Nat) → List Nat
  | 0, _, _, _ => []
  | bound + 1, n, delta, h =>
    match (cs.filter (fun c => n ≤ c)).min? with
    | none => []
    | some m =>
      let r := scan m cs (delta + (m - n) * (h + 1)) h
      r.1 ++ deltas cs bound (m + 1) (r.2.1 + 1) r.2.2

/-- The code points below 128, a hyphen unless there are none, and the numbers for the others (section 6.3, with
`initial_n` = 128 and `initial_bias` = 72). -/
def encode (cs : List Nat) : Bytes :=
  let basic := cs.filter (fun c => c < 128)
  basic.map UInt8.ofNat ++ (if basic = [] then [] else [45]) ++
    numbers (deltas cs cs.length 128 0 basic.length) 72 basic.length true

/-! ## Reading -/

/-- Read one number; the digit at place `k` has the weight `w` (section 6.2). -/
def readNumber (bias : Nat) : Bytes → (k w i : Nat) → Option (Nat × Bytes)
  | [], _, _, _ => none
  | b :: bs, k, w, i =>
    if 36 ≤ value b then none
    else if value b < threshold bias k then some (i + value b * w, bs)
    else readNumber bias bs (k + 36) (w * (36 - threshold bias k)) (i + value b * w)

/-- Read numbers up to the end. -/
def readNumbers : (bound : Nat) → Bytes → (bias h : Nat) → (first : Bool) → Option (List Nat)
  | _, [], _, _, _ => some []
  | 0, _ :: _, _, _, _ => none
  | bound + 1, b :: bs, bias, h, first => do
    let (d, rest) ← readNumber bias (b :: bs) 36 1 0
    return d :: (← readNumbers bound rest (adapt d (h + 1) first) (h + 1) false)

/-- Insert the code points that the numbers stand for (section 6.2). -/
def insertAll : (ds : List Nat) → (n i : Nat) → (out : List Nat) → List Nat
  | [], _, _, out => out
  | d :: ds, n, i, out =>
    let m := n + (i + d) / (out.length + 1)
    let j := (i + d) % (out.length + 1)
    insertAll ds m (j + 1) (out.take j ++ m :: out.drop j)

/-- What is before the last hyphen, and what is after it. -/
def splitLast (s : Bytes) : Bytes × Bytes :=
  let after := (s.reverse.takeWhile (· ≠ 45)).reverse
  (s.take (s.length - after.length - 1), after)

/-- The code points that are written as `s`. -/
def decode (s : Bytes) : Option (List Nat) := do
  let (basic, rest) := splitLast s
  let ds ← readNumbers rest.length rest 72 basic.length true
  return insertAll ds 128 0 (basic.map UInt8.toNat)

/-! ## Labels -/

/-- The code points of a text in UTF-8, as Go's `for _, r := range s` gives them: U+FFFD for every byte that does not
belong to a valid encoding. -/
def codePointsFrom : (bound : Nat) → Bytes → List Nat
  | 0, _ => []
  | _, [] => []
  | bound + 1, b :: t => (decodeRune (b :: t)).1 :: codePointsFrom bound (t.drop ((decodeRune (b :: t)).2 - 1))

def codePoints (s : Bytes) : List Nat := codePointsFrom s.length s

/-- A label in ASCII: unchanged if it is in ASCII already (RFC 5890, section 2.3.2.1). -/
def label (l : Bytes) : Bytes := if ∀ b ∈ l, b < 128 then l else b! "xn--" ++ encode (codePoints l)

/-- `l` is a text in UTF-8. -/
def IsText (l : Bytes) : Prop := ∃ cs : List Nat, (∀ c ∈ cs, IsScalar c) ∧ l = cs.flatMap Spec.encode

end Fasttld.Spec.Punycode
