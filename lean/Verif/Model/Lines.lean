import Lean.Elab.Term
import Verif.Model.Go

/-!
# Long texts as lists of numbers

fallback.go holds 15693 lines in one string literal.  To let the kernel compute with them, a line is written as one
number, its bytes being the digits to the base 256, the first byte the lowest digit.
-/

namespace Fasttld

/-- The digits of `n` to the base 256, lowest first; `fuel ≥ n`. -/
def unpackF : (fuel : Nat) → Nat → Bytes
  | 0, _ => []
  | fuel + 1, n => if n = 0 then [] else UInt8.ofNat (n % 256) :: unpackF fuel (n / 256)

/-- The line given by a number. -/
def unpack (n : Nat) : Bytes := unpackF n n

open Lean Elab Term in
/-- `lines! "text"` is the list of numbers of the lines of a string literal. -/
elab "lines! " s:str : term => do
  let nat := Lean.mkConst ``Nat
  let num (l : String) := mkRawNatLit (l.toUTF8.toList.foldr (fun b n => b.toNat + 256 * n) 0)
  return (s.getString.splitOn "\n").foldr (fun l acc => mkApp3 (Lean.mkConst ``List.cons [.zero]) nat (num l) acc)
    (mkApp (Lean.mkConst ``List.nil [.zero]) nat)

-- the lines of a text and nothing else
example : (lines! "// a\n\n公司.cn").map unpack = [b! "// a", [], b! "公司.cn"] := by decide +kernel

end Fasttld
