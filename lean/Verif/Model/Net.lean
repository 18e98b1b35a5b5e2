import Verif.Model.Strings

/-!
# net.go: IP address recognition
-/

namespace Fasttld

/-- net.go:6-10 -/
def iPv4len : Nat := 4
/-- net.go:6-10 -/
def iPv6len : Nat := 16
/-- net.go:9 -/
def lenDiff : Nat := iPv6len - iPv4len
/-- net.go:13 -/
def big : Nat := 0xFFFFFF

/-- Loop of net.go:19-24 and the code after it; `s` is the rest from index `i`.
`s[i]` is bounded by the loop header.  `n` stays below 10*big+9, so Go's `int` does not overflow. -/
def dtoiLoop : Bytes → Nat → Nat → Nat × Nat × Bool
  | [], n, i => if i = 0 then (0, 0, false) else (n, i, true)
  | c :: rest, n, i =>
    if 48 ≤ c.toNat ∧ c.toNat ≤ 57 then
      if n * 10 + (c.toNat - 48) ≥ big then (big, i, false)
      else dtoiLoop rest (n * 10 + (c.toNat - 48)) (i + 1)
    else if i = 0 then (0, 0, false) else (n, i, true)

/-- net.go:17-29 `dtoi`: number, characters consumed, success. -/
def dtoi (s : Bytes) : Nat × Nat × Bool := dtoiLoop s 0 0

/-- The digit value used in net.go:36-47, if `c` is a hexadecimal digit. -/
def hexVal (c : UInt8) : Option Nat :=
  if 48 ≤ c.toNat ∧ c.toNat ≤ 57 then some (c.toNat - 48)
  else if 97 ≤ c.toNat ∧ c.toNat ≤ 102 then some (c.toNat - 97 + 10)
  else if 65 ≤ c.toNat ∧ c.toNat ≤ 70 then some (c.toNat - 65 + 10)
  else none

/-- Loop of net.go:35-51 and the code after it. -/
def xtoiLoop : Bytes → Nat → Nat → Nat × Nat × Bool
  | [], n, i => if i = 0 then (0, i, false) else (n, i, true)
  | c :: rest, n, i =>
    match hexVal c with
    | some d =>
      if n * 16 + d ≥ big then (0, i, false)
      else xtoiLoop rest (n * 16 + d) (i + 1)
    | none => if i = 0 then (0, i, false) else (n, i, true)

/-- net.go:33-56 `xtoi`: number, characters consumed, success. -/
def xtoi (s : Bytes) : Nat × Nat × Bool := xtoiLoop s 0 0

/-- Loop of net.go:63-84, iteration `i` of `iPv4len`, and line 85; `k` iterations remain. -/
def isIPv4Loop : (k : Nat) → (i : Nat) → Bytes → Go Bool
  | 0, _, s => .ok (s.length = 0)                                            -- :85
  | k + 1, i, s =>
    if s.length = 0 then .ok false                                           -- :64-67
    else
      let d := decodeRune s
      if i > 0 && !labelSeparatorsRuneSet.exists d.1 then .ok false          -- :70-72
      else
        (if i > 0 then slice s d.2 s.length else .ok s) >>= fun s' =>        -- :73
        let r := dtoi s'
        if r.2.2 = false ∨ r.1 > 0xFF then .ok false                         -- :76-78
        else
          (if r.2.1 > 1 then index s' 0 else .ok 0) >>= fun b0 =>            -- :79 (short-circuit &&)
          if r.2.1 > 1 ∧ b0 = 48 then .ok false
          else (slice s' r.2.1 s'.length) >>= fun s'' => isIPv4Loop k (i + 1) s''  -- :83

/-- net.go:61-86 `isIPv4`. -/
def isIPv4 (s : Bytes) : Go Bool :=
  (fastTrim s labelSeparatorsRuneSet .trimRight) >>= fun t => isIPv4Loop iPv4len 0 t

/-- Code after the loop of `isIPv6`, net.go:158-172. -/
def isIPv6Finish (s : Bytes) (i : Nat) (ellipsis : Int) : Bool :=
  if s.length ≠ 0 then false
  else if i < iPv6len then (if ellipsis < 0 then false else true)
  else if ellipsis ≥ 0 then false
  else true

/-- `labelSeparatorsRuneSet.Exists([]rune(t)[0])` of net.go:113: faults on the empty string. -/
def firstIsSeparator (t : Bytes) : Go Bool :=
  match rangeString t with
  | [] => .error .indexRange
  | (_, c) :: _ => .ok (labelSeparatorsRuneSet.exists c)

/-- Loop of net.go:105-155; `fuel` bounds the iterations. -/
def isIPv6Loop : (fuel : Nat) → Bytes → (i : Nat) → (ellipsis : Int) → Go Bool
  | 0, _, _, _ => .error .outOfFuel
  | fuel + 1, s, i, ellipsis =>
    if i < iPv6len then
      let r := xtoi s
      if r.2.2 = false ∨ r.1 > 0xFFFF then .ok false                         -- :107-110
      else
        -- :113 `c < len(s) && labelSeparatorsRuneSet.Exists([]rune(s[c:])[0])`
        (if r.2.1 < s.length then
           (slice s r.2.1 s.length) >>= fun t => firstIsSeparator t
         else .ok false) >>= fun isSep =>
        if isSep then
          if ellipsis < 0 ∧ i ≠ lenDiff then .ok false                       -- :114-117
          else if i > lenDiff then .ok false                                 -- :118-121
          else (isIPv4 s) >>= fun ok4 =>
            if !ok4 then .ok false                                           -- :122-124
            else .ok (isIPv6Finish [] (i + iPv4len) ellipsis)                -- :125-127
        else
          (slice s r.2.1 s.length) >>= fun s1 =>                             -- :134
          if s1.length = 0 then .ok (isIPv6Finish s1 (i + 2) ellipsis)       -- :135-137
          else (index s1 0) >>= fun c0 =>
            if c0 ≠ 58 ∨ s1.length = 1 then .ok false                        -- :140-142
            else (slice s1 1 s1.length) >>= fun s2 =>                        -- :143
              (index s2 0) >>= fun c1 =>                                     -- :146
              if c1 = 58 then
                if ellipsis ≥ 0 then .ok false                               -- :147-149
                else (slice s2 1 s2.length) >>= fun s3 =>                    -- :151
                  if s3.length = 0 then .ok (isIPv6Finish s3 (i + 2) ((i : Int) + 2)) -- :152-154
                  else isIPv6Loop fuel s3 (i + 2) ((i : Int) + 2)
              else isIPv6Loop fuel s2 (i + 2) ellipsis
    else .ok (isIPv6Finish s i ellipsis)

/-- net.go:90-173 `isIPv6`.  Nine iterations suffice because `i` grows by 2 up to 16. -/
def isIPv6 (s : Bytes) : Go Bool :=
  if s.length ≥ 2 then
    (index s 0) >>= fun c0 => (index s 1) >>= fun c1 =>
    if c0 = 58 ∧ c1 = 58 then                                                -- :94
      (slice s 2 s.length) >>= fun s' =>                                     -- :96
      if s'.length = 0 then .ok true                                         -- :98-100
      else isIPv6Loop 9 s' 0 0
    else isIPv6Loop 9 s 0 (-1)
  else isIPv6Loop 9 s 0 (-1)

end Fasttld
