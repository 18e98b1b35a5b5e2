import Verif.Proofs.Refine

/-!
# C13, C14: IP address notation
-/

namespace Fasttld.Props
open Fasttld Fasttld.Spec

/-- C14: `isIPv4` never faults and accepts exactly four decimal octets 0..255 without leading zeros,
separated by label separators and followed by any number of label separators. -/
theorem C14_isIPv4_exact (s : Bytes) : ∃ b, isIPv4 s = .ok b ∧ (b = true ↔ IsIPv4 s) := isIPv4_eq s

/-- C13: `isIPv6` never faults and accepts exactly eight 16-bit groups separated by `:`, with at most one
`::` standing for at least one group, where the last two groups may be written in the notation of C14.  Missing:
the claim allows a dotted address only, the code also other separators and separators at the end, and groups padded
with zeros (`C13_wider_than_rfc4291`). -/
theorem C13_isIPv6_exact_partial (s : Bytes) : ∃ b, isIPv6 s = .ok b ∧ (b = true ↔ IsIPv6 IsIPv4 s) := isIPv6_eq s

-- non-vacuity of both languages and of their complements
example : isIPv4 (b! "255.0.10.1") = .ok true ∧ isIPv4 (b! "1。2．3｡4..") = .ok true ∧
    isIPv4 (b! "256.1.1.1") = .ok false ∧ isIPv4 (b! "1.2.3.04") = .ok false ∧
    isIPv4 (b! "1.2.3") = .ok false := by decide +kernel
example : isIPv6 (b! "2001:db8::8a2e:370:7334") = .ok true ∧ isIPv6 (b! "::") = .ok true ∧
    isIPv6 (b! "1:2:3:4:5:6:7.8.9.10") = .ok true ∧ isIPv6 (b! "1:2:3:4:5:6:7:8::") = .ok false ∧
    isIPv6 (b! "1::2::3") = .ok false ∧ isIPv6 (b! "12345::") = .ok false := by decide +kernel

/-- The accepted notation is wider than RFC 4291, section 2.2: a group may have more than four digits if
the extra ones are zeros, and a dotted tail may use other separators and be followed by separators. -/
theorem C13_wider_than_rfc4291 : isIPv6 (b! "00001::") = .ok true ∧ isIPv6 (b! "::1.2.3.4.") = .ok true ∧
    isIPv6 (b! "::1。2.3.4") = .ok true := by decide +kernel

end Fasttld.Props
