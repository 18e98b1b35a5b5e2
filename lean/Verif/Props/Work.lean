import Verif.Proofs.Work

/-!
# C70: the work of Extract is linear in the length of the URL

fasttld.go:142-400 and what it calls in strings.go and net.go, with the counts of Model/Work.lean.
-/

namespace Fasttld.Props
open Fasttld Trie

/-- The Extract that counts returns what Extract returns. -/
theorem C70_same (idna : Idna) (t : Trie) (e : URLParams) : (extractC idna t e).val = extractM idna t e :=
  extractC_val idna t e

/-- Without ConvertURLToPunyCode: whatever the list and the URL, and whatever `idna` says. -/
theorem C70_linear (idna : Idna) (t : Trie) (e : URLParams) (he : e.convertURLToPunyCode = false) :
    work idna t e ≤ 48 * e.url.length + 13 := by
  have := extractC_n idna t e e.url.length (by
    intro host v u hl hv
    unfold stageIdna at hv
    cases hq : queryUnescape host with
    | error esc => rw [hq] at hv; cases hv
    | ok x =>
      rw [hq] at hv
      simp only [he, Bool.false_eq_true, if_false] at hv
      cases hi : idna.toUnicodeErr x with
      | some m => rw [hi] at hv; cases hv
      | none => rw [hi] at hv; cases hv; exact hl)
  unfold work
  omega

/-- With ConvertURLToPunyCode the text that `idna.Lookup.ToASCII` returns counts too.  It is asked for one text only, which
is not longer than the URL. -/
theorem C70_linear_punycode (idna : Idna) (t : Trie) (e : URLParams) (k : Nat)
    (hk : ∀ s a, s.length ≤ e.url.length → idna.lookupASCII s = some a → a.length ≤ k) :
    work idna t e ≤ 33 * e.url.length + 15 * max k e.url.length + 13 := by
  have := extractC_n idna t e (max k e.url.length) (by
    intro host v u hl hv
    unfold stageIdna at hv
    cases hq : queryUnescape host with
    | error esc => rw [hq] at hv; cases hv
    | ok x =>
      have hx := queryUnescape_length hq
      rw [hq] at hv
      simp only at hv
      split at hv
      · cases hv
        unfold formatAsPunycode
        cases ha : idna.lookupASCII x with
        | none => simp
        | some a => have := hk x a (by omega) ha; simp only; omega
      · cases hi : idna.toUnicodeErr x with
        | some m => rw [hi] at hv; cases hv
        | none => rw [hi] at hv; cases hv; omega)
  unfold work
  omega

/-- The suffix loop alone: at most eight steps for a byte of the host, also if it is all separators or all labels of
one character, however deep the list is. -/
theorem C70_walk (t : Trie) (u : ExtractResult) (host : Bytes) :
    (walkLoopC host u (host.length + 2) t false
      { hasSuffix := false, previousSepIdx := 0, sepIdx := host.length, suffixStartIdx := host.length,
        suffixEndIdx := host.length }).n ≤ 8 * host.length + 7 := by
  simpa using walkLoopC_n host u (host.length + 2) t false
    { hasSuffix := false, previousSepIdx := 0, sepIdx := host.length, suffixStartIdx := host.length,
      suffixEndIdx := host.length }

/-! ## Concrete cases: the counts are not zero, and grow with the text -/

/-- The list `uk`, `co.uk`, and `idna` that leaves everything as it is. -/
private def t0 : Trie := .node false [(b! "uk", .node true [(b! "co", .node true [])])]
private def i0 : Idna := ⟨some, some, fun _ => none⟩

example : work i0 t0 { url := [] } = 4 := by decide +kernel
example : work i0 t0 { url := b! "a" } = 19 := by decide +kernel
example : work i0 t0 { url := b! "https://a.co.uk/b" } = 86 := by decide +kernel
example : work i0 t0 { url := b! "https://a.a.a.co.uk/b" } = 115 := by decide +kernel
example : work i0 t0 { url := b! "https://[1:2:3:4:5:6:7:8]:80/" } = 140 := by decide +kernel

/-- Twice as many separators, about twice the work. -/
example : work i0 t0 { url := b! "................" } = 135 ∧ work i0 t0 { url := b! "................................" } = 263 := by
  decide +kernel

/-- The result comes with the count. -/
example : (extractC i0 t0 { url := b! "https://a.co.uk/b" }).val.toOption.map (·.1.registeredDomain) = some (b! "a.co.uk") := by
  decide +kernel

end Fasttld.Props
