import Verif.Proofs.LoadWork
import Verif.Proofs.Decide

/-!
# C71: reading a list is linear in its length, and so is the memory for it

psl.go:30-100 and fasttld.go:85-139, with the counts of Model/LoadWork.lean.
-/

namespace Fasttld.Props
open Fasttld Fasttld.Spec Trie

/-- The functions that count build the trie that trieConstruct builds. -/
theorem C71_same (idna : Idna) (priv : Bool) (text : Bytes) : (trieOfTextC idna priv text).val = trieOfText idna priv text :=
  trieOfTextC_val idna priv text

/-- If `idna.ToASCII` writes at most `c` bytes for one, the number of steps is linear in the length of the text. -/
theorem C71_linear (idna : Idna) (c : Nat) (hc : ∀ s a, idna.toASCII s = some a → a.length ≤ c * s.length) (priv : Bool)
    (text : Bytes) : (trieOfTextC idna priv text).n ≤ (9 * c + 27) * (text.length + 1) :=
  trieOfTextC_n idna c hc priv text

/-- The trie has one node for every different sequence of labels in which a rule ends, and the root.  `l` lists them. -/
theorem C71_nodes (rules : List Bytes) (l : List (List Bytes)) (hl : l.Nodup)
    (hm : ∀ p, p ∈ l ↔ p ≠ [] ∧ PrefixAt rules p) : (buildTrie rules).size = 1 + l.length := by
  have h1 : ([] :: l).Nodup := by
    rw [List.nodup_cons]
    exact ⟨fun h => ((hm []).1 h).1 rfl, hl⟩
  have h2 := nodup_length_eq (paths_nodup _ (buildTrie_uniq rules)) h1 (by
    intro p
    rw [mem_buildTrie_paths, List.mem_cons, hm]
    by_cases hp : p = []
    · simp [hp]
    · simp [hp])
  rw [paths_length] at h2
  simp at h2
  omega

/-- So the order of the rules and repeated rules make no difference to the number of nodes. -/
theorem C71_nodes_same (rules rules' : List Bytes) (h : ∀ r, r ∈ rules ↔ r ∈ rules') :
    (buildTrie rules).size = (buildTrie rules').size := by
  have hp : ∀ p, PrefixAt rules p ↔ PrefixAt rules' p := by
    intro p
    unfold PrefixAt RuleAt
    simp only [h]
  have := nodup_length_eq (paths_nodup _ (buildTrie_uniq rules)) (paths_nodup _ (buildTrie_uniq rules')) (by
    intro p
    rw [mem_buildTrie_paths, mem_buildTrie_paths, hp])
  rwa [paths_length, paths_length] at this

/-- The number of nodes is linear in the length of the text. -/
theorem C71_memory (idna : Idna) (c : Nat) (hc : ∀ s a, idna.toASCII s = some a → a.length ≤ c * s.length) (priv : Bool)
    (text : Bytes) : (trieOfText idna priv text).size ≤ 1 + (c + 2) * (text.length + 1) := by
  have h1 := used_weight idna c hc priv text
  have h2 := buildTrie_size (if priv then (parsePSL idna text).allSuffixes else (parsePSL idna text).publicSuffixes)
  unfold trieOfText
  simp only
  omega

/-! ## Concrete cases -/

private def i1 : Idna := ⟨some, some, fun _ => none⟩

example : ∀ s a, i1.toASCII s = some a → a.length ≤ 1 * s.length := by
  intro s a h
  cases h
  omega

/-- The root, `uk`, `co`, `com`. -/
example : (buildTrie [b! "uk", b! "co.uk", b! "com", b! "com"]).size = 4 := by decide +kernel
example : (buildTrie [b! "com", b! "co.uk"]).size = 4 := by decide +kernel
example : (trieOfTextC i1 true (b! "// c\ncom\nco.uk\n")).n = 138 := by decide +kernel
example : (trieOfTextC i1 true (b! "// c\ncom\nco.uk\n")).val.size = 4 := by decide +kernel
example : PrefixAt [b! "co.uk"] [b! "uk"] := by decide +kernel

/-- Comments and the private section cost time, but no nodes. -/
example : (trieOfTextC i1 false (b! "com\n// ===BEGIN PRIVATE DOMAINS===\nco.uk\n")).val.size = 2 := by decide +kernel

/-- 128 rules of one label, then the last one 120 times more: the number of labels in a node does not count. -/
private def wide : Bytes :=
  ((List.range 128).flatMap fun i => [UInt8.ofNat (128 + i), 10]) ++ ((List.replicate 120 [255, 10] : List Bytes).flatten)

example : (trieOfTextC i1 true wide).n ≤ 36 * (wide.length + 1) ∧ (trieOfTextC i1 true wide).val.size = 129 := by decide +kernel

end Fasttld.Props
