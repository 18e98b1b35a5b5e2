import Verif.Proofs.Refine

/-!
# C01: Extract never panics and always terminates
-/

namespace Fasttld.Props
open Fasttld Fasttld.Spec

/-- C01: for every byte string as URL, all options, every trie and every behaviour of the IDNA library,
`Extract` returns: no slice or index is out of range and no loop exceeds its bound. -/
theorem C01_extract_returns (idna : Idna) (trie : Trie) (e : URLParams) :
    ∃ r err, extract idna trie e = .ok (r, err) := ⟨_, _, extract_eq idna trie e⟩

-- the fault branches are real: the same operations do fault on bad arguments
example : slice (b! "abc") 2 1 = .error .sliceBounds ∧ slice (b! "abc") 0 (-1) = .error .sliceBounds ∧
    index (b! "abc") 3 = .error .indexRange ∧
    lastIndexAnyLoop (b! "abc") [46] 2 3 = .error .outOfFuel := by decide

end Fasttld.Props
