import Verif.Model.FallbackPublic
import Verif.Model.FallbackPrivate

/-!
# fallback.go: the built-in list
-/

namespace Fasttld

/-- The lines of `hardcodedPSL`, as numbers. -/
noncomputable def fallbackLines : List Nat := fallbackPublicParts.flatten ++ fallbackPrivateParts.flatten

/-- fallback.go:9-15701 `hardcodedPSL`. -/
noncomputable def hardcodedPSL : Bytes := List.intercalate [10] (fallbackLines.map unpack)

end Fasttld
