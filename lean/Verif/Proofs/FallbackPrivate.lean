import Verif.Model.Fallback
import Verif.Proofs.FallbackTablePublic
import Verif.Proofs.InventoryPrivate

/-!
# The rules of the private section are in harmony with the public ones, checked

Generated by tools/gen_inventory.py.
-/

namespace Fasttld.Inv

/-- `za` -/
def zaLine : Nat := 24954

theorem apart00 : allL (linePriv tablePublic zaLine) 0 fallbackPrivate00 = true := by decide +kernel
theorem apart01 : allL (linePriv tablePublic zaLine) 0 fallbackPrivate01 = true := by decide +kernel
theorem apart02 : allL (linePriv tablePublic zaLine) 0 fallbackPrivate02 = true := by decide +kernel
theorem apart03 : allL (linePriv tablePublic zaLine) 0 fallbackPrivate03 = true := by decide +kernel
theorem apart04 : allL (linePriv tablePublic zaLine) 0 fallbackPrivate04 = true := by decide +kernel
theorem apart05 : allL (linePriv tablePublic zaLine) 0 fallbackPrivate05 = true := by decide +kernel
theorem apart06 : allL (linePriv tablePublic zaLine) 0 fallbackPrivate06 = true := by decide +kernel
theorem apart07 : allL (linePriv tablePublic zaLine) 0 fallbackPrivate07 = true := by decide +kernel
theorem apart08 : allL (linePriv tablePublic zaLine) 0 fallbackPrivate08 = true := by decide +kernel
theorem apart09 : allL (linePriv tablePublic zaLine) 0 fallbackPrivate09 = true := by decide +kernel
theorem apart10 : allL (linePriv tablePublic zaLine) 0 fallbackPrivate10 = true := by decide +kernel
theorem apart11 : allL (linePriv tablePublic zaLine) 0 fallbackPrivate11 = true := by decide +kernel
theorem apart12 : allL (linePriv tablePublic zaLine) 0 fallbackPrivate12 = true := by decide +kernel
theorem apart13 : allL (linePriv tablePublic zaLine) 0 fallbackPrivate13 = true := by decide +kernel
theorem apart14 : allL (linePriv tablePublic zaLine) 0 fallbackPrivate14 = true := by decide +kernel

theorem apart : AllOK (linePriv tablePublic zaLine) [fallbackPrivate00, fallbackPrivate01, fallbackPrivate02, fallbackPrivate03, fallbackPrivate04, fallbackPrivate05, fallbackPrivate06, fallbackPrivate07, fallbackPrivate08, fallbackPrivate09, fallbackPrivate10, fallbackPrivate11, fallbackPrivate12, fallbackPrivate13, fallbackPrivate14] :=
  ⟨apart00, apart01, apart02, apart03, apart04, apart05, apart06, apart07, apart08, apart09, apart10, apart11, apart12, apart13, apart14, trivial⟩

end Fasttld.Inv
