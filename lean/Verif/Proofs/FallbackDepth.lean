import Verif.Model.Fallback
import Verif.Proofs.InventoryDepth

/-!
# The number of labels of the rules of the built-in list, checked

Generated by tools/gen_inventory.py.
-/

namespace Fasttld.Inv

theorem dotsPublic00 : allL (lineDots 3) 0 fallbackPublic00 = true := by decide +kernel
theorem dotsPublic01 : allL (lineDots 3) 0 fallbackPublic01 = true := by decide +kernel
theorem dotsPublic02 : allL (lineDots 3) 0 fallbackPublic02 = true := by decide +kernel
theorem dotsPublic03 : allL (lineDots 3) 0 fallbackPublic03 = true := by decide +kernel
theorem dotsPublic04 : allL (lineDots 3) 0 fallbackPublic04 = true := by decide +kernel
theorem dotsPublic05 : allL (lineDots 3) 0 fallbackPublic05 = true := by decide +kernel
theorem dotsPublic06 : allL (lineDots 3) 0 fallbackPublic06 = true := by decide +kernel
theorem dotsPublic07 : allL (lineDots 3) 0 fallbackPublic07 = true := by decide +kernel
theorem dotsPublic08 : allL (lineDots 3) 0 fallbackPublic08 = true := by decide +kernel
theorem dotsPublic09 : allL (lineDots 3) 0 fallbackPublic09 = true := by decide +kernel
theorem dotsPublic10 : allL (lineDots 3) 0 fallbackPublic10 = true := by decide +kernel
theorem dotsPublic11 : allL (lineDots 3) 0 fallbackPublic11 = true := by decide +kernel
theorem dotsPublic12 : allL (lineDots 3) 0 fallbackPublic12 = true := by decide +kernel
theorem dotsPublic13 : allL (lineDots 3) 0 fallbackPublic13 = true := by decide +kernel
theorem dotsPublic14 : allL (lineDots 3) 0 fallbackPublic14 = true := by decide +kernel
theorem dotsPublic15 : allL (lineDots 3) 0 fallbackPublic15 = true := by decide +kernel
theorem dotsPublic16 : allL (lineDots 3) 0 fallbackPublic16 = true := by decide +kernel
theorem dotsPublic17 : allL (lineDots 3) 0 fallbackPublic17 = true := by decide +kernel
theorem dotsPublic18 : allL (lineDots 3) 0 fallbackPublic18 = true := by decide +kernel
theorem dotsPublic19 : allL (lineDots 3) 0 fallbackPublic19 = true := by decide +kernel
theorem dotsPublic20 : allL (lineDots 3) 0 fallbackPublic20 = true := by decide +kernel
theorem dotsPublic21 : allL (lineDots 3) 0 fallbackPublic21 = true := by decide +kernel
theorem dotsPublic22 : allL (lineDots 3) 0 fallbackPublic22 = true := by decide +kernel
theorem dotsPublic23 : allL (lineDots 3) 0 fallbackPublic23 = true := by decide +kernel
theorem dotsPublic24 : allL (lineDots 3) 0 fallbackPublic24 = true := by decide +kernel
theorem dotsPublic25 : allL (lineDots 3) 0 fallbackPublic25 = true := by decide +kernel
theorem dotsPublic26 : allL (lineDots 3) 0 fallbackPublic26 = true := by decide +kernel
theorem dotsPublic27 : allL (lineDots 3) 0 fallbackPublic27 = true := by decide +kernel
theorem dotsPublic28 : allL (lineDots 3) 0 fallbackPublic28 = true := by decide +kernel
theorem dotsPublic29 : allL (lineDots 3) 0 fallbackPublic29 = true := by decide +kernel
theorem dotsPublic30 : allL (lineDots 3) 0 fallbackPublic30 = true := by decide +kernel
theorem dotsPublic31 : allL (lineDots 3) 0 fallbackPublic31 = true := by decide +kernel
theorem dotsPublic32 : allL (lineDots 3) 0 fallbackPublic32 = true := by decide +kernel
theorem dotsPublic33 : allL (lineDots 3) 0 fallbackPublic33 = true := by decide +kernel
theorem dotsPublic34 : allL (lineDots 3) 0 fallbackPublic34 = true := by decide +kernel
theorem dotsPublic35 : allL (lineDots 3) 0 fallbackPublic35 = true := by decide +kernel
theorem dotsPublic36 : allL (lineDots 3) 0 fallbackPublic36 = true := by decide +kernel
theorem dotsPublic37 : allL (lineDots 3) 0 fallbackPublic37 = true := by decide +kernel

theorem dotsPublic : AllOK (lineDots 3) [fallbackPublic00, fallbackPublic01, fallbackPublic02, fallbackPublic03, fallbackPublic04, fallbackPublic05, fallbackPublic06, fallbackPublic07, fallbackPublic08, fallbackPublic09, fallbackPublic10, fallbackPublic11, fallbackPublic12, fallbackPublic13, fallbackPublic14, fallbackPublic15, fallbackPublic16, fallbackPublic17, fallbackPublic18, fallbackPublic19, fallbackPublic20, fallbackPublic21, fallbackPublic22, fallbackPublic23, fallbackPublic24, fallbackPublic25, fallbackPublic26, fallbackPublic27, fallbackPublic28, fallbackPublic29, fallbackPublic30, fallbackPublic31, fallbackPublic32, fallbackPublic33, fallbackPublic34, fallbackPublic35, fallbackPublic36, fallbackPublic37] :=
  ⟨dotsPublic00, dotsPublic01, dotsPublic02, dotsPublic03, dotsPublic04, dotsPublic05, dotsPublic06, dotsPublic07, dotsPublic08, dotsPublic09, dotsPublic10, dotsPublic11, dotsPublic12, dotsPublic13, dotsPublic14, dotsPublic15, dotsPublic16, dotsPublic17, dotsPublic18, dotsPublic19, dotsPublic20, dotsPublic21, dotsPublic22, dotsPublic23, dotsPublic24, dotsPublic25, dotsPublic26, dotsPublic27, dotsPublic28, dotsPublic29, dotsPublic30, dotsPublic31, dotsPublic32, dotsPublic33, dotsPublic34, dotsPublic35, dotsPublic36, dotsPublic37, trivial⟩

theorem dotsPrivate00 : allL (lineDots 6) 0 fallbackPrivate00 = true := by decide +kernel
theorem dotsPrivate01 : allL (lineDots 6) 0 fallbackPrivate01 = true := by decide +kernel
theorem dotsPrivate02 : allL (lineDots 6) 0 fallbackPrivate02 = true := by decide +kernel
theorem dotsPrivate03 : allL (lineDots 6) 0 fallbackPrivate03 = true := by decide +kernel
theorem dotsPrivate04 : allL (lineDots 6) 0 fallbackPrivate04 = true := by decide +kernel
theorem dotsPrivate05 : allL (lineDots 6) 0 fallbackPrivate05 = true := by decide +kernel
theorem dotsPrivate06 : allL (lineDots 6) 0 fallbackPrivate06 = true := by decide +kernel
theorem dotsPrivate07 : allL (lineDots 6) 0 fallbackPrivate07 = true := by decide +kernel
theorem dotsPrivate08 : allL (lineDots 6) 0 fallbackPrivate08 = true := by decide +kernel
theorem dotsPrivate09 : allL (lineDots 6) 0 fallbackPrivate09 = true := by decide +kernel
theorem dotsPrivate10 : allL (lineDots 6) 0 fallbackPrivate10 = true := by decide +kernel
theorem dotsPrivate11 : allL (lineDots 6) 0 fallbackPrivate11 = true := by decide +kernel
theorem dotsPrivate12 : allL (lineDots 6) 0 fallbackPrivate12 = true := by decide +kernel
theorem dotsPrivate13 : allL (lineDots 6) 0 fallbackPrivate13 = true := by decide +kernel
theorem dotsPrivate14 : allL (lineDots 6) 0 fallbackPrivate14 = true := by decide +kernel

theorem dotsPrivate : AllOK (lineDots 6) [fallbackPrivate00, fallbackPrivate01, fallbackPrivate02, fallbackPrivate03, fallbackPrivate04, fallbackPrivate05, fallbackPrivate06, fallbackPrivate07, fallbackPrivate08, fallbackPrivate09, fallbackPrivate10, fallbackPrivate11, fallbackPrivate12, fallbackPrivate13, fallbackPrivate14] :=
  ⟨dotsPrivate00, dotsPrivate01, dotsPrivate02, dotsPrivate03, dotsPrivate04, dotsPrivate05, dotsPrivate06, dotsPrivate07, dotsPrivate08, dotsPrivate09, dotsPrivate10, dotsPrivate11, dotsPrivate12, dotsPrivate13, dotsPrivate14, trivial⟩

end Fasttld.Inv
