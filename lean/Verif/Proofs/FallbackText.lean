import Verif.Model.Fallback
import Verif.Proofs.InventoryText

/-!
# The lines of the built-in list are texts in UTF-8, checked

Generated by tools/gen_inventory.py.
-/

namespace Fasttld.Inv

theorem textPublic00 : allL lineText 0 fallbackPublic00 = true := by decide +kernel
theorem textPublic01 : allL lineText 0 fallbackPublic01 = true := by decide +kernel
theorem textPublic02 : allL lineText 0 fallbackPublic02 = true := by decide +kernel
theorem textPublic03 : allL lineText 0 fallbackPublic03 = true := by decide +kernel
theorem textPublic04 : allL lineText 0 fallbackPublic04 = true := by decide +kernel
theorem textPublic05 : allL lineText 0 fallbackPublic05 = true := by decide +kernel
theorem textPublic06 : allL lineText 0 fallbackPublic06 = true := by decide +kernel
theorem textPublic07 : allL lineText 0 fallbackPublic07 = true := by decide +kernel
theorem textPublic08 : allL lineText 0 fallbackPublic08 = true := by decide +kernel
theorem textPublic09 : allL lineText 0 fallbackPublic09 = true := by decide +kernel
theorem textPublic10 : allL lineText 0 fallbackPublic10 = true := by decide +kernel
theorem textPublic11 : allL lineText 0 fallbackPublic11 = true := by decide +kernel
theorem textPublic12 : allL lineText 0 fallbackPublic12 = true := by decide +kernel
theorem textPublic13 : allL lineText 0 fallbackPublic13 = true := by decide +kernel
theorem textPublic14 : allL lineText 0 fallbackPublic14 = true := by decide +kernel
theorem textPublic15 : allL lineText 0 fallbackPublic15 = true := by decide +kernel
theorem textPublic16 : allL lineText 0 fallbackPublic16 = true := by decide +kernel
theorem textPublic17 : allL lineText 0 fallbackPublic17 = true := by decide +kernel
theorem textPublic18 : allL lineText 0 fallbackPublic18 = true := by decide +kernel
theorem textPublic19 : allL lineText 0 fallbackPublic19 = true := by decide +kernel
theorem textPublic20 : allL lineText 0 fallbackPublic20 = true := by decide +kernel
theorem textPublic21 : allL lineText 0 fallbackPublic21 = true := by decide +kernel
theorem textPublic22 : allL lineText 0 fallbackPublic22 = true := by decide +kernel
theorem textPublic23 : allL lineText 0 fallbackPublic23 = true := by decide +kernel
theorem textPublic24 : allL lineText 0 fallbackPublic24 = true := by decide +kernel
theorem textPublic25 : allL lineText 0 fallbackPublic25 = true := by decide +kernel
theorem textPublic26 : allL lineText 0 fallbackPublic26 = true := by decide +kernel
theorem textPublic27 : allL lineText 0 fallbackPublic27 = true := by decide +kernel
theorem textPublic28 : allL lineText 0 fallbackPublic28 = true := by decide +kernel
theorem textPublic29 : allL lineText 0 fallbackPublic29 = true := by decide +kernel
theorem textPublic30 : allL lineText 0 fallbackPublic30 = true := by decide +kernel
theorem textPublic31 : allL lineText 0 fallbackPublic31 = true := by decide +kernel
theorem textPublic32 : allL lineText 0 fallbackPublic32 = true := by decide +kernel
theorem textPublic33 : allL lineText 0 fallbackPublic33 = true := by decide +kernel
theorem textPublic34 : allL lineText 0 fallbackPublic34 = true := by decide +kernel
theorem textPublic35 : allL lineText 0 fallbackPublic35 = true := by decide +kernel
theorem textPublic36 : allL lineText 0 fallbackPublic36 = true := by decide +kernel
theorem textPublic37 : allL lineText 0 fallbackPublic37 = true := by decide +kernel

theorem textPublic : AllOK lineText [fallbackPublic00, fallbackPublic01, fallbackPublic02, fallbackPublic03, fallbackPublic04, fallbackPublic05, fallbackPublic06, fallbackPublic07, fallbackPublic08, fallbackPublic09, fallbackPublic10, fallbackPublic11, fallbackPublic12, fallbackPublic13, fallbackPublic14, fallbackPublic15, fallbackPublic16, fallbackPublic17, fallbackPublic18, fallbackPublic19, fallbackPublic20, fallbackPublic21, fallbackPublic22, fallbackPublic23, fallbackPublic24, fallbackPublic25, fallbackPublic26, fallbackPublic27, fallbackPublic28, fallbackPublic29, fallbackPublic30, fallbackPublic31, fallbackPublic32, fallbackPublic33, fallbackPublic34, fallbackPublic35, fallbackPublic36, fallbackPublic37] :=
  ⟨textPublic00, textPublic01, textPublic02, textPublic03, textPublic04, textPublic05, textPublic06, textPublic07, textPublic08, textPublic09, textPublic10, textPublic11, textPublic12, textPublic13, textPublic14, textPublic15, textPublic16, textPublic17, textPublic18, textPublic19, textPublic20, textPublic21, textPublic22, textPublic23, textPublic24, textPublic25, textPublic26, textPublic27, textPublic28, textPublic29, textPublic30, textPublic31, textPublic32, textPublic33, textPublic34, textPublic35, textPublic36, textPublic37, trivial⟩

theorem textPrivate00 : allL lineText 0 fallbackPrivate00 = true := by decide +kernel
theorem textPrivate01 : allL lineText 0 fallbackPrivate01 = true := by decide +kernel
theorem textPrivate02 : allL lineText 0 fallbackPrivate02 = true := by decide +kernel
theorem textPrivate03 : allL lineText 0 fallbackPrivate03 = true := by decide +kernel
theorem textPrivate04 : allL lineText 0 fallbackPrivate04 = true := by decide +kernel
theorem textPrivate05 : allL lineText 0 fallbackPrivate05 = true := by decide +kernel
theorem textPrivate06 : allL lineText 0 fallbackPrivate06 = true := by decide +kernel
theorem textPrivate07 : allL lineText 0 fallbackPrivate07 = true := by decide +kernel
theorem textPrivate08 : allL lineText 0 fallbackPrivate08 = true := by decide +kernel
theorem textPrivate09 : allL lineText 0 fallbackPrivate09 = true := by decide +kernel
theorem textPrivate10 : allL lineText 0 fallbackPrivate10 = true := by decide +kernel
theorem textPrivate11 : allL lineText 0 fallbackPrivate11 = true := by decide +kernel
theorem textPrivate12 : allL lineText 0 fallbackPrivate12 = true := by decide +kernel
theorem textPrivate13 : allL lineText 0 fallbackPrivate13 = true := by decide +kernel
theorem textPrivate14 : allL lineText 0 fallbackPrivate14 = true := by decide +kernel

theorem textPrivate : AllOK lineText [fallbackPrivate00, fallbackPrivate01, fallbackPrivate02, fallbackPrivate03, fallbackPrivate04, fallbackPrivate05, fallbackPrivate06, fallbackPrivate07, fallbackPrivate08, fallbackPrivate09, fallbackPrivate10, fallbackPrivate11, fallbackPrivate12, fallbackPrivate13, fallbackPrivate14] :=
  ⟨textPrivate00, textPrivate01, textPrivate02, textPrivate03, textPrivate04, textPrivate05, textPrivate06, textPrivate07, textPrivate08, textPrivate09, textPrivate10, textPrivate11, textPrivate12, textPrivate13, textPrivate14, trivial⟩

end Fasttld.Inv
