import Verif.Model.Fallback
import Verif.Proofs.InventoryMore

/-!
# The labels of the rules of the built-in list, checked

Generated by tools/gen_inventory.py.
-/

namespace Fasttld.Inv

theorem labelsPublic00 : allL lineLabels 0 fallbackPublic00 = true := by decide +kernel
theorem labelsPublic01 : allL lineLabels 0 fallbackPublic01 = true := by decide +kernel
theorem labelsPublic02 : allL lineLabels 0 fallbackPublic02 = true := by decide +kernel
theorem labelsPublic03 : allL lineLabels 0 fallbackPublic03 = true := by decide +kernel
theorem labelsPublic04 : allL lineLabels 0 fallbackPublic04 = true := by decide +kernel
theorem labelsPublic05 : allL lineLabels 0 fallbackPublic05 = true := by decide +kernel
theorem labelsPublic06 : allL lineLabels 0 fallbackPublic06 = true := by decide +kernel
theorem labelsPublic07 : allL lineLabels 0 fallbackPublic07 = true := by decide +kernel
theorem labelsPublic08 : allL lineLabels 0 fallbackPublic08 = true := by decide +kernel
theorem labelsPublic09 : allL lineLabels 0 fallbackPublic09 = true := by decide +kernel
theorem labelsPublic10 : allL lineLabels 0 fallbackPublic10 = true := by decide +kernel
theorem labelsPublic11 : allL lineLabels 0 fallbackPublic11 = true := by decide +kernel
theorem labelsPublic12 : allL lineLabels 0 fallbackPublic12 = true := by decide +kernel
theorem labelsPublic13 : allL lineLabels 0 fallbackPublic13 = true := by decide +kernel
theorem labelsPublic14 : allL lineLabels 0 fallbackPublic14 = true := by decide +kernel
theorem labelsPublic15 : allL lineLabels 0 fallbackPublic15 = true := by decide +kernel
theorem labelsPublic16 : allL lineLabels 0 fallbackPublic16 = true := by decide +kernel
theorem labelsPublic17 : allL lineLabels 0 fallbackPublic17 = true := by decide +kernel
theorem labelsPublic18 : allL lineLabels 0 fallbackPublic18 = true := by decide +kernel
theorem labelsPublic19 : allL lineLabels 0 fallbackPublic19 = true := by decide +kernel
theorem labelsPublic20 : allL lineLabels 0 fallbackPublic20 = true := by decide +kernel
theorem labelsPublic21 : allL lineLabels 0 fallbackPublic21 = true := by decide +kernel
theorem labelsPublic22 : allL lineLabels 0 fallbackPublic22 = true := by decide +kernel
theorem labelsPublic23 : allL lineLabels 0 fallbackPublic23 = true := by decide +kernel
theorem labelsPublic24 : allL lineLabels 0 fallbackPublic24 = true := by decide +kernel
theorem labelsPublic25 : allL lineLabels 0 fallbackPublic25 = true := by decide +kernel
theorem labelsPublic26 : allL lineLabels 0 fallbackPublic26 = true := by decide +kernel
theorem labelsPublic27 : allL lineLabels 0 fallbackPublic27 = true := by decide +kernel
theorem labelsPublic28 : allL lineLabels 0 fallbackPublic28 = true := by decide +kernel
theorem labelsPublic29 : allL lineLabels 0 fallbackPublic29 = true := by decide +kernel
theorem labelsPublic30 : allL lineLabels 0 fallbackPublic30 = true := by decide +kernel
theorem labelsPublic31 : allL lineLabels 0 fallbackPublic31 = true := by decide +kernel
theorem labelsPublic32 : allL lineLabels 0 fallbackPublic32 = true := by decide +kernel
theorem labelsPublic33 : allL lineLabels 0 fallbackPublic33 = true := by decide +kernel
theorem labelsPublic34 : allL lineLabels 0 fallbackPublic34 = true := by decide +kernel
theorem labelsPublic35 : allL lineLabels 0 fallbackPublic35 = true := by decide +kernel
theorem labelsPublic36 : allL lineLabels 0 fallbackPublic36 = true := by decide +kernel
theorem labelsPublic37 : allL lineLabels 0 fallbackPublic37 = true := by decide +kernel

theorem labelsPublic : AllOK lineLabels [fallbackPublic00, fallbackPublic01, fallbackPublic02, fallbackPublic03, fallbackPublic04, fallbackPublic05, fallbackPublic06, fallbackPublic07, fallbackPublic08, fallbackPublic09, fallbackPublic10, fallbackPublic11, fallbackPublic12, fallbackPublic13, fallbackPublic14, fallbackPublic15, fallbackPublic16, fallbackPublic17, fallbackPublic18, fallbackPublic19, fallbackPublic20, fallbackPublic21, fallbackPublic22, fallbackPublic23, fallbackPublic24, fallbackPublic25, fallbackPublic26, fallbackPublic27, fallbackPublic28, fallbackPublic29, fallbackPublic30, fallbackPublic31, fallbackPublic32, fallbackPublic33, fallbackPublic34, fallbackPublic35, fallbackPublic36, fallbackPublic37] :=
  ⟨labelsPublic00, labelsPublic01, labelsPublic02, labelsPublic03, labelsPublic04, labelsPublic05, labelsPublic06, labelsPublic07, labelsPublic08, labelsPublic09, labelsPublic10, labelsPublic11, labelsPublic12, labelsPublic13, labelsPublic14, labelsPublic15, labelsPublic16, labelsPublic17, labelsPublic18, labelsPublic19, labelsPublic20, labelsPublic21, labelsPublic22, labelsPublic23, labelsPublic24, labelsPublic25, labelsPublic26, labelsPublic27, labelsPublic28, labelsPublic29, labelsPublic30, labelsPublic31, labelsPublic32, labelsPublic33, labelsPublic34, labelsPublic35, labelsPublic36, labelsPublic37, trivial⟩

theorem labelsPrivate00 : allL lineLabels 0 fallbackPrivate00 = true := by decide +kernel
theorem labelsPrivate01 : allL lineLabels 0 fallbackPrivate01 = true := by decide +kernel
theorem labelsPrivate02 : allL lineLabels 0 fallbackPrivate02 = true := by decide +kernel
theorem labelsPrivate03 : allL lineLabels 0 fallbackPrivate03 = true := by decide +kernel
theorem labelsPrivate04 : allL lineLabels 0 fallbackPrivate04 = true := by decide +kernel
theorem labelsPrivate05 : allL lineLabels 0 fallbackPrivate05 = true := by decide +kernel
theorem labelsPrivate06 : allL lineLabels 0 fallbackPrivate06 = true := by decide +kernel
theorem labelsPrivate07 : allL lineLabels 0 fallbackPrivate07 = true := by decide +kernel
theorem labelsPrivate08 : allL lineLabels 0 fallbackPrivate08 = true := by decide +kernel
theorem labelsPrivate09 : allL lineLabels 0 fallbackPrivate09 = true := by decide +kernel
theorem labelsPrivate10 : allL lineLabels 0 fallbackPrivate10 = true := by decide +kernel
theorem labelsPrivate11 : allL lineLabels 0 fallbackPrivate11 = true := by decide +kernel
theorem labelsPrivate12 : allL lineLabels 0 fallbackPrivate12 = true := by decide +kernel
theorem labelsPrivate13 : allL lineLabels 0 fallbackPrivate13 = true := by decide +kernel
theorem labelsPrivate14 : allL lineLabels 0 fallbackPrivate14 = true := by decide +kernel

theorem labelsPrivate : AllOK lineLabels [fallbackPrivate00, fallbackPrivate01, fallbackPrivate02, fallbackPrivate03, fallbackPrivate04, fallbackPrivate05, fallbackPrivate06, fallbackPrivate07, fallbackPrivate08, fallbackPrivate09, fallbackPrivate10, fallbackPrivate11, fallbackPrivate12, fallbackPrivate13, fallbackPrivate14] :=
  ⟨labelsPrivate00, labelsPrivate01, labelsPrivate02, labelsPrivate03, labelsPrivate04, labelsPrivate05, labelsPrivate06, labelsPrivate07, labelsPrivate08, labelsPrivate09, labelsPrivate10, labelsPrivate11, labelsPrivate12, labelsPrivate13, labelsPrivate14, trivial⟩

end Fasttld.Inv
