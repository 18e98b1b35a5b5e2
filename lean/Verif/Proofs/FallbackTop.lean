import Verif.Model.Fallback
import Verif.Proofs.InventoryTop

/-!
# No rule of the built-in list ends in a digit, and those that end in `za` are in ASCII, checked

Generated by tools/gen_inventory.py.
-/

namespace Fasttld.Inv

theorem topPublic00 : allL lineTop 0 fallbackPublic00 = true := by decide +kernel
theorem topPublic01 : allL lineTop 0 fallbackPublic01 = true := by decide +kernel
theorem topPublic02 : allL lineTop 0 fallbackPublic02 = true := by decide +kernel
theorem topPublic03 : allL lineTop 0 fallbackPublic03 = true := by decide +kernel
theorem topPublic04 : allL lineTop 0 fallbackPublic04 = true := by decide +kernel
theorem topPublic05 : allL lineTop 0 fallbackPublic05 = true := by decide +kernel
theorem topPublic06 : allL lineTop 0 fallbackPublic06 = true := by decide +kernel
theorem topPublic07 : allL lineTop 0 fallbackPublic07 = true := by decide +kernel
theorem topPublic08 : allL lineTop 0 fallbackPublic08 = true := by decide +kernel
theorem topPublic09 : allL lineTop 0 fallbackPublic09 = true := by decide +kernel
theorem topPublic10 : allL lineTop 0 fallbackPublic10 = true := by decide +kernel
theorem topPublic11 : allL lineTop 0 fallbackPublic11 = true := by decide +kernel
theorem topPublic12 : allL lineTop 0 fallbackPublic12 = true := by decide +kernel
theorem topPublic13 : allL lineTop 0 fallbackPublic13 = true := by decide +kernel
theorem topPublic14 : allL lineTop 0 fallbackPublic14 = true := by decide +kernel
theorem topPublic15 : allL lineTop 0 fallbackPublic15 = true := by decide +kernel
theorem topPublic16 : allL lineTop 0 fallbackPublic16 = true := by decide +kernel
theorem topPublic17 : allL lineTop 0 fallbackPublic17 = true := by decide +kernel
theorem topPublic18 : allL lineTop 0 fallbackPublic18 = true := by decide +kernel
theorem topPublic19 : allL lineTop 0 fallbackPublic19 = true := by decide +kernel
theorem topPublic20 : allL lineTop 0 fallbackPublic20 = true := by decide +kernel
theorem topPublic21 : allL lineTop 0 fallbackPublic21 = true := by decide +kernel
theorem topPublic22 : allL lineTop 0 fallbackPublic22 = true := by decide +kernel
theorem topPublic23 : allL lineTop 0 fallbackPublic23 = true := by decide +kernel
theorem topPublic24 : allL lineTop 0 fallbackPublic24 = true := by decide +kernel
theorem topPublic25 : allL lineTop 0 fallbackPublic25 = true := by decide +kernel
theorem topPublic26 : allL lineTop 0 fallbackPublic26 = true := by decide +kernel
theorem topPublic27 : allL lineTop 0 fallbackPublic27 = true := by decide +kernel
theorem topPublic28 : allL lineTop 0 fallbackPublic28 = true := by decide +kernel
theorem topPublic29 : allL lineTop 0 fallbackPublic29 = true := by decide +kernel
theorem topPublic30 : allL lineTop 0 fallbackPublic30 = true := by decide +kernel
theorem topPublic31 : allL lineTop 0 fallbackPublic31 = true := by decide +kernel
theorem topPublic32 : allL lineTop 0 fallbackPublic32 = true := by decide +kernel
theorem topPublic33 : allL lineTop 0 fallbackPublic33 = true := by decide +kernel
theorem topPublic34 : allL lineTop 0 fallbackPublic34 = true := by decide +kernel
theorem topPublic35 : allL lineTop 0 fallbackPublic35 = true := by decide +kernel
theorem topPublic36 : allL lineTop 0 fallbackPublic36 = true := by decide +kernel
theorem topPublic37 : allL lineTop 0 fallbackPublic37 = true := by decide +kernel

theorem topPublic : AllOK lineTop [fallbackPublic00, fallbackPublic01, fallbackPublic02, fallbackPublic03, fallbackPublic04, fallbackPublic05, fallbackPublic06, fallbackPublic07, fallbackPublic08, fallbackPublic09, fallbackPublic10, fallbackPublic11, fallbackPublic12, fallbackPublic13, fallbackPublic14, fallbackPublic15, fallbackPublic16, fallbackPublic17, fallbackPublic18, fallbackPublic19, fallbackPublic20, fallbackPublic21, fallbackPublic22, fallbackPublic23, fallbackPublic24, fallbackPublic25, fallbackPublic26, fallbackPublic27, fallbackPublic28, fallbackPublic29, fallbackPublic30, fallbackPublic31, fallbackPublic32, fallbackPublic33, fallbackPublic34, fallbackPublic35, fallbackPublic36, fallbackPublic37] :=
  ⟨topPublic00, topPublic01, topPublic02, topPublic03, topPublic04, topPublic05, topPublic06, topPublic07, topPublic08, topPublic09, topPublic10, topPublic11, topPublic12, topPublic13, topPublic14, topPublic15, topPublic16, topPublic17, topPublic18, topPublic19, topPublic20, topPublic21, topPublic22, topPublic23, topPublic24, topPublic25, topPublic26, topPublic27, topPublic28, topPublic29, topPublic30, topPublic31, topPublic32, topPublic33, topPublic34, topPublic35, topPublic36, topPublic37, trivial⟩

theorem topPrivate00 : allL lineTop 0 fallbackPrivate00 = true := by decide +kernel
theorem topPrivate01 : allL lineTop 0 fallbackPrivate01 = true := by decide +kernel
theorem topPrivate02 : allL lineTop 0 fallbackPrivate02 = true := by decide +kernel
theorem topPrivate03 : allL lineTop 0 fallbackPrivate03 = true := by decide +kernel
theorem topPrivate04 : allL lineTop 0 fallbackPrivate04 = true := by decide +kernel
theorem topPrivate05 : allL lineTop 0 fallbackPrivate05 = true := by decide +kernel
theorem topPrivate06 : allL lineTop 0 fallbackPrivate06 = true := by decide +kernel
theorem topPrivate07 : allL lineTop 0 fallbackPrivate07 = true := by decide +kernel
theorem topPrivate08 : allL lineTop 0 fallbackPrivate08 = true := by decide +kernel
theorem topPrivate09 : allL lineTop 0 fallbackPrivate09 = true := by decide +kernel
theorem topPrivate10 : allL lineTop 0 fallbackPrivate10 = true := by decide +kernel
theorem topPrivate11 : allL lineTop 0 fallbackPrivate11 = true := by decide +kernel
theorem topPrivate12 : allL lineTop 0 fallbackPrivate12 = true := by decide +kernel
theorem topPrivate13 : allL lineTop 0 fallbackPrivate13 = true := by decide +kernel
theorem topPrivate14 : allL lineTop 0 fallbackPrivate14 = true := by decide +kernel

theorem topPrivate : AllOK lineTop [fallbackPrivate00, fallbackPrivate01, fallbackPrivate02, fallbackPrivate03, fallbackPrivate04, fallbackPrivate05, fallbackPrivate06, fallbackPrivate07, fallbackPrivate08, fallbackPrivate09, fallbackPrivate10, fallbackPrivate11, fallbackPrivate12, fallbackPrivate13, fallbackPrivate14] :=
  ⟨topPrivate00, topPrivate01, topPrivate02, topPrivate03, topPrivate04, topPrivate05, topPrivate06, topPrivate07, topPrivate08, topPrivate09, topPrivate10, topPrivate11, topPrivate12, topPrivate13, topPrivate14, trivial⟩

end Fasttld.Inv
