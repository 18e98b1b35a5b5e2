import Verif.Model.Fallback
import Verif.Proofs.FallbackTablePublic
import Verif.Proofs.InventoryFacts
import Verif.Spec.BuiltIn

/-!
# The built-in list, checked (Public)

Generated by tools/gen_inventory.py.
-/

namespace Fasttld.Inv
open Fasttld.Spec

theorem partPublic00 : partOK tablePublic usedPublic00 fallbackPublic00 = true := by decide +kernel
theorem partPublic01 : partOK tablePublic usedPublic01 fallbackPublic01 = true := by decide +kernel
theorem partPublic02 : partOK tablePublic usedPublic02 fallbackPublic02 = true := by decide +kernel
theorem partPublic03 : partOK tablePublic usedPublic03 fallbackPublic03 = true := by decide +kernel
theorem partPublic04 : partOK tablePublic usedPublic04 fallbackPublic04 = true := by decide +kernel
theorem partPublic05 : partOK tablePublic usedPublic05 fallbackPublic05 = true := by decide +kernel
theorem partPublic06 : partOK tablePublic usedPublic06 fallbackPublic06 = true := by decide +kernel
theorem partPublic07 : partOK tablePublic usedPublic07 fallbackPublic07 = true := by decide +kernel
theorem partPublic08 : partOK tablePublic usedPublic08 fallbackPublic08 = true := by decide +kernel
theorem partPublic09 : partOK tablePublic usedPublic09 fallbackPublic09 = true := by decide +kernel
theorem partPublic10 : partOK tablePublic usedPublic10 fallbackPublic10 = true := by decide +kernel
theorem partPublic11 : partOK tablePublic usedPublic11 fallbackPublic11 = true := by decide +kernel
theorem partPublic12 : partOK tablePublic usedPublic12 fallbackPublic12 = true := by decide +kernel
theorem partPublic13 : partOK tablePublic usedPublic13 fallbackPublic13 = true := by decide +kernel
theorem partPublic14 : partOK tablePublic usedPublic14 fallbackPublic14 = true := by decide +kernel
theorem partPublic15 : partOK tablePublic usedPublic15 fallbackPublic15 = true := by decide +kernel
theorem partPublic16 : partOK tablePublic usedPublic16 fallbackPublic16 = true := by decide +kernel
theorem partPublic17 : partOK tablePublic usedPublic17 fallbackPublic17 = true := by decide +kernel
theorem partPublic18 : partOK tablePublic usedPublic18 fallbackPublic18 = true := by decide +kernel
theorem partPublic19 : partOK tablePublic usedPublic19 fallbackPublic19 = true := by decide +kernel
theorem partPublic20 : partOK tablePublic usedPublic20 fallbackPublic20 = true := by decide +kernel
theorem partPublic21 : partOK tablePublic usedPublic21 fallbackPublic21 = true := by decide +kernel
theorem partPublic22 : partOK tablePublic usedPublic22 fallbackPublic22 = true := by decide +kernel
theorem partPublic23 : partOK tablePublic usedPublic23 fallbackPublic23 = true := by decide +kernel
theorem partPublic24 : partOK tablePublic usedPublic24 fallbackPublic24 = true := by decide +kernel
theorem partPublic25 : partOK tablePublic usedPublic25 fallbackPublic25 = true := by decide +kernel
theorem partPublic26 : partOK tablePublic usedPublic26 fallbackPublic26 = true := by decide +kernel
theorem partPublic27 : partOK tablePublic usedPublic27 fallbackPublic27 = true := by decide +kernel
theorem partPublic28 : partOK tablePublic usedPublic28 fallbackPublic28 = true := by decide +kernel
theorem partPublic29 : partOK tablePublic usedPublic29 fallbackPublic29 = true := by decide +kernel
theorem partPublic30 : partOK tablePublic usedPublic30 fallbackPublic30 = true := by decide +kernel
theorem partPublic31 : partOK tablePublic usedPublic31 fallbackPublic31 = true := by decide +kernel
theorem partPublic32 : partOK tablePublic usedPublic32 fallbackPublic32 = true := by decide +kernel
theorem partPublic33 : partOK tablePublic usedPublic33 fallbackPublic33 = true := by decide +kernel
theorem partPublic34 : partOK tablePublic usedPublic34 fallbackPublic34 = true := by decide +kernel
theorem partPublic35 : partOK tablePublic usedPublic35 fallbackPublic35 = true := by decide +kernel
theorem partPublic36 : partOK tablePublic usedPublic36 fallbackPublic36 = true := by decide +kernel
theorem partPublic37 : partOK tablePublic usedPublic37 fallbackPublic37 = true := by decide +kernel

theorem entriesPublic : tablePublic.all (entryOK usedPublic gapsPublic shadowsPublic) 1 = true := by decide +kernel

theorem partsPublic : PartsOK tablePublic usedPublic [fallbackPublic00, fallbackPublic01, fallbackPublic02, fallbackPublic03, fallbackPublic04, fallbackPublic05, fallbackPublic06, fallbackPublic07, fallbackPublic08, fallbackPublic09, fallbackPublic10, fallbackPublic11, fallbackPublic12, fallbackPublic13, fallbackPublic14, fallbackPublic15, fallbackPublic16, fallbackPublic17, fallbackPublic18, fallbackPublic19, fallbackPublic20, fallbackPublic21, fallbackPublic22, fallbackPublic23, fallbackPublic24, fallbackPublic25, fallbackPublic26, fallbackPublic27, fallbackPublic28, fallbackPublic29, fallbackPublic30, fallbackPublic31, fallbackPublic32, fallbackPublic33, fallbackPublic34, fallbackPublic35, fallbackPublic36, fallbackPublic37] :=
  ⟨partPublic00, partPublic01, partPublic02, partPublic03, partPublic04, partPublic05, partPublic06, partPublic07, partPublic08, partPublic09, partPublic10, partPublic11, partPublic12, partPublic13, partPublic14, partPublic15, partPublic16, partPublic17, partPublic18, partPublic19, partPublic20, partPublic21, partPublic22, partPublic23, partPublic24, partPublic25, partPublic26, partPublic27, partPublic28, partPublic29, partPublic30, partPublic31, partPublic32, partPublic33, partPublic34, partPublic35, partPublic36, partPublic37, trivial⟩

end Fasttld.Inv
