import Verif.Model.Fallback
import Verif.Proofs.FallbackTableAll
import Verif.Proofs.InventoryFacts
import Verif.Spec.BuiltIn

/-!
# The built-in list, checked (All)

Generated by tools/gen_inventory.py.
-/

namespace Fasttld.Inv
open Fasttld.Spec

theorem partAll00 : partOK tableAll usedAll00 fallbackPublic00 = true := by decide +kernel
theorem partAll01 : partOK tableAll usedAll01 fallbackPublic01 = true := by decide +kernel
theorem partAll02 : partOK tableAll usedAll02 fallbackPublic02 = true := by decide +kernel
theorem partAll03 : partOK tableAll usedAll03 fallbackPublic03 = true := by decide +kernel
theorem partAll04 : partOK tableAll usedAll04 fallbackPublic04 = true := by decide +kernel
theorem partAll05 : partOK tableAll usedAll05 fallbackPublic05 = true := by decide +kernel
theorem partAll06 : partOK tableAll usedAll06 fallbackPublic06 = true := by decide +kernel
theorem partAll07 : partOK tableAll usedAll07 fallbackPublic07 = true := by decide +kernel
theorem partAll08 : partOK tableAll usedAll08 fallbackPublic08 = true := by decide +kernel
theorem partAll09 : partOK tableAll usedAll09 fallbackPublic09 = true := by decide +kernel
theorem partAll10 : partOK tableAll usedAll10 fallbackPublic10 = true := by decide +kernel
theorem partAll11 : partOK tableAll usedAll11 fallbackPublic11 = true := by decide +kernel
theorem partAll12 : partOK tableAll usedAll12 fallbackPublic12 = true := by decide +kernel
theorem partAll13 : partOK tableAll usedAll13 fallbackPublic13 = true := by decide +kernel
theorem partAll14 : partOK tableAll usedAll14 fallbackPublic14 = true := by decide +kernel
theorem partAll15 : partOK tableAll usedAll15 fallbackPublic15 = true := by decide +kernel
theorem partAll16 : partOK tableAll usedAll16 fallbackPublic16 = true := by decide +kernel
theorem partAll17 : partOK tableAll usedAll17 fallbackPublic17 = true := by decide +kernel
theorem partAll18 : partOK tableAll usedAll18 fallbackPublic18 = true := by decide +kernel
theorem partAll19 : partOK tableAll usedAll19 fallbackPublic19 = true := by decide +kernel
theorem partAll20 : partOK tableAll usedAll20 fallbackPublic20 = true := by decide +kernel
theorem partAll21 : partOK tableAll usedAll21 fallbackPublic21 = true := by decide +kernel
theorem partAll22 : partOK tableAll usedAll22 fallbackPublic22 = true := by decide +kernel
theorem partAll23 : partOK tableAll usedAll23 fallbackPublic23 = true := by decide +kernel
theorem partAll24 : partOK tableAll usedAll24 fallbackPublic24 = true := by decide +kernel
theorem partAll25 : partOK tableAll usedAll25 fallbackPublic25 = true := by decide +kernel
theorem partAll26 : partOK tableAll usedAll26 fallbackPublic26 = true := by decide +kernel
theorem partAll27 : partOK tableAll usedAll27 fallbackPublic27 = true := by decide +kernel
theorem partAll28 : partOK tableAll usedAll28 fallbackPublic28 = true := by decide +kernel
theorem partAll29 : partOK tableAll usedAll29 fallbackPublic29 = true := by decide +kernel
theorem partAll30 : partOK tableAll usedAll30 fallbackPublic30 = true := by decide +kernel
theorem partAll31 : partOK tableAll usedAll31 fallbackPublic31 = true := by decide +kernel
theorem partAll32 : partOK tableAll usedAll32 fallbackPublic32 = true := by decide +kernel
theorem partAll33 : partOK tableAll usedAll33 fallbackPublic33 = true := by decide +kernel
theorem partAll34 : partOK tableAll usedAll34 fallbackPublic34 = true := by decide +kernel
theorem partAll35 : partOK tableAll usedAll35 fallbackPublic35 = true := by decide +kernel
theorem partAll36 : partOK tableAll usedAll36 fallbackPublic36 = true := by decide +kernel
theorem partAll37 : partOK tableAll usedAll37 fallbackPublic37 = true := by decide +kernel
theorem partAll38 : partOK tableAll usedAll38 fallbackPrivate00 = true := by decide +kernel
theorem partAll39 : partOK tableAll usedAll39 fallbackPrivate01 = true := by decide +kernel
theorem partAll40 : partOK tableAll usedAll40 fallbackPrivate02 = true := by decide +kernel
theorem partAll41 : partOK tableAll usedAll41 fallbackPrivate03 = true := by decide +kernel
theorem partAll42 : partOK tableAll usedAll42 fallbackPrivate04 = true := by decide +kernel
theorem partAll43 : partOK tableAll usedAll43 fallbackPrivate05 = true := by decide +kernel
theorem partAll44 : partOK tableAll usedAll44 fallbackPrivate06 = true := by decide +kernel
theorem partAll45 : partOK tableAll usedAll45 fallbackPrivate07 = true := by decide +kernel
theorem partAll46 : partOK tableAll usedAll46 fallbackPrivate08 = true := by decide +kernel
theorem partAll47 : partOK tableAll usedAll47 fallbackPrivate09 = true := by decide +kernel
theorem partAll48 : partOK tableAll usedAll48 fallbackPrivate10 = true := by decide +kernel
theorem partAll49 : partOK tableAll usedAll49 fallbackPrivate11 = true := by decide +kernel
theorem partAll50 : partOK tableAll usedAll50 fallbackPrivate12 = true := by decide +kernel
theorem partAll51 : partOK tableAll usedAll51 fallbackPrivate13 = true := by decide +kernel
theorem partAll52 : partOK tableAll usedAll52 fallbackPrivate14 = true := by decide +kernel

theorem entriesAll : tableAll.all (entryOK usedAll gapsAll shadowsAll) 1 = true := by decide +kernel

theorem partsAll : PartsOK tableAll usedAll [fallbackPublic00, fallbackPublic01, fallbackPublic02, fallbackPublic03, fallbackPublic04, fallbackPublic05, fallbackPublic06, fallbackPublic07, fallbackPublic08, fallbackPublic09, fallbackPublic10, fallbackPublic11, fallbackPublic12, fallbackPublic13, fallbackPublic14, fallbackPublic15, fallbackPublic16, fallbackPublic17, fallbackPublic18, fallbackPublic19, fallbackPublic20, fallbackPublic21, fallbackPublic22, fallbackPublic23, fallbackPublic24, fallbackPublic25, fallbackPublic26, fallbackPublic27, fallbackPublic28, fallbackPublic29, fallbackPublic30, fallbackPublic31, fallbackPublic32, fallbackPublic33, fallbackPublic34, fallbackPublic35, fallbackPublic36, fallbackPublic37, fallbackPrivate00, fallbackPrivate01, fallbackPrivate02, fallbackPrivate03, fallbackPrivate04, fallbackPrivate05, fallbackPrivate06, fallbackPrivate07, fallbackPrivate08, fallbackPrivate09, fallbackPrivate10, fallbackPrivate11, fallbackPrivate12, fallbackPrivate13, fallbackPrivate14] :=
  ⟨partAll00, partAll01, partAll02, partAll03, partAll04, partAll05, partAll06, partAll07, partAll08, partAll09, partAll10, partAll11, partAll12, partAll13, partAll14, partAll15, partAll16, partAll17, partAll18, partAll19, partAll20, partAll21, partAll22, partAll23, partAll24, partAll25, partAll26, partAll27, partAll28, partAll29, partAll30, partAll31, partAll32, partAll33, partAll34, partAll35, partAll36, partAll37, partAll38, partAll39, partAll40, partAll41, partAll42, partAll43, partAll44, partAll45, partAll46, partAll47, partAll48, partAll49, partAll50, partAll51, partAll52, trivial⟩

end Fasttld.Inv
