import Verif.Model.Fallback
import Verif.Proofs.FallbackTablePublic
import Verif.Proofs.InventoryMore
import Verif.Spec.BuiltIn

/-!
# The gaps of the built-in list, checked (Public)

Generated by tools/gen_inventory.py.
-/

namespace Fasttld.Inv
open Fasttld.Spec

noncomputable def belowPublic14 : List Nat := lines! "nes.akershus.no
nes.buskerud.no"
noncomputable def childPublic14 : List Nat := lines! "nes.akershus.no
nes.buskerud.no"
noncomputable def gapOfPublic14 : List Nat := lines! "akershus.no
buskerud.no"

noncomputable def belowPublic15 : List Nat := lines! "os.hedmark.no
os.hordaland.no
heroy.more-og-romsdal.no
herøy.møre-og-romsdal.no
bo.nordland.no
valer.ostfold.no
våler.østfold.no"
noncomputable def childPublic15 : List Nat := lines! "os.hedmark.no
os.hordaland.no
heroy.more-og-romsdal.no
herøy.møre-og-romsdal.no
bo.nordland.no
valer.ostfold.no
våler.østfold.no"
noncomputable def gapOfPublic15 : List Nat := lines! "hedmark.no
hordaland.no
more-og-romsdal.no
møre-og-romsdal.no
nordland.no
ostfold.no
østfold.no"

noncomputable def belowPublic16 : List Nat := lines! "bo.telemark.no
sande.vestfold.no"
noncomputable def childPublic16 : List Nat := lines! "bo.telemark.no
sande.vestfold.no"
noncomputable def gapOfPublic16 : List Nat := lines! "telemark.no
vestfold.no"

noncomputable def belowPublic22 : List Nat := lines! "ac.za"
noncomputable def childPublic22 : List Nat := lines! "ac.za"
noncomputable def gapOfPublic22 : List Nat := lines! "za"

/-- Rules below gaps, by part. -/
noncomputable def belowPublic : List (List Nat × List Nat × List Nat) :=
  [([], [], []), ([], [], []), ([], [], []), ([], [], []), ([], [], []), ([], [], []), ([], [], []), ([], [], []), ([], [], []), ([], [], []), ([], [], []), ([], [], []), ([], [], []), ([], [], []), (belowPublic14, childPublic14, gapOfPublic14), (belowPublic15, childPublic15, gapOfPublic15), (belowPublic16, childPublic16, gapOfPublic16), ([], [], []), ([], [], []), ([], [], []), ([], [], []), ([], [], []), (belowPublic22, childPublic22, gapOfPublic22), ([], [], []), ([], [], []), ([], [], []), ([], [], []), ([], [], []), ([], [], []), ([], [], []), ([], [], []), ([], [], []), ([], [], []), ([], [], []), ([], [], []), ([], [], []), ([], [], []), ([], [], [])]

theorem belowInPublic00 : belowOK [] [] [] fallbackPublic00 = true := rfl
theorem notGapPublic00 : allL (notGap tablePublic) 0 fallbackPublic00 = true := by decide +kernel
theorem belowInPublic01 : belowOK [] [] [] fallbackPublic01 = true := rfl
theorem notGapPublic01 : allL (notGap tablePublic) 0 fallbackPublic01 = true := by decide +kernel
theorem belowInPublic02 : belowOK [] [] [] fallbackPublic02 = true := rfl
theorem notGapPublic02 : allL (notGap tablePublic) 0 fallbackPublic02 = true := by decide +kernel
theorem belowInPublic03 : belowOK [] [] [] fallbackPublic03 = true := rfl
theorem notGapPublic03 : allL (notGap tablePublic) 0 fallbackPublic03 = true := by decide +kernel
theorem belowInPublic04 : belowOK [] [] [] fallbackPublic04 = true := rfl
theorem notGapPublic04 : allL (notGap tablePublic) 0 fallbackPublic04 = true := by decide +kernel
theorem belowInPublic05 : belowOK [] [] [] fallbackPublic05 = true := rfl
theorem notGapPublic05 : allL (notGap tablePublic) 0 fallbackPublic05 = true := by decide +kernel
theorem belowInPublic06 : belowOK [] [] [] fallbackPublic06 = true := rfl
theorem notGapPublic06 : allL (notGap tablePublic) 0 fallbackPublic06 = true := by decide +kernel
theorem belowInPublic07 : belowOK [] [] [] fallbackPublic07 = true := rfl
theorem notGapPublic07 : allL (notGap tablePublic) 0 fallbackPublic07 = true := by decide +kernel
theorem belowInPublic08 : belowOK [] [] [] fallbackPublic08 = true := rfl
theorem notGapPublic08 : allL (notGap tablePublic) 0 fallbackPublic08 = true := by decide +kernel
theorem belowInPublic09 : belowOK [] [] [] fallbackPublic09 = true := rfl
theorem notGapPublic09 : allL (notGap tablePublic) 0 fallbackPublic09 = true := by decide +kernel
theorem belowInPublic10 : belowOK [] [] [] fallbackPublic10 = true := rfl
theorem notGapPublic10 : allL (notGap tablePublic) 0 fallbackPublic10 = true := by decide +kernel
theorem belowInPublic11 : belowOK [] [] [] fallbackPublic11 = true := rfl
theorem notGapPublic11 : allL (notGap tablePublic) 0 fallbackPublic11 = true := by decide +kernel
theorem belowInPublic12 : belowOK [] [] [] fallbackPublic12 = true := rfl
theorem notGapPublic12 : allL (notGap tablePublic) 0 fallbackPublic12 = true := by decide +kernel
theorem belowInPublic13 : belowOK [] [] [] fallbackPublic13 = true := rfl
theorem notGapPublic13 : allL (notGap tablePublic) 0 fallbackPublic13 = true := by decide +kernel
theorem belowInPublic14 : belowOK belowPublic14 childPublic14 gapOfPublic14 fallbackPublic14 = true := by decide +kernel
theorem notGapPublic14 : allL (notGap tablePublic) 0 fallbackPublic14 = true := by decide +kernel
theorem belowInPublic15 : belowOK belowPublic15 childPublic15 gapOfPublic15 fallbackPublic15 = true := by decide +kernel
theorem notGapPublic15 : allL (notGap tablePublic) 0 fallbackPublic15 = true := by decide +kernel
theorem belowInPublic16 : belowOK belowPublic16 childPublic16 gapOfPublic16 fallbackPublic16 = true := by decide +kernel
theorem notGapPublic16 : allL (notGap tablePublic) 0 fallbackPublic16 = true := by decide +kernel
theorem belowInPublic17 : belowOK [] [] [] fallbackPublic17 = true := rfl
theorem notGapPublic17 : allL (notGap tablePublic) 0 fallbackPublic17 = true := by decide +kernel
theorem belowInPublic18 : belowOK [] [] [] fallbackPublic18 = true := rfl
theorem notGapPublic18 : allL (notGap tablePublic) 0 fallbackPublic18 = true := by decide +kernel
theorem belowInPublic19 : belowOK [] [] [] fallbackPublic19 = true := rfl
theorem notGapPublic19 : allL (notGap tablePublic) 0 fallbackPublic19 = true := by decide +kernel
theorem belowInPublic20 : belowOK [] [] [] fallbackPublic20 = true := rfl
theorem notGapPublic20 : allL (notGap tablePublic) 0 fallbackPublic20 = true := by decide +kernel
theorem belowInPublic21 : belowOK [] [] [] fallbackPublic21 = true := rfl
theorem notGapPublic21 : allL (notGap tablePublic) 0 fallbackPublic21 = true := by decide +kernel
theorem belowInPublic22 : belowOK belowPublic22 childPublic22 gapOfPublic22 fallbackPublic22 = true := by decide +kernel
theorem notGapPublic22 : allL (notGap tablePublic) 0 fallbackPublic22 = true := by decide +kernel
theorem belowInPublic23 : belowOK [] [] [] fallbackPublic23 = true := rfl
theorem notGapPublic23 : allL (notGap tablePublic) 0 fallbackPublic23 = true := by decide +kernel
theorem belowInPublic24 : belowOK [] [] [] fallbackPublic24 = true := rfl
theorem notGapPublic24 : allL (notGap tablePublic) 0 fallbackPublic24 = true := by decide +kernel
theorem belowInPublic25 : belowOK [] [] [] fallbackPublic25 = true := rfl
theorem notGapPublic25 : allL (notGap tablePublic) 0 fallbackPublic25 = true := by decide +kernel
theorem belowInPublic26 : belowOK [] [] [] fallbackPublic26 = true := rfl
theorem notGapPublic26 : allL (notGap tablePublic) 0 fallbackPublic26 = true := by decide +kernel
theorem belowInPublic27 : belowOK [] [] [] fallbackPublic27 = true := rfl
theorem notGapPublic27 : allL (notGap tablePublic) 0 fallbackPublic27 = true := by decide +kernel
theorem belowInPublic28 : belowOK [] [] [] fallbackPublic28 = true := rfl
theorem notGapPublic28 : allL (notGap tablePublic) 0 fallbackPublic28 = true := by decide +kernel
theorem belowInPublic29 : belowOK [] [] [] fallbackPublic29 = true := rfl
theorem notGapPublic29 : allL (notGap tablePublic) 0 fallbackPublic29 = true := by decide +kernel
theorem belowInPublic30 : belowOK [] [] [] fallbackPublic30 = true := rfl
theorem notGapPublic30 : allL (notGap tablePublic) 0 fallbackPublic30 = true := by decide +kernel
theorem belowInPublic31 : belowOK [] [] [] fallbackPublic31 = true := rfl
theorem notGapPublic31 : allL (notGap tablePublic) 0 fallbackPublic31 = true := by decide +kernel
theorem belowInPublic32 : belowOK [] [] [] fallbackPublic32 = true := rfl
theorem notGapPublic32 : allL (notGap tablePublic) 0 fallbackPublic32 = true := by decide +kernel
theorem belowInPublic33 : belowOK [] [] [] fallbackPublic33 = true := rfl
theorem notGapPublic33 : allL (notGap tablePublic) 0 fallbackPublic33 = true := by decide +kernel
theorem belowInPublic34 : belowOK [] [] [] fallbackPublic34 = true := rfl
theorem notGapPublic34 : allL (notGap tablePublic) 0 fallbackPublic34 = true := by decide +kernel
theorem belowInPublic35 : belowOK [] [] [] fallbackPublic35 = true := rfl
theorem notGapPublic35 : allL (notGap tablePublic) 0 fallbackPublic35 = true := by decide +kernel
theorem belowInPublic36 : belowOK [] [] [] fallbackPublic36 = true := rfl
theorem notGapPublic36 : allL (notGap tablePublic) 0 fallbackPublic36 = true := by decide +kernel
theorem belowInPublic37 : belowOK [] [] [] fallbackPublic37 = true := rfl
theorem notGapPublic37 : allL (notGap tablePublic) 0 fallbackPublic37 = true := by decide +kernel

theorem belowInPublic : BelowOK belowPublic [fallbackPublic00, fallbackPublic01, fallbackPublic02, fallbackPublic03, fallbackPublic04, fallbackPublic05, fallbackPublic06, fallbackPublic07, fallbackPublic08, fallbackPublic09, fallbackPublic10, fallbackPublic11, fallbackPublic12, fallbackPublic13, fallbackPublic14, fallbackPublic15, fallbackPublic16, fallbackPublic17, fallbackPublic18, fallbackPublic19, fallbackPublic20, fallbackPublic21, fallbackPublic22, fallbackPublic23, fallbackPublic24, fallbackPublic25, fallbackPublic26, fallbackPublic27, fallbackPublic28, fallbackPublic29, fallbackPublic30, fallbackPublic31, fallbackPublic32, fallbackPublic33, fallbackPublic34, fallbackPublic35, fallbackPublic36, fallbackPublic37] :=
  ⟨belowInPublic00, belowInPublic01, belowInPublic02, belowInPublic03, belowInPublic04, belowInPublic05, belowInPublic06, belowInPublic07, belowInPublic08, belowInPublic09, belowInPublic10, belowInPublic11, belowInPublic12, belowInPublic13, belowInPublic14, belowInPublic15, belowInPublic16, belowInPublic17, belowInPublic18, belowInPublic19, belowInPublic20, belowInPublic21, belowInPublic22, belowInPublic23, belowInPublic24, belowInPublic25, belowInPublic26, belowInPublic27, belowInPublic28, belowInPublic29, belowInPublic30, belowInPublic31, belowInPublic32, belowInPublic33, belowInPublic34, belowInPublic35, belowInPublic36, belowInPublic37, trivial⟩

theorem sameLengthsPublic : SameLengths belowPublic = true := by decide +kernel

theorem gapsBelowPublic : allL (fun g => elem g (belowPublic.flatMap (fun b => b.2.2))) 0 gapsPublic = true := by decide +kernel

theorem gapsAtPublic : allL (tablePublic.gapAt) 0 gapsPublic = true := by decide +kernel

theorem notGapsPublic : AllOK (notGap tablePublic) [fallbackPublic00, fallbackPublic01, fallbackPublic02, fallbackPublic03, fallbackPublic04, fallbackPublic05, fallbackPublic06, fallbackPublic07, fallbackPublic08, fallbackPublic09, fallbackPublic10, fallbackPublic11, fallbackPublic12, fallbackPublic13, fallbackPublic14, fallbackPublic15, fallbackPublic16, fallbackPublic17, fallbackPublic18, fallbackPublic19, fallbackPublic20, fallbackPublic21, fallbackPublic22, fallbackPublic23, fallbackPublic24, fallbackPublic25, fallbackPublic26, fallbackPublic27, fallbackPublic28, fallbackPublic29, fallbackPublic30, fallbackPublic31, fallbackPublic32, fallbackPublic33, fallbackPublic34, fallbackPublic35, fallbackPublic36, fallbackPublic37] :=
  ⟨notGapPublic00, notGapPublic01, notGapPublic02, notGapPublic03, notGapPublic04, notGapPublic05, notGapPublic06, notGapPublic07, notGapPublic08, notGapPublic09, notGapPublic10, notGapPublic11, notGapPublic12, notGapPublic13, notGapPublic14, notGapPublic15, notGapPublic16, notGapPublic17, notGapPublic18, notGapPublic19, notGapPublic20, notGapPublic21, notGapPublic22, notGapPublic23, notGapPublic24, notGapPublic25, notGapPublic26, notGapPublic27, notGapPublic28, notGapPublic29, notGapPublic30, notGapPublic31, notGapPublic32, notGapPublic33, notGapPublic34, notGapPublic35, notGapPublic36, notGapPublic37, trivial⟩

end Fasttld.Inv
