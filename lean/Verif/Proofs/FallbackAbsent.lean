import Verif.Model.Fallback
import Verif.Proofs.Inventory

/-!
# Lines that are not in the built-in list, and the number of rules

Generated by tools/gen_inventory.py.
-/

namespace Fasttld.Inv

/-- Lines that are nowhere in the list. -/
noncomputable def absentAll : List Nat := lines! "za
*.za
nom
hordaland.no
*.no
*.hordaland.no
example.hordaland.no
*.com
*.uk
!a.fk
1
!ex.futurecms.at
!oci.customer-oci.com
!sub.wc.psl.hrsn.dev
!privatelink.snowflake.app
!svc.firenet.ch"

/-- Lines that are not in the public part. -/
noncomputable def absentPublic : List Nat := lines! "// ===BEGIN PRIVATE DOMAINS===
za
*.za
nom
hordaland.no
*.no
*.hordaland.no
example.hordaland.no
*.com
*.uk
!a.fk
1
!ex.futurecms.at
!oci.customer-oci.com
!sub.wc.psl.hrsn.dev
!privatelink.snowflake.app
!svc.firenet.ch"

theorem absentPublic00 : allL (fun n => bif elem n absentPublic then false else true) 0 fallbackPublic00 = true := by decide +kernel
theorem countPublic00 : count 0 fallbackPublic00 = 220 := by decide +kernel
theorem absentPublic01 : allL (fun n => bif elem n absentPublic then false else true) 0 fallbackPublic01 = true := by decide +kernel
theorem countPublic01 : count 0 fallbackPublic01 = 262 := by decide +kernel
theorem absentPublic02 : allL (fun n => bif elem n absentPublic then false else true) 0 fallbackPublic02 = true := by decide +kernel
theorem countPublic02 : count 0 fallbackPublic02 = 229 := by decide +kernel
theorem absentPublic03 : allL (fun n => bif elem n absentPublic then false else true) 0 fallbackPublic03 = true := by decide +kernel
theorem countPublic03 : count 0 fallbackPublic03 = 197 := by decide +kernel
theorem absentPublic04 : allL (fun n => bif elem n absentPublic then false else true) 0 fallbackPublic04 = true := by decide +kernel
theorem countPublic04 : count 0 fallbackPublic04 = 230 := by decide +kernel
theorem absentPublic05 : allL (fun n => bif elem n absentPublic then false else true) 0 fallbackPublic05 = true := by decide +kernel
theorem countPublic05 : count 0 fallbackPublic05 = 299 := by decide +kernel
theorem absentPublic06 : allL (fun n => bif elem n absentPublic then false else true) 0 fallbackPublic06 = true := by decide +kernel
theorem countPublic06 : count 0 fallbackPublic06 = 278 := by decide +kernel
theorem absentPublic07 : allL (fun n => bif elem n absentPublic then false else true) 0 fallbackPublic07 = true := by decide +kernel
theorem countPublic07 : count 0 fallbackPublic07 = 300 := by decide +kernel
theorem absentPublic08 : allL (fun n => bif elem n absentPublic then false else true) 0 fallbackPublic08 = true := by decide +kernel
theorem countPublic08 : count 0 fallbackPublic08 = 300 := by decide +kernel
theorem absentPublic09 : allL (fun n => bif elem n absentPublic then false else true) 0 fallbackPublic09 = true := by decide +kernel
theorem countPublic09 : count 0 fallbackPublic09 = 300 := by decide +kernel
theorem absentPublic10 : allL (fun n => bif elem n absentPublic then false else true) 0 fallbackPublic10 = true := by decide +kernel
theorem countPublic10 : count 0 fallbackPublic10 = 300 := by decide +kernel
theorem absentPublic11 : allL (fun n => bif elem n absentPublic then false else true) 0 fallbackPublic11 = true := by decide +kernel
theorem countPublic11 : count 0 fallbackPublic11 = 300 := by decide +kernel
theorem absentPublic12 : allL (fun n => bif elem n absentPublic then false else true) 0 fallbackPublic12 = true := by decide +kernel
theorem countPublic12 : count 0 fallbackPublic12 = 260 := by decide +kernel
theorem absentPublic13 : allL (fun n => bif elem n absentPublic then false else true) 0 fallbackPublic13 = true := by decide +kernel
theorem countPublic13 : count 0 fallbackPublic13 = 210 := by decide +kernel
theorem absentPublic14 : allL (fun n => bif elem n absentPublic then false else true) 0 fallbackPublic14 = true := by decide +kernel
theorem countPublic14 : count 0 fallbackPublic14 = 279 := by decide +kernel
theorem absentPublic15 : allL (fun n => bif elem n absentPublic then false else true) 0 fallbackPublic15 = true := by decide +kernel
theorem countPublic15 : count 0 fallbackPublic15 = 300 := by decide +kernel
theorem absentPublic16 : allL (fun n => bif elem n absentPublic then false else true) 0 fallbackPublic16 = true := by decide +kernel
theorem countPublic16 : count 0 fallbackPublic16 = 276 := by decide +kernel
theorem absentPublic17 : allL (fun n => bif elem n absentPublic then false else true) 0 fallbackPublic17 = true := by decide +kernel
theorem countPublic17 : count 0 fallbackPublic17 = 271 := by decide +kernel
theorem absentPublic18 : allL (fun n => bif elem n absentPublic then false else true) 0 fallbackPublic18 = true := by decide +kernel
theorem countPublic18 : count 0 fallbackPublic18 = 217 := by decide +kernel
theorem absentPublic19 : allL (fun n => bif elem n absentPublic then false else true) 0 fallbackPublic19 = true := by decide +kernel
theorem countPublic19 : count 0 fallbackPublic19 = 241 := by decide +kernel
theorem absentPublic20 : allL (fun n => bif elem n absentPublic then false else true) 0 fallbackPublic20 = true := by decide +kernel
theorem countPublic20 : count 0 fallbackPublic20 = 260 := by decide +kernel
theorem absentPublic21 : allL (fun n => bif elem n absentPublic then false else true) 0 fallbackPublic21 = true := by decide +kernel
theorem countPublic21 : count 0 fallbackPublic21 = 144 := by decide +kernel
theorem absentPublic22 : allL (fun n => bif elem n absentPublic then false else true) 0 fallbackPublic22 = true := by decide +kernel
theorem countPublic22 : count 0 fallbackPublic22 = 115 := by decide +kernel
theorem absentPublic23 : allL (fun n => bif elem n absentPublic then false else true) 0 fallbackPublic23 = true := by decide +kernel
theorem countPublic23 : count 0 fallbackPublic23 = 75 := by decide +kernel
theorem absentPublic24 : allL (fun n => bif elem n absentPublic then false else true) 0 fallbackPublic24 = true := by decide +kernel
theorem countPublic24 : count 0 fallbackPublic24 = 75 := by decide +kernel
theorem absentPublic25 : allL (fun n => bif elem n absentPublic then false else true) 0 fallbackPublic25 = true := by decide +kernel
theorem countPublic25 : count 0 fallbackPublic25 = 75 := by decide +kernel
theorem absentPublic26 : allL (fun n => bif elem n absentPublic then false else true) 0 fallbackPublic26 = true := by decide +kernel
theorem countPublic26 : count 0 fallbackPublic26 = 75 := by decide +kernel
theorem absentPublic27 : allL (fun n => bif elem n absentPublic then false else true) 0 fallbackPublic27 = true := by decide +kernel
theorem countPublic27 : count 0 fallbackPublic27 = 75 := by decide +kernel
theorem absentPublic28 : allL (fun n => bif elem n absentPublic then false else true) 0 fallbackPublic28 = true := by decide +kernel
theorem countPublic28 : count 0 fallbackPublic28 = 75 := by decide +kernel
theorem absentPublic29 : allL (fun n => bif elem n absentPublic then false else true) 0 fallbackPublic29 = true := by decide +kernel
theorem countPublic29 : count 0 fallbackPublic29 = 75 := by decide +kernel
theorem absentPublic30 : allL (fun n => bif elem n absentPublic then false else true) 0 fallbackPublic30 = true := by decide +kernel
theorem countPublic30 : count 0 fallbackPublic30 = 75 := by decide +kernel
theorem absentPublic31 : allL (fun n => bif elem n absentPublic then false else true) 0 fallbackPublic31 = true := by decide +kernel
theorem countPublic31 : count 0 fallbackPublic31 = 75 := by decide +kernel
theorem absentPublic32 : allL (fun n => bif elem n absentPublic then false else true) 0 fallbackPublic32 = true := by decide +kernel
theorem countPublic32 : count 0 fallbackPublic32 = 75 := by decide +kernel
theorem absentPublic33 : allL (fun n => bif elem n absentPublic then false else true) 0 fallbackPublic33 = true := by decide +kernel
theorem countPublic33 : count 0 fallbackPublic33 = 75 := by decide +kernel
theorem absentPublic34 : allL (fun n => bif elem n absentPublic then false else true) 0 fallbackPublic34 = true := by decide +kernel
theorem countPublic34 : count 0 fallbackPublic34 = 75 := by decide +kernel
theorem absentPublic35 : allL (fun n => bif elem n absentPublic then false else true) 0 fallbackPublic35 = true := by decide +kernel
theorem countPublic35 : count 0 fallbackPublic35 = 75 := by decide +kernel
theorem absentPublic36 : allL (fun n => bif elem n absentPublic then false else true) 0 fallbackPublic36 = true := by decide +kernel
theorem countPublic36 : count 0 fallbackPublic36 = 75 := by decide +kernel
theorem absentPublic37 : allL (fun n => bif elem n absentPublic then false else true) 0 fallbackPublic37 = true := by decide +kernel
theorem countPublic37 : count 0 fallbackPublic37 = 26 := by decide +kernel

theorem absentsPublic : AllParts absentPublic [fallbackPublic00, fallbackPublic01, fallbackPublic02, fallbackPublic03, fallbackPublic04, fallbackPublic05, fallbackPublic06, fallbackPublic07, fallbackPublic08, fallbackPublic09, fallbackPublic10, fallbackPublic11, fallbackPublic12, fallbackPublic13, fallbackPublic14, fallbackPublic15, fallbackPublic16, fallbackPublic17, fallbackPublic18, fallbackPublic19, fallbackPublic20, fallbackPublic21, fallbackPublic22, fallbackPublic23, fallbackPublic24, fallbackPublic25, fallbackPublic26, fallbackPublic27, fallbackPublic28, fallbackPublic29, fallbackPublic30, fallbackPublic31, fallbackPublic32, fallbackPublic33, fallbackPublic34, fallbackPublic35, fallbackPublic36, fallbackPublic37] :=
  ⟨absentPublic00, absentPublic01, absentPublic02, absentPublic03, absentPublic04, absentPublic05, absentPublic06, absentPublic07, absentPublic08, absentPublic09, absentPublic10, absentPublic11, absentPublic12, absentPublic13, absentPublic14, absentPublic15, absentPublic16, absentPublic17, absentPublic18, absentPublic19, absentPublic20, absentPublic21, absentPublic22, absentPublic23, absentPublic24, absentPublic25, absentPublic26, absentPublic27, absentPublic28, absentPublic29, absentPublic30, absentPublic31, absentPublic32, absentPublic33, absentPublic34, absentPublic35, absentPublic36, absentPublic37, trivial⟩

theorem countsPublic : Counts [220, 262, 229, 197, 230, 299, 278, 300, 300, 300, 300, 300, 260, 210, 279, 300, 276, 271, 217, 241, 260, 144, 115, 75, 75, 75, 75, 75, 75, 75, 75, 75, 75, 75, 75, 75, 75, 26] [fallbackPublic00, fallbackPublic01, fallbackPublic02, fallbackPublic03, fallbackPublic04, fallbackPublic05, fallbackPublic06, fallbackPublic07, fallbackPublic08, fallbackPublic09, fallbackPublic10, fallbackPublic11, fallbackPublic12, fallbackPublic13, fallbackPublic14, fallbackPublic15, fallbackPublic16, fallbackPublic17, fallbackPublic18, fallbackPublic19, fallbackPublic20, fallbackPublic21, fallbackPublic22, fallbackPublic23, fallbackPublic24, fallbackPublic25, fallbackPublic26, fallbackPublic27, fallbackPublic28, fallbackPublic29, fallbackPublic30, fallbackPublic31, fallbackPublic32, fallbackPublic33, fallbackPublic34, fallbackPublic35, fallbackPublic36, fallbackPublic37] :=
  ⟨countPublic00, countPublic01, countPublic02, countPublic03, countPublic04, countPublic05, countPublic06, countPublic07, countPublic08, countPublic09, countPublic10, countPublic11, countPublic12, countPublic13, countPublic14, countPublic15, countPublic16, countPublic17, countPublic18, countPublic19, countPublic20, countPublic21, countPublic22, countPublic23, countPublic24, countPublic25, countPublic26, countPublic27, countPublic28, countPublic29, countPublic30, countPublic31, countPublic32, countPublic33, countPublic34, countPublic35, countPublic36, countPublic37, trivial⟩

theorem absentPrivate00 : allL (fun n => bif elem n absentAll then false else true) 0 fallbackPrivate00 = true := by decide +kernel
theorem countPrivate00 : count 0 fallbackPrivate00 = 204 := by decide +kernel
theorem absentPrivate01 : allL (fun n => bif elem n absentAll then false else true) 0 fallbackPrivate01 = true := by decide +kernel
theorem countPrivate01 : count 0 fallbackPrivate01 = 292 := by decide +kernel
theorem absentPrivate02 : allL (fun n => bif elem n absentAll then false else true) 0 fallbackPrivate02 = true := by decide +kernel
theorem countPrivate02 : count 0 fallbackPrivate02 = 260 := by decide +kernel
theorem absentPrivate03 : allL (fun n => bif elem n absentAll then false else true) 0 fallbackPrivate03 = true := by decide +kernel
theorem countPrivate03 : count 0 fallbackPrivate03 = 134 := by decide +kernel
theorem absentPrivate04 : allL (fun n => bif elem n absentAll then false else true) 0 fallbackPrivate04 = true := by decide +kernel
theorem countPrivate04 : count 0 fallbackPrivate04 = 140 := by decide +kernel
theorem absentPrivate05 : allL (fun n => bif elem n absentAll then false else true) 0 fallbackPrivate05 = true := by decide +kernel
theorem countPrivate05 : count 0 fallbackPrivate05 = 295 := by decide +kernel
theorem absentPrivate06 : allL (fun n => bif elem n absentAll then false else true) 0 fallbackPrivate06 = true := by decide +kernel
theorem countPrivate06 : count 0 fallbackPrivate06 = 198 := by decide +kernel
theorem absentPrivate07 : allL (fun n => bif elem n absentAll then false else true) 0 fallbackPrivate07 = true := by decide +kernel
theorem countPrivate07 : count 0 fallbackPrivate07 = 205 := by decide +kernel
theorem absentPrivate08 : allL (fun n => bif elem n absentAll then false else true) 0 fallbackPrivate08 = true := by decide +kernel
theorem countPrivate08 : count 0 fallbackPrivate08 = 174 := by decide +kernel
theorem absentPrivate09 : allL (fun n => bif elem n absentAll then false else true) 0 fallbackPrivate09 = true := by decide +kernel
theorem countPrivate09 : count 0 fallbackPrivate09 = 156 := by decide +kernel
theorem absentPrivate10 : allL (fun n => bif elem n absentAll then false else true) 0 fallbackPrivate10 = true := by decide +kernel
theorem countPrivate10 : count 0 fallbackPrivate10 = 198 := by decide +kernel
theorem absentPrivate11 : allL (fun n => bif elem n absentAll then false else true) 0 fallbackPrivate11 = true := by decide +kernel
theorem countPrivate11 : count 0 fallbackPrivate11 = 127 := by decide +kernel
theorem absentPrivate12 : allL (fun n => bif elem n absentAll then false else true) 0 fallbackPrivate12 = true := by decide +kernel
theorem countPrivate12 : count 0 fallbackPrivate12 = 186 := by decide +kernel
theorem absentPrivate13 : allL (fun n => bif elem n absentAll then false else true) 0 fallbackPrivate13 = true := by decide +kernel
theorem countPrivate13 : count 0 fallbackPrivate13 = 155 := by decide +kernel
theorem absentPrivate14 : allL (fun n => bif elem n absentAll then false else true) 0 fallbackPrivate14 = true := by decide +kernel
theorem countPrivate14 : count 0 fallbackPrivate14 = 127 := by decide +kernel

theorem absentsPrivate : AllParts absentAll [fallbackPrivate00, fallbackPrivate01, fallbackPrivate02, fallbackPrivate03, fallbackPrivate04, fallbackPrivate05, fallbackPrivate06, fallbackPrivate07, fallbackPrivate08, fallbackPrivate09, fallbackPrivate10, fallbackPrivate11, fallbackPrivate12, fallbackPrivate13, fallbackPrivate14] :=
  ⟨absentPrivate00, absentPrivate01, absentPrivate02, absentPrivate03, absentPrivate04, absentPrivate05, absentPrivate06, absentPrivate07, absentPrivate08, absentPrivate09, absentPrivate10, absentPrivate11, absentPrivate12, absentPrivate13, absentPrivate14, trivial⟩

theorem countsPrivate : Counts [204, 292, 260, 134, 140, 295, 198, 205, 174, 156, 198, 127, 186, 155, 127] [fallbackPrivate00, fallbackPrivate01, fallbackPrivate02, fallbackPrivate03, fallbackPrivate04, fallbackPrivate05, fallbackPrivate06, fallbackPrivate07, fallbackPrivate08, fallbackPrivate09, fallbackPrivate10, fallbackPrivate11, fallbackPrivate12, fallbackPrivate13, fallbackPrivate14] :=
  ⟨countPrivate00, countPrivate01, countPrivate02, countPrivate03, countPrivate04, countPrivate05, countPrivate06, countPrivate07, countPrivate08, countPrivate09, countPrivate10, countPrivate11, countPrivate12, countPrivate13, countPrivate14, trivial⟩

theorem hasCoZa : elem 418661691235 fallbackPublic22 = true := by decide +kernel
theorem hasNomZa : elem 107177392828270 fallbackPublic22 = true := by decide +kernel
theorem hasNo : elem 28526 fallbackPublic14 = true := by decide +kernel
theorem hasOsHordaland : elem 578579691931186097780222933284582255 fallbackPublic15 = true := by decide +kernel
theorem hasCom : elem 7171939 fallbackPublic02 = true := by decide +kernel
theorem hasUk : elem 27509 fallbackPublic19 = true := by decide +kernel
theorem hasAcUk : elem 461527475041 fallbackPublic19 = true := by decide +kernel
theorem hasStarFk : elem 1801858602 fallbackPublic03 = true := by decide +kernel
theorem hasBlogspot : elem 33868525207725916086682479714 fallbackPrivate07 = true := by decide +kernel
theorem hasBeginIcann : elem 6449242282420851494498405136455388051634222907130043205084153655087 fallbackPublic00 = true := by decide +kernel
theorem hasEndIcann : elem 98407627600415824806189043219839295221469281638278322093829935 fallbackPublic37 = true := by decide +kernel
theorem hasEndPrivate : elem 6449242282420851494498405133400822502701745175249822451146973785903 fallbackPrivate14 = true := by decide +kernel
theorem hasFutureCms : elem 2360459021640969931810348139425322 fallbackPrivate07 = true := by decide +kernel
theorem hasCustomerOci : elem 9533142343844860257450238418248044898364970 fallbackPrivate11 = true := by decide +kernel
theorem hasHrsn : elem 40288091495672537404805627786119244885546 fallbackPrivate11 = true := by decide +kernel
theorem hasSnowflake : elem 583816577522192615045499088828313130 fallbackPrivate13 = true := by decide +kernel
theorem hasFirenet : elem 32306344053551150776998833706 fallbackPrivate13 = true := by decide +kernel
theorem hasFutureCmsLonger : elem 39601930865219226995487481770338058317354 fallbackPrivate07 = true := by decide +kernel
theorem hasCustomerOciLonger : elem 40944534594926461703438914353778122454417462273191466 fallbackPrivate11 = true := by decide +kernel
theorem hasHrsnLonger : elem 173036035392169273678976884578131039539877821754922 fallbackPrivate11 = true := by decide +kernel
theorem hasSnowflakeLonger : elem 46254714682449880615608724837377589227156659793367203609555512874 fallbackPrivate13 = true := by decide +kernel
theorem hasFirenetLonger : elem 138754691163326265250374980044212874794 fallbackPrivate13 = true := by decide +kernel

end Fasttld.Inv
