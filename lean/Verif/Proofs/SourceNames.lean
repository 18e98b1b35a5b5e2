import Verif.Proofs.SourceWhole

/-!
# Running the text of Extract: the names of the result
-/

set_option linter.unusedSimpArgs false

namespace Fasttld.GoLang
open Fasttld

variable {w : Nat} {idna : Idna} {texts : Lib} {isPrint : Nat → Bool} {B : Int}

section
variable (f n : Nat) (t : Val) (e : URLParams) (u : ExtractResult) (s : Bytes) (o c h a x y : Val) (node : Val) (hl en : Bool) (W : Walk)

local notation "EX" => exec (tableCtx w idna texts isPrint) (call (tableCtx w idna texts isPrint) Source.program (f + 1)) n

theorem exec_22 (hB : Big w B) (hw : 2 ^ 31 ≤ B) (hs : s.length + 4 < B) (hf : s.length + 5 ≤ f) :
    EX Source.Extract_22 (walkEnv t e u s o c h a x y node hl en W []) =
      (ofGo (stageIPv4 s W u)).bind fun r => match r with
        | some u4 => .ok (.ret [.result u4, .err none])
        | none => .ok (.norm (walkEnv t e u s o c h a x y node hl en W [])) := by
  have hip := run_isIPv4 (idna := idna) (texts := texts) (isPrint := isPrint) hB hw f s hs hf
  unfold stageIPv4
  by_cases h7 : 7 ≤ s.length
  · have h7' : ¬ ((s.length : Int) < 7) := by omega
    cases hi : index s 0 with
    | error er => simp [Source.Extract_22, h7, h7', hi, table]
    | ok b =>
      cases hn : numericSet.contains b with
      | false => simp [Source.Extract_22, h7, h7', hi, table, hn]
      | true =>
        cases h4 : isIPv4 s with
        | error er => simp [Source.Extract_22, h7, h7', hi, table, hn, hip, h4]
        | ok b4 =>
          cases b4 with
          | false => simp [Source.Extract_22, h7, h7', hi, table, hn, hip, h4]
          | true =>
            cases hd : slice s 0 W.previousSepIdx <;> simp [Source.Extract_22, h7, h7', hi, table, hn, hip, h4, hd]
  · have h7' : (s.length : Int) < 7 := by omega
    simp [Source.Extract_22, h7, h7', table]
    intro h8; omega

theorem exec_24 (hB : Big w B) (hw : 2 ^ 31 ≤ B) (hs : s.length + 4 < B) (hf : 1 ≤ f) :
    EX (.seq Source.Extract_23 Source.Extract_24) (walkEnv t e u s o c h a x y node hl en W []) =
      ofM isPrint (stageCheckChars s W u) fun W => .ok (.norm (walkEnv t e u s o c h a x y node hl en W [])) := by
  have hic := fun (l : Bytes) (h : l.length ≤ s.length) =>
    run_hasInvalidChars (idna := idna) (texts := texts) (isPrint := isPrint) hB hw f l (by omega) hf
  unfold stageCheckChars
  by_cases hsep : W.sepIdx = -1
  · cases hh : W.hasSuffix with
    | true =>
      cases hc : slice s 0 s.length with
      | error er => simp [Source.Extract_23, Source.Extract_24, hsep, hh, hc]
      | ok l =>
        have := hic l (slice_length_le hc)
        cases hv : hasInvalidChars l
        · simp [Source.Extract_23, Source.Extract_24, hsep, hh, hc, this, hv]
        · simp [Source.Extract_23, Source.Extract_24, hsep, hh, hc, this, hv]; rfl
    | false =>
      cases hc : slice s 0 W.previousSepIdx with
      | error er => simp [Source.Extract_23, Source.Extract_24, hsep, hh, hc]
      | ok l =>
        have := hic l (slice_length_le hc)
        cases hv : hasInvalidChars l
        · simp [Source.Extract_23, Source.Extract_24, hsep, hh, hc, this, hv]
        · simp [Source.Extract_23, Source.Extract_24, hsep, hh, hc, this, hv]; rfl
  · cases hh : W.hasSuffix with
    | true =>
      cases hc : slice s 0 W.suffixStartIdx with
      | error er => simp [Source.Extract_23, Source.Extract_24, hsep, hh, hc]
      | ok l =>
        have := hic l (slice_length_le hc)
        cases hv : hasInvalidChars l
        · simp [Source.Extract_23, Source.Extract_24, hsep, hh, hc, this, hv]
        · simp [Source.Extract_23, Source.Extract_24, hsep, hh, hc, this, hv]; rfl
    | false =>
      cases hc : slice s 0 W.previousSepIdx with
      | error er => simp [Source.Extract_23, Source.Extract_24, hsep, hh, hc]
      | ok l =>
        have := hic l (slice_length_le hc)
        cases hv : hasInvalidChars l
        · simp [Source.Extract_23, Source.Extract_24, hsep, hh, hc, this, hv]
        · simp [Source.Extract_23, Source.Extract_24, hsep, hh, hc, this, hv]; rfl

set_option maxHeartbeats 4000000 in
theorem exec_26 (hB : Big w B) (hw : 2 ^ 31 ≤ B) (hs : s.length + 4 < B) (hf : s.length + 1 ≤ f) :
    EX (.seq Source.Extract_25 Source.Extract_26) (walkEnv t e u s o c h a x y node hl en W []) =
      (ofGo (stageNames s W u)).bind fun r => .ok (.norm (walkEnv t e r.1 s o c h a x y node hl en W [.num .int r.2])) := by
  have hla := fun (l : Bytes) (h : l.length ≤ s.length) =>
    run_lastIndexAny (idna := idna) (texts := texts) (isPrint := isPrint) hB hw f l labelSeparatorsRuneSet (by omega) (by omega)
  have hsep := fun b => run_sepSize (c := tableCtx w idna texts isPrint) f b
  have hwr : ∀ z b, index s z = .ok b → NumTy.int.wrap w (z + sepSize b) = z + sepSize b := by
    intro z b hi
    have hb := index_bounds hi
    have hss : sepSize b = 1 ∨ sepSize b = 3 := by unfold sepSize; split <;> simp
    exact wrap_int hB (by omega) (by omega)
  unfold stageNames
  cases hh : W.hasSuffix with
  | true =>
    by_cases hlt : W.sepIdx < s.length
    · cases hi : index s W.sepIdx with
      | error er => simp [Source.Extract_25, Source.Extract_26, hh, hlt, hi, table]
      | ok b =>
      have hwb := hwr _ _ hi
      cases hsu : slice s (W.sepIdx + sepSize b) W.suffixEndIdx with
      | error er => simp [Source.Extract_25, Source.Extract_26, hh, hlt, hi, table, hsep, hwb, hsu]
      | ok suf =>
      cases hpre : slice s 0 W.sepIdx with
      | error er => simp [Source.Extract_25, Source.Extract_26, hh, hlt, hi, table, hsep, hwb, hsu, hpre]
      | ok pre =>
      have hlp := hla pre (slice_length_le hpre)
      cases hz : lastIndexAny pre labelSeparatorsRuneSet with
      | error er => simp [Source.Extract_25, Source.Extract_26, hh, hlt, hi, table, hsep, hwb, hsu, hpre, hlp, hz]
      | ok z =>
      by_cases hz1 : z = -1
      · subst hz1
        cases hr : slice s 0 W.suffixEndIdx <;>
          simp [Source.Extract_25, Source.Extract_26, hh, hlt, hi, table, hsep, hwb, hsu, hpre, hlp, hz, hr]
      · cases hi2 : index s z with
        | error er => simp [Source.Extract_25, Source.Extract_26, hh, hlt, hi, table, hsep, hwb, hsu, hpre, hlp, hz, hz1, hi2]
        | ok b2 =>
        have hwb2 := hwr _ _ hi2
        cases hd : slice s (z + sepSize b2) W.sepIdx with
        | error er => simp [Source.Extract_25, Source.Extract_26, hh, hlt, hi, table, hsep, hwb, hsu, hpre, hlp, hz, hz1, hi2, hwb2, hd]
        | ok dom =>
        cases hr : slice s (z + sepSize b2) W.suffixEndIdx <;>
          simp [Source.Extract_25, Source.Extract_26, hh, hlt, hi, table, hsep, hwb, hsu, hpre, hlp, hz, hz1, hi2, hwb2, hd, hr]
    · cases hr : slice s 0 W.suffixEndIdx <;> simp [Source.Extract_25, Source.Extract_26, hh, hlt, hr]
  | false =>
    cases hpre : slice s 0 W.suffixEndIdx with
    | error er => simp [Source.Extract_25, Source.Extract_26, hh, table, hpre]
    | ok pre =>
    have hlp := hla pre (slice_length_le hpre)
    cases hz : lastIndexAny pre labelSeparatorsRuneSet with
    | error er => simp [Source.Extract_25, Source.Extract_26, hh, table, hpre, hlp, hz]
    | ok z =>
    by_cases hz1 : z = -1
    · subst hz1
      simp [Source.Extract_25, Source.Extract_26, hh, table, hpre, hlp, hz]
    · cases hi2 : index s z with
      | error er => simp [Source.Extract_25, Source.Extract_26, hh, table, hsep, hpre, hlp, hz, hz1, hi2]
      | ok b2 =>
      have hwb2 := hwr _ _ hi2
      cases hd : slice s (z + sepSize b2) W.suffixEndIdx <;>
        simp [Source.Extract_25, Source.Extract_26, hh, table, hsep, hpre, hlp, hz, hz1, hi2, hwb2, hd]

theorem exec_27 (z : Int) :
    EX Source.Extract_27 (walkEnv t e u s o c h a x y node hl en W [.num .int z]) =
      (ofGo (stageSubDomain e s z u)).bind fun u => .ok (.norm (walkEnv t e u s o c h a x y node hl en W [.num .int z])) := by
  unfold stageSubDomain
  cases hi : e.ignoreSubDomains with
  | true => simp [Source.Extract_27, hi]
  | false =>
    by_cases hz : z = -1
    · simp [Source.Extract_27, hi, hz]
    · cases hd : slice s 0 z <;> simp [Source.Extract_27, hi, hz, hd]

theorem exec_30 (z : Int) :
    EX (.seq Source.Extract_28 (.seq Source.Extract_29 (.seq Source.Extract_30 .skip))) (walkEnv t e u s o c h a x y node hl en W [.num .int z]) =
      if u.domain.length = 0 then .ok (.ret [.result u, .err (some (Err.emptyDomain.text isPrint))])
      else .ok (.ret [.result { u with hostType := .hostName }, .err none]) := by
  by_cases hd : u.domain = []
  · simp [Source.Extract_28, hd]; rfl
  · simp [Source.Extract_28, Source.Extract_29, Source.Extract_30, hd, table]

end

end Fasttld.GoLang
