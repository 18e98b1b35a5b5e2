import Verif.Proofs.SourceExtract

/-!
# Running the text of Extract, from the host on
-/

set_option linter.unusedSimpArgs false

namespace Fasttld.GoLang
open Fasttld

variable {w : Nat} {idna : Idna} {texts : Lib} {isPrint : Nat → Bool} {B : Int}

theorem index_bounds {s : Bytes} {i : Int} {b : UInt8} (h : index s i = .ok b) : 0 ≤ i ∧ i < s.length := by
  unfold index at h
  split at h
  · split at h
    · next b' hb => have := (List.getElem?_eq_some_iff.1 hb).1; omega
    · cases h
  · cases h

/-- The variables when the loop over the labels runs. -/
@[simp] def walkEnv (t : Val) (e : URLParams) (u : ExtractResult) (s : Bytes) (o c h a x y : Val) (node : Val) (hl en : Bool)
    (W : Walk) (r : List Val) : Vars :=
  t :: .params e :: .result u :: .str s :: o :: c :: h :: a :: x :: y :: node :: .bool W.hasSuffix :: .bool hl :: .bool en ::
    .num .int W.previousSepIdx :: .num .int W.sepIdx :: .num .int W.suffixStartIdx :: .num .int W.suffixEndIdx :: r

section
variable (f n : Nat) (t : Val) (e : URLParams) (u : ExtractResult) (s : Bytes) (o c h a x y : Val)

local notation "EX" => exec (tableCtx w idna texts isPrint) (call (tableCtx w idna texts isPrint) Source.program (f + 1)) n

theorem exec_20 (t : Trie) : EX (.seq Source.Extract_18 (.seq Source.Extract_19 Source.Extract_20)) [.fastTLD t, .params e, .result u, .str s, o, c, h, a, x, y] =
    .ok (.norm (walkEnv (.fastTLD t) e u s o c h a x y (.node t) false false (⟨false, 0, s.length, s.length, s.length⟩ : Walk) [])) := by
  simp [Source.Extract_18, Source.Extract_19, Source.Extract_20]

/-- The last three statements of the loop over the labels. -/
def walkTail : Stmt :=
  (.seq (.ite (.define ["_", "ok"] [(.call .Get [(.field (.var 10 "node") .matches), (.strLit
  [42])])]) (.var 19 "ok") (.seq (.ite (.define ["_", "ok"] [(.call .Get [(.field (.var 10 "node") .matches), (.bin .add
  (.strLit [33]) (.var 18 "label"))])]) (.var 20 "ok") (.seq (.assign [(.var 15 "sepIdx")] [(.var 14 "previousSepIdx")])
  .skip) .skip) (.seq .brk .skip)) .skip) (.seq (.assign [(.var 18 "label"), .blank] [(.call .QueryUnescape [(.var 18
  "label")])]) (.seq (.ite (.define ["val", "ok"] [(.call .Get [(.field (.var 10 "node") .matches), (.var 18 "label")])])
  (.var 20 "ok") (.seq (.assign [(.var 16 "suffixStartIdx")] [(.var 15 "sepIdx")]) (.seq (.ite .skip (.bin .and (.not (.var
  11 "hasSuffix")) (.field (.var 19 "val") .end)) (.seq (.assign [(.var 17 "suffixEndIdx")] [(.var 14 "previousSepIdx")])
  (.seq (.assign [(.var 11 "hasSuffix")] [(.boolLit true)]) .skip)) .skip) (.seq (.assign [(.var 10 "node")] [(.var 19
  "val")]) (.seq (.ite .skip (.bin .eq (.call .Len [(.field (.var 19 "val") .matches)]) (.intLit 0)) (.seq .brk .skip) .skip)
  .skip)))) (.seq (.ite .skip (.bin .ne (.var 14 "previousSepIdx") (.call .len [(.var 3 "netloc")])) (.seq (.assign [(.var 15
  "sepIdx")] [(.var 14 "previousSepIdx")]) .skip) .skip) (.seq .brk .skip))) .skip)))

set_option maxHeartbeats 4000000 in
theorem exec_walkTail (node : Trie) (hl en : Bool) (W : Walk) (l : Bytes) :
    EX walkTail (walkEnv t e u s o c h a x y (.node node) hl en W [.str l]) =
      match node.get (b! "*") with
      | some _ =>
        match node.get (33 :: l) with
        | some _ => .ok (.brk (walkEnv t e u s o c h a x y (.node node) hl en { W with sepIdx := W.previousSepIdx } [.str l]))
        | none => .ok (.brk (walkEnv t e u s o c h a x y (.node node) hl en W [.str l]))
      | none =>
        match node.get (unescapeOrEmpty l) with
        | some val =>
          let W := { W with suffixStartIdx := W.sepIdx }
          let W := if !W.hasSuffix && val.isEnd then { W with suffixEndIdx := W.previousSepIdx, hasSuffix := true } else W
          if val.kids.length = 0 then .ok (.brk (walkEnv t e u s o c h a x y (.node val) hl en W [.str (unescapeOrEmpty l)]))
          else .ok (.norm (walkEnv t e u s o c h a x y (.node val) hl en W [.str (unescapeOrEmpty l)]))
        | none =>
          if W.previousSepIdx ≠ s.length then
            .ok (.brk (walkEnv t e u s o c h a x y (.node node) hl en { W with sepIdx := W.previousSepIdx } [.str (unescapeOrEmpty l)]))
          else .ok (.brk (walkEnv t e u s o c h a x y (.node node) hl en W [.str (unescapeOrEmpty l)])) := by
  have hstar : (b! "*") = [42] := rfl
  rw [hstar]
  have hget : ∀ (t : Trie) (k : Bytes), builtin (tableCtx w idna texts isPrint) .Get [.map t, .str k] =
      .ok (.tuple [((t.get k).map Val.node).getD (.err none), .bool (t.get k).isSome]) := by
    intro t k
    simp only [builtin]
    cases t.get k <;> rfl
  have hq : builtin (tableCtx w idna texts isPrint) .QueryUnescape [.str l] =
      .ok (.tuple [.str (unescapeOrEmpty l), .err (match queryUnescape l with
        | .ok _ => none
        | .error esc => some ((Err.badEscape esc).text isPrint))]) := by
    simp only [builtin, unescapeOrEmpty]
    cases queryUnescape l <;> rfl
  have hlen : ∀ (t : Trie), builtin (tableCtx w idna texts isPrint) .Len [.map t] = .ok (.num .int t.kids.length) := fun _ => rfl
  generalize (match queryUnescape l with
        | .ok _ => none
        | .error esc => some ((Err.badEscape esc).text isPrint)) = er at hq
  cases h1 : node.get [42] with
  | some v =>
    cases h2 : node.get (33 :: l) <;> simp [walkTail, hget, h1, h2]
  | none =>
    cases h3 : node.get (unescapeOrEmpty l) with
    | none =>
      by_cases hp : W.previousSepIdx = s.length <;> simp [walkTail, hget, hlen, h1, hq, h3, hp]
    | some val =>
      cases hk : val.kids with
      | nil =>
        cases hs : W.hasSuffix <;> cases hv : val.isEnd <;> simp [walkTail, hget, hlen, h1, hq, h3, hs, hv, hk]
      | cons k ks =>
        have hpos : ¬ ((ks.length : Int) + 1 = 0) := by omega
        cases hs : W.hasSuffix <;> cases hv : val.isEnd <;> simp [walkTail, hget, hlen, h1, hq, h3, hs, hv, hk, hpos]

/-- What the loop over the labels does before it looks at the trie, then something else. -/
def loopHead (T : Stmt) : Stmt :=
  (.seq (.declare ["label"] .string) (.seq (.assign [(.var 14 "previousSepIdx")] [(.var 15 "sepIdx")]) (.seq (.assign [(.var
  15 "sepIdx")] [(.call .lastIndexAny [(.slice (.var 3 "netloc") (.intLit 0) (.var 15 "sepIdx")), (.glob
  .labelSeparatorsRuneSet)])]) (.seq (.ite .skip (.bin .ne (.var 15 "sepIdx") (.neg (.intLit 1))) (.seq (.assign [(.var 18
  "label")] [(.slice (.var 3 "netloc") (.bin .add (.var 15 "sepIdx") (.call .sepSize [(.index (.var 3 "netloc") (.var 15
  "sepIdx"))])) (.var 14 "previousSepIdx"))]) (.seq (.ite .skip (.bin .eq (.call .len [(.var 18 "label")]) (.intLit 0)) (.seq
  (.ite .skip (.not (.var 12 "hasLabels")) (.seq (.assign [(.var 17 "suffixEndIdx")] [(.var 15 "sepIdx")]) (.seq .cont
  .skip)) .skip) (.seq (.ret [(.var 2 "urlParts"), (.call .errorsNew [(.strLit [105, 110, 118, 97, 108, 105, 100, 32, 99,
  111, 110, 115, 101, 99, 117, 116, 105, 118, 101, 32, 108, 97, 98, 101, 108, 32, 115, 101, 112, 97, 114, 97, 116, 111, 114,
  115, 32, 111, 110, 32, 108, 101, 102, 116, 45, 104, 97, 110, 100, 32, 115, 105, 100, 101, 32, 111, 102, 32, 97, 32, 108,
  97, 98, 101, 108])])]) .skip)) .skip) (.seq (.assign [(.var 12 "hasLabels")] [(.boolLit true)]) .skip))) (.seq (.assign
  [(.var 18 "label")] [(.slice (.var 3 "netloc") (.intLit 0) (.var 14 "previousSepIdx"))]) (.seq (.assign [(.var 13 "end")]
  [(.boolLit true)]) .skip))) T))))

theorem loop2_eq : Source.Extract_loop2 = loopHead walkTail := rfl

set_option maxHeartbeats 4000000 in
theorem exec_loopHead (T : Stmt) (hB : Big w B) (hw : 2 ^ 31 ≤ B) (hs : s.length + 4 < B) (hf : s.length + 1 ≤ f) (node : Val) (hl : Bool) (W : Walk) :
    EX (loopHead T) (walkEnv t e u s o c h a x y node hl false W []) =
      (ofGo (slice s 0 W.sepIdx)).bind fun pre => (ofGo (lastIndexAny pre labelSeparatorsRuneSet)).bind fun z =>
      if z ≠ -1 then (ofGo (index s z)).bind fun b => (ofGo (slice s (z + sepSize b) W.sepIdx)).bind fun l =>
        if l.length = 0 then
          if !hl then .ok (.cont (walkEnv t e u s o c h a x y node hl false
            { W with previousSepIdx := W.sepIdx, sepIdx := z, suffixEndIdx := z } [.str l]))
          else .ok (.ret [.result u, .err (some (Err.consecutiveSeparators.text isPrint))])
        else EX T (walkEnv t e u s o c h a x y node true false { W with previousSepIdx := W.sepIdx, sepIdx := z } [.str l])
      else (ofGo (slice s 0 W.sepIdx)).bind fun l =>
        EX T (walkEnv t e u s o c h a x y node hl true { W with previousSepIdx := W.sepIdx, sepIdx := z } [.str l]) := by
  unfold loopHead
  have hsep := fun b => run_sepSize (c := tableCtx w idna texts isPrint) f b
  cases hpre : slice s 0 W.sepIdx with
  | error er => simp [hpre]
  | ok pre =>
    have hl1 := slice_length_le hpre
    have hla := run_lastIndexAny (idna := idna) (texts := texts) (isPrint := isPrint) hB hw f pre labelSeparatorsRuneSet (by omega) (by omega)
    cases hz : lastIndexAny pre labelSeparatorsRuneSet with
    | error er => simp [hpre, hla, hz, table]
    | ok z =>
      by_cases hz1 : z = -1
      · subst hz1
        simp [hpre, hla, hz, table]
      · cases hi : index s z with
        | error er => simp [hpre, hla, hz, table, hz1, hi]
        | ok b =>
          have hb := index_bounds hi
          have hss : sepSize b = 1 ∨ sepSize b = 3 := by unfold sepSize; split <;> simp
          have hwr : NumTy.int.wrap w (z + sepSize b) = z + sepSize b := wrap_int hB (by omega) (by omega)
          cases hsl : slice s (z + sepSize b) W.sepIdx with
          | error er => simp [hpre, hla, hz, table, hz1, hi, hsep, hwr, hsl]
          | ok l =>
            by_cases hn : l = []
            · subst hn
              cases hl
              · simp [hpre, hla, hz, table, hz1, hi, hsep, hwr, hsl]
              · simp [hpre, hla, hz, table, hz1, hi, hsep, hwr, hsl]
                rfl
            · simp [hpre, hla, hz, table, hz1, hi, hsep, hwr, hsl, hn]

end

end Fasttld.GoLang
