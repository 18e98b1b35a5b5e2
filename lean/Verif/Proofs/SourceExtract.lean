import Verif.Proofs.SourceNet

/-!
# Running the text of Extract, up to the host
-/

set_option linter.unusedSimpArgs false

namespace Fasttld.GoLang
open Fasttld

variable {w : Nat} {idna : Idna} {texts : Lib} {isPrint : Nat → Bool} {B : Int}

/-- What Extract returns. -/
def retVals (isPrint : Nat → Bool) (u : ExtractResult) (e : Option Err) : List Val :=
  [.result u, .err (e.map (Err.text isPrint))]

/-- A stage of the model and what comes after it. -/
def ofM (isPrint : Nat → Bool) {α : Type} (m : M α) (k : α → Comp Out) : Comp Out :=
  match m with
  | .ok a => k a
  | .error (.fault f) => .error (.fault f)
  | .error (.ret u e) => .ok (.ret (retVals isPrint u e))

section
variable {α β : Type}

@[simp] theorem ofM_ok (a : α) (k) : ofM isPrint (.ok a) k = k a := rfl
@[simp] theorem ofM_fail (u e) (k : α → Comp Out) : ofM isPrint (fail u e) k = .ok (.ret [.result u, .err (some (e.text isPrint))]) := rfl
@[simp] theorem ofM_liftGo (g : Go α) (k) : ofM isPrint (liftGo g) k = (ofGo g).bind k := by cases g <;> rfl
@[simp] theorem ofM_bind (m : M α) (g : α → M β) (k) : ofM isPrint (m >>= g) k = ofM isPrint m fun a => ofM isPrint (g a) k := by
  match m with
  | .ok a => rfl
  | .error (.fault f) => rfl
  | .error (.ret u e) => rfl
@[simp] theorem ofM_ite (p : Prop) [Decidable p] (x y : M α) (k) : ofM isPrint (if p then x else y) k = if p then ofM isPrint x k else ofM isPrint y k := by
  split <;> rfl

theorem ofM_andThen (m : M α) (env : α → Vars) (k : Vars → Comp Out) :
    (ofM isPrint m fun a => .ok (.norm (env a))).bind (Out.andThen k) = ofM isPrint m fun a => k (env a) := by
  match m with
  | .ok a => rfl
  | .error (.fault f) => rfl
  | .error (.ret u e) => rfl

theorem ofM_congr {m : M α} {k k' : α → Comp Out} (h : ∀ a, m = .ok a → k a = k' a) : ofM isPrint m k = ofM isPrint m k' := by
  match m, h with
  | .ok a, h => exact h a rfl
  | .error (.fault f), _ => rfl
  | .error (.ret u e), _ => rfl

theorem ofGo_congr {m : Go α} {k k' : α → Comp β} (h : ∀ a, m = .ok a → k a = k' a) : (ofGo m).bind k = (ofGo m).bind k' := by
  match m, h with
  | .ok a, h => exact h a rfl
  | .error f, _ => rfl
end

section
variable (f n : Nat) (t : Val) (e : URLParams)

local notation "EX" => exec (tableCtx w idna texts isPrint) (call (tableCtx w idna texts isPrint) Source.program (f + 1)) n

theorem exec_2 (hB : Big w B) (hw : 2 ^ 31 ≤ B) (he : e.url.length + 4 < B) (hf : e.url.length + 1 ≤ f) (u : ExtractResult) :
    EX Source.Extract_2 [t, .params e, .result u] =
      (ofGo (fastTrim e.url whitespaceRuneSet .trimBoth)).bind fun s => .ok (.norm [t, .params e, .result u, .str s]) := by
  have ht := run_fastTrim (idna := idna) (texts := texts) (isPrint := isPrint) hB hw f e.url whitespaceRuneSet .trimBoth he hf
  simp only [modeNum] at ht
  simp [Source.Extract_2, table, ht]

theorem exec_3 (hB : Big w B) (hw : 2 ^ 31 ≤ B) (u : ExtractResult) (s : Bytes) (hs : s.length + 4 < B) (hf : s.length + 1 ≤ f) :
    EX Source.Extract_3 [t, .params e, .result u, .str s] =
      (ofGo (stageScheme s u)).bind fun r => .ok (.norm [t, .params e, .result r.1, .str r.2]) := by
  have ht := run_getSchemeEndIndex (idna := idna) (texts := texts) (isPrint := isPrint) hB hw f s hs hf
  simp [Source.Extract_3, table, ht, stageScheme]

theorem indexLastByteBefore_bounds {s : Bytes} {b : UInt8} {as : AsciiSet} {z : Int} (h : indexLastByteBefore s b as = .ok z) :
    -1 ≤ z ∧ z < s.length := by
  have key : ∀ (l : Bytes) (i : Nat) (best : Int), -1 ≤ best → best < i → -1 ≤ lastIndexByteLoop b l i best ∧ lastIndexByteLoop b l i best < i + l.length := by
    intro l
    induction l with
    | nil => intro i best h1 h2; simp [lastIndexByteLoop]; omega
    | cons x l ih =>
      intro i best h1 h2
      simp only [lastIndexByteLoop, List.length_cons]
      split
      · have := ih (i + 1) i (by omega) (by omega); omega
      · have := ih (i + 1) best (by omega) (by omega); omega
  have key' : ∀ l : Bytes, -1 ≤ lastIndexByte l b ∧ lastIndexByte l b < l.length := fun l => by
    have := key l 0 (-1) (by omega) (by omega)
    simpa [lastIndexByte] using this
  unfold indexLastByteBefore at h
  simp only at h
  split at h
  · cases hs : Fasttld.slice s 0 (indexAnyASCII s as) with
    | error er => rw [hs] at h; cases h
    | ok u =>
      rw [hs] at h
      have hl := slice_length_le hs
      have := key' u
      cases h
      omega
  · have := key' s
    cases h
    omega

theorem exec_4 (hB : Big w B) (hw : 2 ^ 31 ≤ B) (u : ExtractResult) (s : Bytes) (hs : s.length + 4 < B) (hf : 2 ≤ f) :
    EX Source.Extract_4 [t, .params e, .result u, .str s] =
      (ofGo (stageUserInfo s u)).bind fun r => .ok (.norm [t, .params e, .result r.1, .str r.2]) := by
  have ht := run_indexLastByteBefore (c := tableCtx w idna texts isPrint) f s 64 invalidUserInfoCharsSet hf
  have hc : call (tableCtx w idna texts isPrint) Source.program (f + 1) .indexLastByteBefore
      [.str s, .num .const 64, .ascii invalidUserInfoCharsSet] =
      (ofGo (indexLastByteBefore s 64 invalidUserInfoCharsSet)).bind fun z => .ok (.num .int z) := ht
  simp [Source.Extract_4, table, stageUserInfo, hc]
  refine ofGo_congr fun z hz => ?_
  have := indexLastByteBefore_bounds hz
  rw [wrap_int hB (by omega) (by omega)]

theorem exec_9 (hB : Big w B) (hw : 2 ^ 31 ≤ B) (u : ExtractResult) (s : Bytes) (hs : s.length + 4 < B) (o c h : Int) (hc : -1 ≤ c) (hc' : c < s.length) :
    EX Source.Extract_9 [t, .params e, .result u, .str s, .num .int o, .num .int c, .num .int h] =
      .ok (.norm [t, .params e, .result u, .str s, .num .int o, .num .int c, .num .int (adjustHostEnd s.length c h)]) := by
  have h1 : NumTy.int.wrap w ((s.length : Int) - 1) = s.length - 1 := wrap_int hB (by omega) (by omega)
  have h2 : NumTy.int.wrap w (c + 1) = c + 1 := wrap_int hB (by omega) (by omega)
  simp [Source.Extract_9, h1, h2, adjustHostEnd]
  split
  · rfl
  · split <;> rfl

theorem exec_10 (hB : Big w B) (hw : 2 ^ 31 ≤ B) (u : ExtractResult) (s : Bytes) (hs : s.length + 4 < B) (hf : s.length + 10 ≤ f) (o c h : Int) :
    EX Source.Extract_10 [t, .params e, .result u, .str s, .num .int o, .num .int c, .num .int h] =
      ofM isPrint (stageIPv6 s o c h u) fun u =>
      .ok (.norm [t, .params e, .result u, .str s, .num .int o, .num .int c, .num .int h]) := by
  simp [Source.Extract_10, stageIPv6]
  by_cases hc : o < c
  · simp [hc]
    cases hsl : Fasttld.slice s 1 c with
    | error er => rfl
    | ok inner =>
      have hl := slice_length_le hsl
      have h6 := run_isIPv6 (idna := idna) (texts := texts) (isPrint := isPrint) hB hw f inner (by omega) (by omega)
      have hx := fun a => run_indexAnyASCII (c := tableCtx w idna texts isPrint) f a endOfHostDelimitersSet (by omega)
      simp [h6, table, hx, hsl]
      rfl
  · simp [hc]

theorem exec_12 (u : ExtractResult) (s : Bytes) (o c h : Int) :
    EX Source.Extract_12 [t, .params e, .result u, .str s, .num .int o, .num .int c, .num .int h, .str []] =
      (ofGo (stageSplit s h)).bind fun r =>
      .ok (.norm [t, .params e, .result u, .str r.1, .num .int o, .num .int c, .num .int h, .str r.2]) := by
  simp [Source.Extract_12, stageSplit]

/-- What the scan for brackets leaves. -/
def scanOut (isPrint : Nat → Bool) (t : Val) (e : URLParams) (u : ExtractResult) (s : Bytes) : Scan → Comp Out
  | .err er => .ok (.ret [.result u, .err (some (er.text isPrint))])
  | .done o c h => .ok (.norm [t, .params e, .result u, .str s, .num .int o, .num .int c, .num .int h])

theorem scanOut_ite (u s) (p : Prop) [Decidable p] (x y) :
    scanOut isPrint t e u s (if p then x else y) = if p then scanOut isPrint t e u s x else scanOut isPrint t e u s y := by
  split <;> rfl

theorem loop_scan (hB : Big w B) (hw : 2 ^ 31 ≤ B) (u : ExtractResult) (s : Bytes) (hs : s.length + 4 < B)
    (g : Nat × UInt8 → List Val) (hg : ∀ i b, g (i, b) = [.num .int i, .num .byte b.toNat]) :
    ∀ (rest : Bytes) (i : Nat) (o c : Int),
      rangeOut (tableCtx w idna texts isPrint) (call (tableCtx w idna texts isPrint) Source.program (f + 1)) n
        Source.Extract_loop1 ((enumFrom i rest).map g)
        [t, .params e, .result u, .str s, .num .int o, .num .int c, .num .int (-1)] =
      scanOut isPrint t e u s (scanLoop s.length rest i o c) := by
  intro rest
  induction rest with
  | nil => intro i o c; simp [enumFrom, scanLoop, scanOut]
  | cons b rest ih =>
    intro i o c
    have ih := ih (i + 1)
    have h1 : NumTy.int.wrap w ((s.length : Int) - 1) = s.length - 1 := wrap_int hB (by omega) (by omega)
    simp only [enumFrom, List.map_cons, rangeOut_cons, hg, scanLoop]
    generalize rangeOut _ _ _ _ (List.map g (enumFrom (i + 1) rest)) = L at ih ⊢
    have e91 : ((b.toNat : Int) = 91) = (b = 91) := byte_eq b 91
    have e93 : ((b.toNat : Int) = 93) = (b = 93) := byte_eq b 93
    have hb : UInt8.ofNat b.toNat = b := UInt8.ofNat_toNat
    have i0 : ((0 : Int) < i) = (i > 0) := by simp only [eq_iff_iff]; omega
    simp [Source.Extract_loop1, table, h1, e91, e93, hb, i0]
    have hne : ¬ ((i : Int) = -1) := by omega
    simp only [scanOut_ite, ih]
    by_cases h91 : b = 91
    · subst h91
      by_cases hi : 0 < i
      · simp [hi]; rfl
      · obtain rfl : i = 0 := by omega
        simp [ih]
        by_cases hc : 0 < c <;> by_cases hn : (0 : Int) = s.length - 1 <;> by_cases hc' : c < 0 <;>
          by_cases hd : endOfHostWithPortDelimitersSet.contains 91 <;> simp [hc, hn, hc', hd] <;> rfl
    · by_cases h93 : b = 93
      · by_cases ho : o = -1
        · simp [h91, h93, ho, hne]; rfl
        · simp [h91, h93, ho, hne]
          by_cases hc : o < i <;> by_cases hn : (i : Int) = s.length - 1 <;> by_cases hc' : i < o <;>
            by_cases hd : endOfHostWithPortDelimitersSet.contains 93 <;> simp [hc, hn, hc', hd] <;> rfl
      · by_cases ho : o = -1
        · simp [h91, h93, ho]
          by_cases hn : (i : Int) = s.length - 1 <;> by_cases hc' : c < -1 <;> by_cases hc : c = -1 <;>
            by_cases hd : endOfHostDelimitersSet.contains b <;> simp [hc, hn, hc', hd] <;> rfl
        · simp [h91, h93, ho]
          by_cases hc : o < c <;> by_cases hn : (i : Int) = s.length - 1 <;> by_cases hc' : c < o <;>
            by_cases hd : endOfHostWithPortDelimitersSet.contains b <;> simp [hc, hn, hc', hd] <;> rfl

theorem exec_8 (hB : Big w B) (hw : 2 ^ 31 ≤ B) (u : ExtractResult) (s : Bytes) (hs : s.length + 4 < B) :
    EX Source.Extract_8 [t, .params e, .result u, .str s, .num .int (-1), .num .int (-1), .num .int (-1)] =
      scanOut isPrint t e u s (scanLoop s.length s 0 (-1) (-1)) := by
  simp [Source.Extract_8, rangeOver]
  exact loop_scan f n t e hB hw u s hs _ (fun i b => by simp) s 0 (-1) (-1)

theorem atoiNum_iff {P : Nat} (hP : 2 ^ 31 ≤ P) (hw : P = 2 ^ (w - 1)) (p : Bytes) (z : Int) (h0 : 0 ≤ z) (h1 : z ≤ 65535) :
    atoiNum w p = some z ↔ atoi p = some z := by
  have neg : ∀ t, ((atoiDigits t).bind fun n => if n ≤ P then some (-(n : Int)) else none) = some z ↔
      (match atoiDigits t with
        | some n => if n ≤ 9223372036854775808 then some (-(n : Int)) else none
        | none => none) = some z := by
    intro t
    cases atoiDigits t with
    | none => simp
    | some n =>
      by_cases h : n ≤ P <;> by_cases h' : n ≤ 9223372036854775808 <;> simp [h, h'] <;> omega
  have pos : ∀ t, ((atoiDigits t).bind fun n => if n < P then some (n : Int) else none) = some z ↔
      (match atoiDigits t with
        | some n => if n ≤ 9223372036854775807 then some (n : Int) else none
        | none => none) = some z := by
    intro t
    cases atoiDigits t with
    | none => simp
    | some n =>
      by_cases h : n < P <;> by_cases h' : n ≤ 9223372036854775807 <;> simp [h, h'] <;> omega
  unfold atoiNum atoi
  rw [← hw]
  split
  · exact neg _
  · exact pos _
  · split
    · simp_all
    · simp_all
    · exact pos _

theorem atoiW_portOK (hB : Big w B) (hw : 2 ^ 31 ≤ B) (p : Bytes) : ∃ z er, atoiW w p = .tuple [.num .int z, .err er] ∧
    (portOK p = true ↔ er = none ∧ 0 ≤ z ∧ z ≤ 65535) := by
  have hP : 2 ^ 31 ≤ 2 ^ (w - 1) := by
    have := hB.eq
    have h2 : ((2 ^ (w - 1) : Nat) : Int) = 2 ^ (w - 1) := by simp
    omega
  have key := atoiNum_iff hP rfl p
  have hport : portOK p = true ↔ ∃ z, atoi p = some z ∧ 0 ≤ z ∧ z ≤ 65535 := by
    unfold portOK
    cases atoi p with
    | none => simp
    | some z => show (decide (0 ≤ z) && decide (z ≤ 65535)) = true ↔ _; simp
  rw [hport]
  unfold atoiW
  cases hn : atoiNum w p with
  | none =>
    refine ⟨_, _, rfl, ?_⟩
    constructor
    · rintro ⟨z, h1, h2, h3⟩
      rw [← key z h2 h3, hn] at h1
      cases h1
    · rintro ⟨h1, -⟩; cases h1
  | some z =>
    refine ⟨_, _, rfl, ?_⟩
    constructor
    · rintro ⟨z', h1, h2, h3⟩
      rw [← key z' h2 h3, hn] at h1
      cases h1
      exact ⟨rfl, h2, h3⟩
    · rintro ⟨-, h2, h3⟩
      exact ⟨z, (key z h2 h3).1 hn, h2, h3⟩

set_option maxHeartbeats 1000000 in
theorem exec_13 (hB : Big w B) (hw : 2 ^ 31 ≤ B) (u : ExtractResult) (s a : Bytes) (hf : 1 ≤ f) (o c h : Int) :
    EX Source.Extract_13 [t, .params e, .result u, .str s, .num .int o, .num .int c, .num .int h, .str a] =
      ofM isPrint (stagePortPath a u) fun u =>
      .ok (.norm [t, .params e, .result u, .str s, .num .int o, .num .int c, .num .int h, .str a]) := by
  have hx := fun a => run_indexAnyASCII (c := tableCtx w idna texts isPrint) f a endOfHostWithPortDelimitersSet hf
  have e58 : ∀ a : UInt8, ((a.toNat : Int) = 58) = (a = 58) := fun a => byte_eq a 58
  generalize hp : indexAnyASCII a endOfHostWithPortDelimitersSet = pi
  by_cases ha : a = []
  · simp [Source.Extract_13, stagePortPath, hx, table, e58, ha]
  · cases hi : index a 0 with
    | error er => simp [Source.Extract_13, stagePortPath, hx, table, e58, ha, hi, hp]
    | ok b =>
      have fin : ∀ (P : Prop) [Decidable P] (x y z : Comp Out), y = z → (if P then x else y) = if P then x else z := by
        intro P _ x y z h; rw [h]
      by_cases hb : b = 58
      · by_cases hpi : pi = -1
        · cases hs : slice a 1 a.length with
          | error er => simp [Source.Extract_13, stagePortPath, hx, table, e58, ha, hi, hb, hp, hs, hpi]
          | ok mp =>
            obtain ⟨z, er, h1, h2⟩ := atoiW_portOK hB hw mp
            simp [Source.Extract_13, stagePortPath, hx, table, e58, ha, hi, hb, hp, hs, hpi, h1, h2]
            repeat' split
            all_goals first | rfl | (exfalso; simp_all; done)
        · cases hs : slice a 1 pi with
          | error er => simp [Source.Extract_13, stagePortPath, hx, table, e58, ha, hi, hb, hp, hs, hpi]
          | ok mp =>
            obtain ⟨z, er, h1, h2⟩ := atoiW_portOK hB hw mp
            simp [Source.Extract_13, stagePortPath, hx, table, e58, ha, hi, hb, hp, hs, hpi, h1, h2]
            repeat' split
            all_goals first | rfl | (exfalso; simp_all; done)
      · by_cases hpi : pi = -1
        · subst hpi; simp [Source.Extract_13, stagePortPath, hx, table, e58, ha, hi, hb, hp]
        · by_cases hpl : pi = a.length
          · have hb' : ¬ ((b.toNat : Int) = 58) := by rw [e58]; exact hb
            simp [Source.Extract_13, stagePortPath, hx, table, hb', ha, hi, hb, hp, hpi, hpl]
          · have hb' : ¬ ((b.toNat : Int) = 58) := by rw [e58]; exact hb
            cases hs : slice a pi a.length <;>
              simp [Source.Extract_13, stagePortPath, hx, table, hb', ha, hi, hb, hp, hpi, hpl, hs]

theorem exec_17 (u : ExtractResult) (s : Bytes) (o c h : Val) (a : Val) (hf : 1 ≤ f) :
    EX (.seq Source.Extract_15 (.seq Source.Extract_16 Source.Extract_17)) [t, .params e, .result u, .str s, o, c, h, a] =
      ofM isPrint (stageIdna idna e s u) fun s' =>
      .ok (.norm [t, .params e, .result u, .str s', o, c, h, a, .str (unescapeOrEmpty s), .err none]) := by
  simp [Source.Extract_15, Source.Extract_16, Source.Extract_17, builtin, unescapeOrEmpty, stageIdna]
  cases hq : queryUnescape s with
  | error esc => simp
  | ok v =>
    have hp := run_formatAsPunycode (w := w) (idna := idna) (texts := texts) (isPrint := isPrint) f v hf
    cases hm : idna.toUnicodeErr v with
    | none => simp [hp, hm]
    | some msg =>
      simp [hp, hm, builtin]
      rfl

end

end Fasttld.GoLang
