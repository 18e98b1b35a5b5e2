import Verif.Proofs.SourceSets
import Verif.Proofs.Work

/-!
# Running the text of strings.go
-/

set_option linter.unusedSimpArgs false

namespace Fasttld.GoLang
open Fasttld

variable {w : Nat} {idna : Idna} {texts : Lib} {isPrint : Nat → Bool} {B : Int}

theorem run_sepSize {c : Ctx} (f : Nat) (r : UInt8) :
    call c Source.program (f + 1) .sepSize [.num .byte r.toNat] = .ok (.num .int (sepSize r)) := by
  show Func.run c (call c Source.program f) f Source.sepSize_func _ = _
  by_cases h : r = 46
  · subst h
    simp [Func.run, Source.sepSize_func, Func.start, Func.args, Source.sepSize_1, Source.sepSize_2, Func.finish, Func.result, sepSize]
  · have h' : ¬ ((r.toNat : Int) = 46) := fun e => h (UInt8.toNat_inj.mp (by simpa using (by omega : r.toNat = 46)))
    simp [Func.run, Source.sepSize_func, Func.start, Func.args, Source.sepSize_1, Source.sepSize_2, Func.finish, Func.result, sepSize, h, h']

theorem index_mid (pre : Bytes) (ch : UInt8) (rest : Bytes) : Fasttld.index (pre ++ ch :: rest) (pre.length : Int) = .ok ch := by
  unfold Fasttld.index; simp


/-- Bytes are equal if their numbers are. -/
theorem byte_eq (a b : UInt8) : ((a.toNat : Int) = (b.toNat : Int)) = (a = b) := by
  rw [Int.ofNat_inj, UInt8.toNat_inj]

theorem loop_getSchemeEndIndex (hB : Big w B) (hw : 2 ^ 31 ≤ B) (f n : Nat) (s : Bytes) (hs : s.length + 4 < B) (K : Out → Comp Val)
    (hret : ∀ z, K (.ret [.num .int z]) = .ok (.num .int z)) (hret' : ∀ z, K (.ret [.num .const z]) = .ok (.num .int z))
    (hend : ∀ colon (sc : Nat), K (.norm [.str s, .bool colon, .num .int sc, .num .int s.length]) =
      .ok (.num .int (if sc ≥ 2 then s.length else -1))) :
    ∀ (rest pre : Bytes) (fuel : Nat) (colon : Bool) (sc : Nat), s = pre ++ rest → rest.length < fuel → sc ≤ pre.length →
      (loopOut (tableCtx w idna texts isPrint) (call (tableCtx w idna texts isPrint) Source.program (f + 1)) n
        (.bin .lt (.var 3 "i") (.call .len [.var 0 "s"])) (.incr 3 "i") Source.getSchemeEndIndex_loop1 fuel
        [.str s, .bool colon, .num .int sc, .num .int pre.length]).bind K =
      .ok (.num .int (schemeLoop s.length rest pre.length colon sc)) := by
  intro rest
  induction rest with
  | nil =>
    intro pre fuel colon sc hsplit hfuel hsc
    obtain ⟨fuel, rfl⟩ : ∃ m, fuel = m + 1 := ⟨fuel - 1, by simp at hfuel; omega⟩
    have hp : s = pre := by simpa using hsplit
    subst hp
    simp [loopOut_step, hend, schemeLoop]
  | cons ch rest ih =>
    intro pre fuel colon sc hsplit hfuel hsc
    obtain ⟨fuel, rfl⟩ : ∃ m, fuel = m + 1 := ⟨fuel - 1, by simp at hfuel; omega⟩
    have ih := fun colon sc h => ih (pre ++ [ch]) fuel colon sc (by simp [hsplit]) (by simp at hfuel; omega) h
    simp only [List.length_append, List.length_singleton, Int.natCast_add, Int.natCast_one] at ih
    have hlt : (pre.length : Int) < s.length := by rw [hsplit]; simp; omega
    have hidx : Fasttld.index s (pre.length : Int) = .ok ch := by rw [hsplit]; exact index_mid pre ch rest
    have hw1 : NumTy.int.wrap w ((pre.length : Int) + 1) = pre.length + 1 := wrap_int hB (by omega) (by omega)
    have hw2 : NumTy.int.wrap w ((sc : Int) + 1) = sc + 1 := wrap_int hB (by omega) (by omega)
    have e58 : ((ch.toNat : Int) = 58) = (ch = 58) := byte_eq ch 58
    have ihs := ih colon (sc + 1) (by omega)
    simp only [Int.natCast_add, Int.natCast_one] at ihs
    have ih1 := ih colon sc (by omega)
    have ih2 := ih true sc (by omega)
    rw [loopOut_step]
    generalize loopOut _ _ _ _ _ _ fuel = L at ih1 ih2 ihs ⊢
    simp [hlt, Source.getSchemeEndIndex_loop1, hidx, table, hret, hret', hw1, hw2, e58, ih1, ih2, ihs]
    have e2 : ((sc : Int) < 2) = (sc < 2) := by simp only [eq_iff_iff]; omega
    clear ih1 ih2 ihs
    rw [schemeLoop.eq_2]
    simp only [e2, List.length_eq_zero_iff]
    cases colon <;> simp <;> repeat' (split <;> try rfl)

theorem run_getSchemeEndIndex (hB : Big w B) (hw : 2 ^ 31 ≤ B) (f : Nat) (s : Bytes) (hs : s.length + 4 < B) (hf : s.length + 1 ≤ f) :
    call (tableCtx w idna texts isPrint) Source.program (f + 1) .getSchemeEndIndex [.str s] = .ok (.num .int (getSchemeEndIndex s)) := by
  obtain ⟨f, rfl⟩ : ∃ m, f = m + 1 := ⟨f - 1, by omega⟩
  show Func.run _ (call _ Source.program (f + 1)) (f + 1) Source.getSchemeEndIndex_func _ = _
  simp [Func.run, Source.getSchemeEndIndex_func, Func.start, Func.args, Source.getSchemeEndIndex_1, Source.getSchemeEndIndex_2, Source.getSchemeEndIndex_3]
  refine loop_getSchemeEndIndex hB hw f (f + 1) s hs _ ?_ ?_ ?_ s [] (f + 1) false 0 rfl (by omega) (by simp)
  · intro z; simp [Func.finish, Func.result]
  · intro z; simp [Func.finish, Func.result]
  · intro colon sc
    by_cases h : sc ≥ 2 <;> simp [Source.getSchemeEndIndex_4, Source.getSchemeEndIndex_5, Func.finish, Func.result, h] <;> omega

theorem loop_indexAnyASCII {c : Ctx} (f n : Nat) (s : Bytes) (as : AsciiSet) (K : Out → Comp Val)
    (hret : ∀ z, K (.ret [.num .int z]) = .ok (.num .int z)) (hend : K (.norm [.str s, .ascii as]) = .ok (.num .int (-1)))
    (g : Nat × UInt8 → List Val) (hg : ∀ i b, g (i, b) = [.num .int i, .num .byte b.toNat]) :
    ∀ (rest : Bytes) (i : Nat),
      (rangeOut c (call c Source.program (f + 1)) n Source.indexAnyASCII_loop1 ((enumFrom i rest).map g) [.str s, .ascii as]).bind K =
      .ok (.num .int (indexAnyLoop as rest i)) := by
  intro rest
  induction rest with
  | nil => intro i; simp [enumFrom, hend, indexAnyLoop]
  | cons b rest ih =>
    intro i
    have ih := ih (i + 1)
    simp only [enumFrom, List.map_cons, rangeOut_cons, hg]
    generalize rangeOut _ _ _ _ (List.map g (enumFrom (i + 1) rest)) = L at ih ⊢
    simp [Source.indexAnyASCII_loop1, hret, ih, indexAnyLoop]
    split <;> rfl

theorem run_indexAnyASCII {c : Ctx} (f : Nat) (s : Bytes) (as : AsciiSet) (hf : 1 ≤ f) :
    call c Source.program (f + 1) .indexAnyASCII [.str s, .ascii as] = .ok (.num .int (indexAnyASCII s as)) := by
  obtain ⟨f, rfl⟩ : ∃ m, f = m + 1 := ⟨f - 1, by omega⟩
  show Func.run _ (call _ Source.program (f + 1)) (f + 1) Source.indexAnyASCII_func _ = _
  simp [Func.run, Source.indexAnyASCII_func, Func.start, Func.args, Source.indexAnyASCII_1, rangeOver]
  refine loop_indexAnyASCII f (f + 1) s as _ ?_ ?_ _ ?_ s 0
  · intro z; simp [Func.finish, Func.result]
  · simp [Source.indexAnyASCII_2, Func.finish, Func.result]
  · intro i b; simp

theorem loop_hasInvalidChars (f n : Nat) (s : Bytes) (last : Int) (K : Out → Comp Val)
    (hret : ∀ b, K (.ret [.bool b]) = .ok (.bool b)) (hend : ∀ b, K (.norm [.str s, .bool b, .num .int last]) = .ok (.bool false))
    (g : Nat × Nat → List Val) (hg : ∀ i b, g (i, b) = [.num .int i, .num .rune b]) :
    ∀ (l : List (Nat × Nat)) (sep : Bool),
      (rangeOut (tableCtx w idna texts isPrint) (call (tableCtx w idna texts isPrint) Source.program (f + 1)) n
        Source.hasInvalidChars_loop1 (l.map g) [.str s, .bool sep, .num .int last]).bind K =
      .ok (.bool (hasInvalidCharsLoop last l sep)) := by
  intro l
  induction l with
  | nil => intro i; simp [hend, hasInvalidCharsLoop]
  | cons p rest ih =>
    intro sep
    obtain ⟨i, r⟩ := p
    have ih1 := ih true
    have ih2 := ih false
    simp only [List.map_cons, rangeOut_cons, hg]
    generalize rangeOut _ _ _ _ (List.map g rest) = L at ih1 ih2 ⊢
    simp [Source.hasInvalidChars_loop1, hret, ih1, ih2, table]
    have e1 : UInt8.ofNat ((r : Int) % 256).toNat = byteOf r := by
      have : ((r : Int) % 256).toNat = r % 256 := by omega
      rw [this]; exact UInt8.toNat_inj.mp (by simp [byteOf])
    have e2 : ((r : Int) = 45) = (r = 45) := by simp only [eq_iff_iff]; omega
    rw [hasInvalidCharsLoop.eq_2, e1]
    simp only [e2]
    clear ih1 ih2
    generalize alphaNumericSet.contains (byteOf r) = a1
    generalize labelSeparatorsRuneSet.exists r = a2
    generalize invalidHostNameCharsRuneSet.exists r = a3
    by_cases h1 : r = 45 <;> by_cases h2 : i = 0 <;> by_cases h3 : (i : Int) = last <;> cases a1 <;> cases a2 <;> cases a3 <;> cases sep <;>
      simp [h1, h2, h3]

theorem run_hasInvalidChars (hB : Big w B) (hw : 2 ^ 31 ≤ B) (f : Nat) (s : Bytes) (hs : s.length + 4 < B) (hf : 1 ≤ f) :
    call (tableCtx w idna texts isPrint) Source.program (f + 1) .hasInvalidChars [.str s] = .ok (.bool (hasInvalidChars s)) := by
  obtain ⟨f, rfl⟩ : ∃ m, f = m + 1 := ⟨f - 1, by omega⟩
  show Func.run _ (call _ Source.program (f + 1)) (f + 1) Source.hasInvalidChars_func _ = _
  have hw1 : NumTy.int.wrap w ((s.length : Int) - 1) = s.length - 1 := wrap_int hB (by omega) (by omega)
  simp [Func.run, Source.hasInvalidChars_func, Func.start, Func.args, Source.hasInvalidChars_1, Source.hasInvalidChars_2,
    Source.hasInvalidChars_3, rangeOver, hw1]
  refine loop_hasInvalidChars f (f + 1) s _ _ ?_ ?_ _ ?_ (rangeString s) false
  · intro z; simp [Func.finish, Func.result]
  · intro b; simp [Source.hasInvalidChars_4, Func.finish, Func.result]
  · intro i b; simp

theorem slice_prefix (s : Bytes) (i : Nat) (h : i ≤ s.length) : Fasttld.slice s 0 (i : Int) = .ok (s.take i) := by
  unfold Fasttld.slice; rw [if_pos ⟨by omega, by omega, by omega⟩]; simp

theorem width_prefix (s : Bytes) (i : Nat) (h : i ≤ s.length) (h0 : 0 < i) :
    1 ≤ (decodeLastRune (s.take i)).2 ∧ (decodeLastRune (s.take i)).2 ≤ i := by
  have hne : s.take i ≠ [] := by
    intro e
    have := congrArg List.length e
    rw [List.length_take, List.length_nil] at this
    omega
  have := decodeLastRune_width hne
  rw [List.length_take, Nat.min_eq_left h] at this
  exact this

theorem loop_lastIndexAny (hB : Big w B) (hw : 2 ^ 31 ≤ B) (f n : Nat) (s : Bytes) (chars : RuneSet) (hs : s.length + 4 < B)
    (K : Out → Comp Val) (hret : ∀ z, K (.ret [.num .int z]) = .ok (.num .int z))
    (hend : K (.norm [.str s, .runeSet chars, .num .int (0 : Int)]) = .ok (.num .int (-1))) :
    ∀ (i fuel fuel' : Nat), i ≤ s.length → i < fuel → i < fuel' →
      (loopOut (tableCtx w idna texts isPrint) (call (tableCtx w idna texts isPrint) Source.program (f + 1)) n
        (.bin .gt (.var 2 "i") (.intLit 0)) .skip Source.lastIndexAny_loop1 fuel
        [.str s, .runeSet chars, .num .int i]).bind K =
      (ofGo (lastIndexAnyLoop s chars fuel' i)).bind fun z => .ok (.num .int z) := by
  intro i
  induction i using Nat.strongRecOn with
  | _ i ih =>
    intro fuel fuel' hi hf hf'
    obtain ⟨fuel, rfl⟩ : ∃ m, fuel = m + 1 := ⟨fuel - 1, by omega⟩
    obtain ⟨fuel', rfl⟩ : ∃ m, fuel' = m + 1 := ⟨fuel' - 1, by omega⟩
    by_cases h0 : i = 0
    · subst h0
      have hend' : K (.norm [.str s, .runeSet chars, .num .int 0]) = .ok (.num .int (-1)) := hend
      simp [loopOut_step, lastIndexAnyLoop, hend']
    · have hwid := width_prefix s i hi (by omega)
      have ih := ih (i - (decodeLastRune (s.take i)).2) (by omega) fuel fuel' (by omega) (by omega) (by omega)
      have hsl := slice_prefix s i hi
      have hsub : ((i - (decodeLastRune (s.take i)).2 : Nat) : Int) = i - (decodeLastRune (s.take i)).2 := by omega
      have hpos : 0 < i := by omega
      rw [hsub] at ih
      generalize hd : decodeLastRune (s.take i) = d at *
      have hw1 : NumTy.int.wrap w ((i : Int) - d.2) = i - d.2 := wrap_int hB (by omega) (by omega)
      rw [loopOut_step]
      generalize loopOut _ _ _ _ _ _ fuel = L at ih ⊢
      simp [Source.lastIndexAny_loop1, hsl, hd, hw1, hret, lastIndexAnyLoop, hpos, ih]

theorem run_lastIndexAny (hB : Big w B) (hw : 2 ^ 31 ≤ B) (f : Nat) (s : Bytes) (chars : RuneSet) (hs : s.length + 4 < B)
    (hf : s.length + 1 ≤ f) :
    call (tableCtx w idna texts isPrint) Source.program (f + 1) .lastIndexAny [.str s, .runeSet chars] =
      (ofGo (lastIndexAny s chars)).bind fun z => .ok (.num .int z) := by
  obtain ⟨f, rfl⟩ : ∃ m, f = m + 1 := ⟨f - 1, by omega⟩
  show Func.run _ (call _ Source.program (f + 1)) (f + 1) Source.lastIndexAny_func _ = _
  simp [Func.run, Source.lastIndexAny_func, Func.start, Func.args, Source.lastIndexAny_1]
  refine loop_lastIndexAny hB hw f (f + 1) s chars hs _ ?_ ?_ s.length (f + 1) (s.length + 1) (by omega) (by omega) (by omega)
  · intro z; simp [Func.finish, Func.result]
  · simp [Source.lastIndexAny_2, Func.finish, Func.result]

theorem run_formatAsPunycode (f : Nat) (s : Bytes) (hf : 1 ≤ f) :
    call (tableCtx w idna texts isPrint) Source.program (f + 1) .formatAsPunycode [.str s] = .ok (.str (formatAsPunycode idna s)) := by
  obtain ⟨f, rfl⟩ : ∃ m, f = m + 1 := ⟨f - 1, by omega⟩
  show Func.run _ (call _ Source.program (f + 1)) (f + 1) Source.formatAsPunycode_func _ = _
  cases h : idna.lookupASCII s <;>
    simp [Func.run, Source.formatAsPunycode_func, Func.start, Func.args, Source.formatAsPunycode_1, Source.formatAsPunycode_2,
      Source.formatAsPunycode_3, formatAsPunycode, h, builtin, Func.finish, Func.result, indexVal]

theorem run_indexLastByteBefore {c : Ctx} (f : Nat) (s : Bytes) (b : UInt8) (as : AsciiSet) (hf : 2 ≤ f) :
    call c Source.program (f + 1) .indexLastByteBefore [.str s, .num .byte b.toNat, .ascii as] =
      (ofGo (indexLastByteBefore s b as)).bind fun z => .ok (.num .int z) := by
  obtain ⟨f, rfl⟩ : ∃ m, f = m + 1 := ⟨f - 1, by omega⟩
  show Func.run _ (call _ Source.program (f + 1)) (f + 1) Source.indexLastByteBefore_func _ = _
  simp [Func.run, Source.indexLastByteBefore_func, Func.start, Func.args, Source.indexLastByteBefore_1, Source.indexLastByteBefore_2,
    run_indexAnyASCII f s as (by omega), indexLastByteBefore, Func.finish, Func.result]

theorem loop1_fastTrim {c : Ctx} (f n : Nat) (s : Bytes) (chars : RuneSet) (mode e : Val)
    (g : Nat × Nat → List Val) (hg : ∀ i b, g (i, b) = [.num .int i, .num .rune b]) :
    ∀ (l : List (Nat × Nat)) (start : Int) (ex : Bool),
      rangeOut c (call c Source.program (f + 1)) n Source.fastTrim_loop1 (l.map g)
        [.str s, .runeSet chars, mode, .num .int start, e, .bool ex, .bool false] =
      .ok (.norm [.str s, .runeSet chars, mode, .num .int (trimLeftLoop chars l start ex).1, e, .bool (trimLeftLoop chars l start ex).2.1,
        .bool (trimLeftLoop chars l start ex).2.2]) := by
  intro l
  induction l with
  | nil => intro start ex; simp [trimLeftLoop]
  | cons p rest ih =>
    intro start ex
    obtain ⟨i, r⟩ := p
    have ih1 := ih i true
    simp only [List.map_cons, rangeOut_cons, hg]
    generalize rangeOut _ _ _ _ (List.map g rest) = L at ih1 ⊢
    simp [Source.fastTrim_loop1, ih1, trimLeftLoop]
    cases chars.exists r <;> simp

theorem loop2_fastTrim (hB : Big w B) (hw : 2 ^ 31 ≤ B) (f n : Nat) (s : Bytes) (chars : RuneSet) (mode st : Val) (hs : s.length + 4 < B)
    (K : Out → Comp Val) (K' : Int × Bool × Bool → Comp Val)
    (hend : ∀ e ex br i, K (.norm [.str s, .runeSet chars, mode, st, .num .int e, .bool ex, .bool br, i]) = K' (e, ex, br)) :
    ∀ (i fuel fuel' : Nat) (e : Int) (ex : Bool), i ≤ s.length → i < fuel → i < fuel' →
      (loopOut (tableCtx w idna texts isPrint) (call (tableCtx w idna texts isPrint) Source.program (f + 1)) n
        (.bin .gt (.var 7 "i") (.intLit 0)) .skip Source.fastTrim_loop2 fuel
        [.str s, .runeSet chars, mode, st, .num .int e, .bool ex, .bool false, .num .int i]).bind K =
      (ofGo (trimRightLoop s chars fuel' i e ex)).bind K' := by
  intro i
  induction i using Nat.strongRecOn with
  | _ i ih =>
    intro fuel fuel' e ex hi hf hf'
    obtain ⟨fuel, rfl⟩ : ∃ m, fuel = m + 1 := ⟨fuel - 1, by omega⟩
    obtain ⟨fuel', rfl⟩ : ∃ m, fuel' = m + 1 := ⟨fuel' - 1, by omega⟩
    by_cases h0 : i = 0
    · subst h0
      simp [loopOut_step, trimRightLoop, hend]
    · have hwid := width_prefix s i hi (by omega)
      have ih := ih (i - (decodeLastRune (s.take i)).2) (by omega) fuel fuel' i true (by omega) (by omega) (by omega)
      have hsl := slice_prefix s i hi
      have hsub : ((i - (decodeLastRune (s.take i)).2 : Nat) : Int) = i - (decodeLastRune (s.take i)).2 := by omega
      have hpos : 0 < i := by omega
      rw [hsub] at ih
      generalize hd : decodeLastRune (s.take i) = d at *
      have hw1 : NumTy.int.wrap w ((i : Int) - d.2) = i - d.2 := wrap_int hB (by omega) (by omega)
      rw [loopOut_step]
      generalize loopOut _ _ _ _ _ _ fuel = L at ih ⊢
      simp [Source.fastTrim_loop2, hsl, hd, hw1, trimRightLoop, hpos, ih, hend]

/-- The number of a mode. -/
def modeNum : TrimMode → Int
  | .trimBoth => 0
  | .trimLeft => 1
  | .trimRight => 2

theorem run_fastTrim (hB : Big w B) (hw : 2 ^ 31 ≤ B) (f : Nat) (s : Bytes) (chars : RuneSet) (mode : TrimMode) (hs : s.length + 4 < B)
    (hf : s.length + 1 ≤ f) :
    call (tableCtx w idna texts isPrint) Source.program (f + 1) .fastTrim [.str s, .runeSet chars, .num .int (modeNum mode)] =
      (ofGo (fastTrim s chars mode)).bind fun t => .ok (.str t) := by
  obtain ⟨f, rfl⟩ : ∃ m, f = m + 1 := ⟨f - 1, by omega⟩
  show Func.run _ (call _ Source.program (f + 1)) (f + 1) Source.fastTrim_func _ = _
  have h3 : ∀ start : Int,
    ((exec (tableCtx w idna texts isPrint) (call (tableCtx w idna texts isPrint) Source.program (f + 1)) (f + 1) Source.fastTrim_3
      [.str s, .runeSet chars, .num .int (modeNum mode), .num .int start, .num .int 0]).bind
      (Out.andThen fun vs => (exec (tableCtx w idna texts isPrint) (call (tableCtx w idna texts isPrint) Source.program (f + 1)) (f + 1)
        Source.fastTrim_4 vs).bind (Out.andThen fun vs => .ok (.norm vs)))).bind Source.fastTrim_func.finish =
    (ofGo (fastTrimRight s chars mode start)).bind fun t => .ok (.str t) := by
    intro start
    cases mode with
    | trimLeft => simp [Source.fastTrim_3, Source.fastTrim_4, modeNum, table, fastTrimRight, Func.finish, Func.result, Source.fastTrim_func]
    | _ =>
      simp [Source.fastTrim_3, modeNum, table, fastTrimRight]
      rw [← loop2_fastTrim hB hw f (f + 1) s chars _ (.num .int start) hs _ _ ?_ s.length (f + 1) (s.length + 1) 0 false (by omega) (by omega) (by omega)]
      intro e ex br i
      cases ex <;> cases br <;> simp [Source.fastTrim_4, Func.finish, Func.result, Source.fastTrim_func]
  simp only [bind_assoc] at h3
  have hfunc : (Source.fastTrim_func).body = .seq Source.fastTrim_1 (.seq Source.fastTrim_2 (.seq Source.fastTrim_3 (.seq Source.fastTrim_4 .skip))) := rfl
  have hlen : ([Val.str s, .runeSet chars, .num .int (modeNum mode)]).length =
      (Source.fastTrim_func.recv.toList ++ Source.fastTrim_func.params).length := rfl
  have hstart : Source.fastTrim_func.start [.str s, .runeSet chars, .num .int (modeNum mode)] =
      [.str s, .runeSet chars, .num .int (modeNum mode)] := by simp [Func.start, Func.args, Source.fastTrim_func]
  rw [Func.run, if_pos hlen, hstart, hfunc]
  cases mode with
  | trimRight =>
    simp [Source.fastTrim_1, Source.fastTrim_2, modeNum, table, fastTrim] at h3 ⊢
    exact h3 0
  | _ =>
    simp [Source.fastTrim_1, Source.fastTrim_2, modeNum, table, fastTrim, rangeOver] at h3 ⊢
    rw [loop1_fastTrim f (f + 1) s chars _ _ _ (by intro i b; simp)]
    generalize trimLeftLoop chars (rangeString s) 0 false = r
    obtain ⟨a, b, d⟩ := r
    have hfin : Source.fastTrim_func.finish (.ret [.str []]) = .ok (.str []) := rfl
    cases b <;> cases d <;> simp [h3, hfin]

end Fasttld.GoLang
