import Verif.Proofs.SourceBase

/-!
# Running the text of strings.go: sets of characters; the values of the package
-/

set_option linter.unusedSimpArgs false

namespace Fasttld.GoLang
open Fasttld

variable {w : Nat} {idna : Idna} {texts : Lib} {isPrint : Nat → Bool} {B : Int}

theorem bit_toNat (k : Nat) (h : k < 32) : (1#32 <<< k).toNat = 2 ^ k := by
  rw [BitVec.toNat_shiftLeft, Nat.shiftLeft_eq]
  have := Nat.pow_lt_pow_right (a := 2) (by omega) h
  simp
  omega

theorem div_byte (w n : Nat) (h : n < 256) : binOp w .div (.num .byte n) (.num .const 32) = .ok (.num .byte ((n / 32 : Nat) : Int)) := by
  show arith w .byte .const ((n : Int).tdiv 32) = _
  rw [arith_bc, Int.tdiv_eq_ediv_of_nonneg (by omega)]
  congr 2; omega

theorem mod_byte (w n : Nat) (h : n < 256) : binOp w .mod (.num .byte n) (.num .const 32) = .ok (.num .byte ((n % 32 : Nat) : Int)) := by
  show arith w .byte .const ((n : Int).tmod 32) = _
  rw [arith_bc, Int.tmod_eq_emod_of_nonneg (by omega)]
  congr 2; omega

theorem arith_rc (w : Nat) (z : Int) : arith w .rune .const z = .ok (.num .rune (NumTy.rune.wrap w z)) := rfl

theorem wrap_rune_small {w : Nat} {z : Int} (h : 0 ≤ z) (h' : z < 128) : NumTy.rune.wrap w z = z := by
  show z.bmod (2 ^ 32) = z
  rw [Int.bmod_eq_of_le] <;> omega

theorem div_rune (w n : Nat) (h : n < 128) : binOp w .div (.num .rune n) (.num .const 32) = .ok (.num .rune ((n / 32 : Nat) : Int)) := by
  show arith w .rune .const ((n : Int).tdiv 32) = _
  rw [arith_rc, Int.tdiv_eq_ediv_of_nonneg (by omega), wrap_rune_small (by omega) (by omega)]
  congr 2

theorem mod_rune (w n : Nat) (h : n < 128) : binOp w .mod (.num .rune n) (.num .const 32) = .ok (.num .rune ((n % 32 : Nat) : Int)) := by
  show arith w .rune .const ((n : Int).tmod 32) = _
  rw [arith_rc, Int.tmod_eq_emod_of_nonneg (by omega), wrap_rune_small (by omega) (by omega)]
  congr 2

theorem shl_one (w k : Nat) (t : NumTy) : binOp w .shl (.num .const 1) (.num t (k : Int)) = .ok (.num .const ((2 : Int) ^ k)) := by
  show shiftLeft w .const 1 k = _
  unfold shiftLeft
  rw [if_pos (by omega)]
  simp

theorem index_ascii (as : AsciiSet) (t : NumTy) (i : Nat) (h : i < 8) :
    indexVal (.ascii as) (.num t (i : Int)) = .ok (.num .uint32 ((as[i]'h).toNat : Int)) := by
  have : as[i]? = some (as[i]'h) := by simp [h]
  unfold indexVal
  simp [this]

theorem two_pow_toNat (k : Nat) : ((2 : Int) ^ k).toNat = 2 ^ k := by
  have : ((2 : Int) ^ k) = ((2 ^ k : Nat) : Int) := by simp
  rw [this]; rfl

theorem and_uint32 (w k : Nat) (x : BitVec 32) (h : k < 32) : binOp w .bitAnd (.num .uint32 (x.toNat : Int)) (.num .const ((2 : Int) ^ k)) =
    .ok (.num .uint32 ((x &&& 1#32 <<< k).toNat : Int)) := by
  show Except.ok (Val.num .uint32 (((x.toNat &&& ((2 : Int) ^ k).toNat : Nat) : Int) % 2 ^ 32)) = _
  have e : x.toNat &&& ((2 : Int) ^ k).toNat = (x &&& 1#32 <<< k).toNat := by rw [BitVec.toNat_and, bit_toNat k h, two_pow_toNat]
  rw [e]
  have := (x &&& 1#32 <<< k).isLt
  congr 2; omega

theorem or_uint32 (w k : Nat) (x : BitVec 32) (h : k < 32) : binOp w .bitOr (.num .uint32 (x.toNat : Int)) (.num .const ((2 : Int) ^ k)) =
    .ok (.num .uint32 ((x ||| 1#32 <<< k).toNat : Int)) := by
  show Except.ok (Val.num .uint32 (((x.toNat ||| ((2 : Int) ^ k).toNat : Nat) : Int) % 2 ^ 32)) = _
  have e : x.toNat ||| ((2 : Int) ^ k).toNat = (x ||| 1#32 <<< k).toNat := by rw [BitVec.toNat_or, bit_toNat k h, two_pow_toNat]
  rw [e]
  have := (x ||| 1#32 <<< k).isLt
  congr 2; omega

theorem setIndex_ascii (as : AsciiSet) (t : NumTy) (i : Nat) (h : i < 8) (x : BitVec 32) :
    setIndex (.ascii as) (.num t (i : Int)) (.num .uint32 (x.toNat : Int)) = .ok (.ascii (as.set i x h)) := by
  unfold setIndex
  simp [h]

@[simp] theorem run_contains {c : Ctx} (f : Nat) (as : AsciiSet) (b : UInt8) :
    call c Source.program (f + 1) .contains [.ascii as, .num .byte b.toNat] = .ok (.bool (as.contains b)) := by
  have hb := b.toNat_lt
  show Func.run c (call c Source.program f) f Source.contains_func _ = _
  have e1 := div_byte c.w b.toNat (by omega)
  have e2 := mod_byte c.w b.toNat (by omega)
  have e3 := and_uint32 c.w (b.toNat % 32) (as[b.toNat / 32]'(by omega)) (by omega)
  have e4 := index_ascii as .byte (b.toNat / 32) (by omega)
  have e5 : as.contains b = ((as[b.toNat / 32]'(by omega) &&& 1#32 <<< (b.toNat % 32)) != 0#32) := rfl
  generalize (as[b.toNat / 32]'(by omega) &&& 1#32 <<< (b.toNat % 32)) = X at e3 e5
  have e6 : X = 0#32 ↔ X.toNat = 0 := by
    rw [← BitVec.toNat_inj]; simp
  simp [-Int.natCast_ediv, -Int.natCast_emod, -BitVec.toNat_and, Func.run, Source.contains_func, Func.start, Func.args, Source.contains_1, Func.finish, Func.result, e1, e2, e3, e4, shl_one, e5]
  rw [Bool.eq_iff_iff, decide_eq_true_iff, ← e6]
  simp

@[simp] theorem run_contains_mod {c : Ctx} (f : Nat) (as : AsciiSet) (z : Int) :
    call c Source.program (f + 1) .contains [.ascii as, .num .byte (z % 256)] = .ok (.bool (as.contains (UInt8.ofNat (z % 256).toNat))) := by
  have h : (((UInt8.ofNat (z % 256).toNat).toNat : Nat) : Int) = z % 256 := by
    rw [UInt8.toNat_ofNat']
    omega
  rw [← h, run_contains, h]

/-- The statement guarded by `c < utf8.RuneSelf`. -/
theorem exec_addASCII {c : Ctx} {cf} (f n : Nat) (s : Bytes) (as : AsciiSet) (h : n < 128) :
    exec c cf f (.assignIndexOp .bitOr 1 "as" (.bin .div (.var 2 "c") (.intLit 32)) (.bin .shl (.intLit 1) (.paren (.bin .mod (.var 2 "c") (.intLit 32)))))
      [.str s, .ascii as, .num .rune n] = .ok (.norm [.str s, .ascii (addASCII as n), .num .rune n]) := by
  have e1 := div_rune c.w n h
  have e2 := mod_rune c.w n h
  have e3 := or_uint32 c.w (n % 32) (as[n / 32]'(by omega)) (by omega)
  have e4 := index_ascii as .rune (n / 32) (by omega)
  have e5 := setIndex_ascii as .rune (n / 32) (by omega) (as[n / 32]'(by omega) ||| 1#32 <<< (n % 32))
  have e6 : addASCII as n = as.set (n / 32) (as[n / 32]'(by omega) ||| 1#32 <<< (n % 32)) (by omega) := by
    unfold addASCII; rw [dif_pos h]
  generalize (as[n / 32]'(by omega) ||| 1#32 <<< (n % 32)) = X at e3 e5 e6
  simp [e6, e1, e2, e3, e4, e5, shl_one, -Int.natCast_ediv, -Int.natCast_emod]

theorem exec_guarded {c : Ctx} {cf} (f n : Nat) (s : Bytes) (as as' : AsciiSet) (A : Stmt)
    (h : n < 128 → exec c cf f A [.str s, .ascii as, .num .rune n] = .ok (.norm [.str s, .ascii as', .num .rune n]))
    (h' : ¬ n < 128 → as' = as) :
    exec c cf f (.seq (.ite .skip (.bin .lt (.var 2 "c") .runeSelf) (.seq A .skip) .skip) .skip) [.str s, .ascii as, .num .rune n] =
      .ok (.norm [.str s, .ascii as', .num .rune n]) := by
  by_cases hn : n < 128
  · have hn' : (n : Int) < 128 := by omega
    simp [hn', h hn]
  · have hn' : ¬ (n : Int) < 128 := by omega
    simp [hn', h' hn]

theorem loop_makeASCIISet {c : Ctx} {cf} (f : Nat) (s : Bytes) : ∀ (l : List (Nat × Nat)) (as : AsciiSet),
    rangeOut c cf f Source.makeASCIISet_loop1 (l.map fun p => [.num .rune p.2]) [.str s, .ascii as] =
      .ok (.norm [.str s, .ascii ((l.map Prod.snd).foldl addASCII as)]) := by
  intro l
  induction l with
  | nil => intro as; rfl
  | cons p l ih =>
    intro as
    obtain ⟨i, n⟩ := p
    have step : exec c cf f Source.makeASCIISet_loop1 [.str s, .ascii as, .num .rune n] =
        .ok (.norm [.str s, .ascii (addASCII as n), .num .rune n]) :=
      exec_guarded f n s as (addASCII as n) _ (exec_addASCII f n s as) (fun h => by unfold addASCII; rw [dif_neg h])
    simp only [List.map_cons, rangeOut_cons, List.foldl_cons]
    generalize rangeOut _ _ _ _ (List.map (fun p : Nat × Nat => [Val.num .rune p.2]) l) = L at ih ⊢
    simp [step, ih]

theorem run_makeASCIISet {c : Ctx} (f : Nat) (s : Bytes) :
    call c Source.program (f + 1) .makeASCIISet [.str s] = .ok (.ascii (makeASCIISet ((rangeString s).map Prod.snd))) := by
  show Func.run c (call c Source.program f) f Source.makeASCIISet_func _ = _
  simp [Func.run, Source.makeASCIISet_func, Func.start, Func.args, Source.makeASCIISet_1, Source.makeASCIISet_2, Func.finish, Func.result, rangeOver, Function.comp_def, loop_makeASCIISet, makeASCIISet]

theorem run_makeRuneSet {c : Ctx} (f : Nat) (s : Bytes) :
    call c Source.program (f + 2) .makeRuneSet [.str s] = .ok (.runeSet (makeRuneSet ((rangeString s).map Prod.snd))) := by
  show Func.run c (call c Source.program (f + 1)) (f + 1) Source.makeRuneSet_func _ = _
  have big : ∀ (l : List (Nat × Nat)) (z : Int), ∃ z', rangeOut c (call c Source.program (f + 1)) (f + 1) Source.makeRuneSet_loop1
      (l.map fun p => [.num .int p.1, .num .rune p.2]) [.str s, .err none, .num .rune z] = .ok (.norm [.str s, .err none, .num .rune z']) := by
    intro l
    induction l with
    | nil => intro z; exact ⟨z, rfl⟩
    | cons p l ih =>
      intro z
      obtain ⟨i, n⟩ := p
      simp only [List.map_cons, rangeOut_cons]
      generalize rangeOut _ _ _ _ (List.map (fun p : Nat × Nat => [Val.num .int p.1, Val.num .rune p.2]) l) = L at ih ⊢
      by_cases h0 : i = 0
      · obtain ⟨z', h⟩ := ih n
        exact ⟨z', by simp [Source.makeRuneSet_loop1, h0, h]⟩
      · by_cases h1 : (z < n)
        · obtain ⟨z', h⟩ := ih n
          exact ⟨z', by simp [Source.makeRuneSet_loop1, h0, h1, h]⟩
        · obtain ⟨z', h⟩ := ih z
          exact ⟨z', by simp [Source.makeRuneSet_loop1, h0, h1, h]⟩
  have add : ∀ (l : List (Nat × Nat)) (rs : RuneSet) (z : Int), rangeOut c (call c Source.program (f + 1)) (f + 1) Source.makeRuneSet_loop2
      (l.map fun p => [.num .rune p.2]) [.str s, .runeSet rs, .num .rune z] = .ok (.norm [.str s, .runeSet (rs ++ l.map Prod.snd), .num .rune z]) := by
    intro l
    induction l with
    | nil => intro rs z; simp
    | cons p l ih =>
      intro rs z
      simp only [List.map_cons, rangeOut_cons]
      generalize rangeOut _ _ _ _ (List.map (fun p : Nat × Nat => [Val.num .rune p.2]) l) = L at ih ⊢
      simp [Source.makeRuneSet_loop2, addRune, ih]
  obtain ⟨z, hz⟩ := big (rangeString s) 0
  simp [Func.run, Source.makeRuneSet_func, Func.start, Func.args, Source.makeRuneSet_1, Source.makeRuneSet_2, Source.makeRuneSet_3,
    Source.makeRuneSet_4, Source.makeRuneSet_5, Func.finish, Func.result, rangeOver, Function.comp_def, hz, add]
  rfl

theorem sources_bytes : publicSuffixListSources = [[104, 116, 116, 112, 115, 58, 47, 47, 112, 117, 98, 108, 105, 99, 115, 117, 102, 102,
   105, 120, 46, 111, 114, 103, 47, 108, 105, 115, 116, 47, 112, 117, 98, 108, 105, 99, 95, 115, 117, 102, 102, 105, 120, 95,
   108, 105, 115, 116, 46, 100, 97, 116], [104, 116, 116, 112, 115, 58, 47, 47, 114, 97, 119, 46, 103, 105, 116, 104, 117,
   98, 117, 115, 101, 114, 99, 111, 110, 116, 101, 110, 116, 46, 99, 111, 109, 47, 112, 117, 98, 108, 105, 99, 115, 117, 102,
   102, 105, 120, 47, 108, 105, 115, 116, 47, 109, 97, 115, 116, 101, 114, 47, 112, 117, 98, 108, 105, 99, 95, 115, 117, 102,
   102, 105, 120, 95, 108, 105, 115, 116, 46, 100, 97, 116]] := by decide +kernel
theorem fileName_bytes : defaultPSLFileName = [112, 117, 98, 108, 105, 99, 95, 115, 117, 102, 102, 105, 120, 95, 108, 105,
   115, 116, 46, 100, 97, 116] := by decide +kernel

theorem globals_computed (c : Ctx) : globals c (call c Source.program 10) Source.decls = computed c.w := by
  simp [globals, Source.decls, Decl.add, declVal, Ctx.withGlobals, eval, evals, run_makeASCIISet, run_makeRuneSet, Except.bind, binOp, arith, NumTy.join,
    TypeName.conv, TypeName.iotaVal, lookupGlob, computed, sources_bytes, fileName_bytes]

theorem sourceCtx_eq (hB : Big w B) (h : 2 ^ 31 ≤ B) : sourceCtx w idna texts isPrint = tableCtx w idna texts isPrint := by
  unfold sourceCtx tableCtx Ctx.withGlobals
  simp only [globals_computed]
  congr 1
  funext g
  cases g <;> simp [lookupGlob, computed, table, wrap_int hB (z := 12) (by omega) (by omega)]
  all_goals decide +kernel

end Fasttld.GoLang
