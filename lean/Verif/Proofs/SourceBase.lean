import Verif.Model.GoProgram

/-!
# Running the text: the basis

The values of the package, arithmetic without overflow, calls of functions of the language and of other packages.
-/

namespace Fasttld.GoLang
open Fasttld

/-- The values of the package, the last first. -/
def computed (w : Nat) : List (Glob × Val) :=
  [(.publicSuffixListSources, .strs publicSuffixListSources),
    (.IPv6, .hostType .iPv6),
    (.IPv4, .hostType .iPv4),
    (.HostName, .hostType .hostName),
    (.None, .hostType .none),
    (.pslMaxAgeHours, .float 72),
    (.largestPortNumber, .num .int 65535),
    (.defaultPSLFileName, .str defaultPSLFileName),
    (.big, .num .int 16777215),
    (.lenDiff, .num .int (NumTy.int.wrap w 12)),
    (.iPv6len, .num .int 16),
    (.iPv4len, .num .int 4),
    (.trimRight, .num .int 2),
    (.trimLeft, .num .int 1),
    (.trimBoth, .num .int 0),
    (.invalidHostNameCharsRuneSet, .runeSet (makeRuneSet ((rangeString [0, 1, 2, 3, 4, 5, 6, 7, 8, 9, 10, 11, 12, 13, 14, 15, 16, 17, 18, 19, 20, 21, 22, 23, 24, 25, 26, 27, 28, 29,
      30, 31, 32, 194, 133, 194, 134, 194, 160, 225, 154, 128, 226, 128, 139, 226, 128, 140, 226, 128, 141, 239,
      187, 191, 33, 34, 35, 36, 38, 39, 40, 41, 42, 43, 44, 47, 58, 59, 60, 61, 62, 63, 64, 91, 92, 93, 94, 95, 96,
      123, 124, 125, 126, 205, 184, 211, 128, 219, 157, 225, 160, 142, 226, 128, 165, 226, 128, 174, 226, 129, 171,
      226, 134, 131, 226, 169, 180, 226, 191, 176, 239, 183, 144, 239, 188, 133, 239, 188, 143, 239, 188, 154, 239,
      191, 186]).map Prod.snd))),
    (.whitespaceRuneSet, .runeSet (makeRuneSet ((rangeString [0, 1, 2, 3, 4, 5, 6, 7, 8, 9, 10, 11, 12, 13, 14, 15, 16, 17, 18, 19, 20, 21, 22, 23, 24, 25, 26, 27, 28, 29,
      30, 31, 32, 194, 133, 194, 134, 194, 160, 225, 154, 128, 226, 128, 139, 226, 128, 140, 226, 128, 141, 239,
      187, 191]).map Prod.snd))),
    (.labelSeparatorsRuneSet, .runeSet (makeRuneSet ((rangeString [46, 227, 128, 130, 239, 188, 142, 239, 189, 161]).map Prod.snd))),
    (.slashes, .ascii (makeASCIISet ((rangeString [47, 92]).map Prod.snd))),
    (.schemeRemainingCharSet, .ascii (makeASCIISet ((rangeString [65, 66, 67, 68, 69, 70, 71, 72, 73, 74, 75, 76, 77, 78, 79, 80, 81, 82, 83, 84, 85, 86, 87, 88, 89, 90, 97,
      98, 99, 100, 101, 102, 103, 104, 105, 106, 107, 108, 109, 110, 111, 112, 113, 114, 115, 116, 117, 118, 119,
      120, 121, 122, 48, 49, 50, 51, 52, 53, 54, 55, 56, 57, 43, 45, 46]).map Prod.snd))),
    (.schemeFirstCharSet, .ascii (makeASCIISet ((rangeString [65, 66, 67, 68, 69, 70, 71, 72, 73, 74, 75, 76, 77, 78, 79, 80, 81, 82, 83, 84, 85, 86, 87, 88, 89, 90, 97,
      98, 99, 100, 101, 102, 103, 104, 105, 106, 107, 108, 109, 110, 111, 112, 113, 114, 115, 116, 117, 118, 119,
      120, 121, 122]).map Prod.snd))),
    (.invalidUserInfoCharsSet, .ascii (makeASCIISet ((rangeString [47, 92, 63, 35, 91, 93]).map Prod.snd))),
    (.endOfHostDelimitersSet, .ascii (makeASCIISet ((rangeString [47, 92, 63, 35, 58]).map Prod.snd))),
    (.endOfHostWithPortDelimitersSet, .ascii (makeASCIISet ((rangeString [47, 92, 63, 35]).map Prod.snd))),
    (.alphaNumericSet, .ascii (makeASCIISet ((rangeString [65, 66, 67, 68, 69, 70, 71, 72, 73, 74, 75, 76, 77, 78, 79, 80, 81, 82, 83, 84, 85, 86, 87, 88, 89, 90, 97,
      98, 99, 100, 101, 102, 103, 104, 105, 106, 107, 108, 109, 110, 111, 112, 113, 114, 115, 116, 117, 118, 119,
      120, 121, 122, 48, 49, 50, 51, 52, 53, 54, 55, 56, 57]).map Prod.snd))),
    (.numericSet, .ascii (makeASCIISet ((rangeString [48, 49, 50, 51, 52, 53, 54, 55, 56, 57]).map Prod.snd))),
    (.invalidUserInfoChars, .str [47, 92, 63, 35, 91, 93]),
    (.endOfHostDelimiters, .str [47, 92, 63, 35, 58]),
    (.endOfHostWithPortDelimiters, .str [47, 92, 63, 35]),
    (.invalidHostNameChars, .str [0, 1, 2, 3, 4, 5, 6, 7, 8, 9, 10, 11, 12, 13, 14, 15, 16, 17, 18, 19, 20, 21, 22, 23, 24, 25, 26, 27, 28, 29,
      30, 31, 32, 194, 133, 194, 134, 194, 160, 225, 154, 128, 226, 128, 139, 226, 128, 140, 226, 128, 141, 239,
      187, 191, 33, 34, 35, 36, 38, 39, 40, 41, 42, 43, 44, 47, 58, 59, 60, 61, 62, 63, 64, 91, 92, 93, 94, 95, 96,
      123, 124, 125, 126, 205, 184, 211, 128, 219, 157, 225, 160, 142, 226, 128, 165, 226, 128, 174, 226, 129, 171,
      226, 134, 131, 226, 169, 180, 226, 191, 176, 239, 183, 144, 239, 188, 133, 239, 188, 143, 239, 188, 154, 239,
      191, 186]),
    (.whitespace, .str [0, 1, 2, 3, 4, 5, 6, 7, 8, 9, 10, 11, 12, 13, 14, 15, 16, 17, 18, 19, 20, 21, 22, 23, 24, 25, 26, 27, 28, 29,
      30, 31, 32, 194, 133, 194, 134, 194, 160, 225, 154, 128, 226, 128, 139, 226, 128, 140, 226, 128, 141, 239,
      187, 191]),
    (.controlChars, .str [0, 1, 2, 3, 4, 5, 6, 7, 8, 9, 10, 11, 12, 13, 14, 15, 16, 17, 18, 19, 20, 21, 22, 23, 24, 25, 26, 27, 28, 29,
      30, 31]),
    (.labelSeparators, .str [46, 227, 128, 130, 239, 188, 142, 239, 189, 161]),
    (.numbers, .str [48, 49, 50, 51, 52, 53, 54, 55, 56, 57]),
    (.alphabets, .str [65, 66, 67, 68, 69, 70, 71, 72, 73, 74, 75, 76, 77, 78, 79, 80, 81, 82, 83, 84, 85, 86, 87, 88, 89, 90, 97,
      98, 99, 100, 101, 102, 103, 104, 105, 106, 107, 108, 109, 110, 111, 112, 113, 114, 115, 116, 117, 118, 119,
      120, 121, 122])]

/-- The values of the package, computed. -/
def table : Glob → Val
  | .labelSeparatorsRuneSet => .runeSet labelSeparatorsRuneSet
  | .whitespaceRuneSet => .runeSet whitespaceRuneSet
  | .invalidHostNameCharsRuneSet => .runeSet invalidHostNameCharsRuneSet
  | .numericSet => .ascii numericSet
  | .alphaNumericSet => .ascii alphaNumericSet
  | .endOfHostWithPortDelimitersSet => .ascii endOfHostWithPortDelimitersSet
  | .endOfHostDelimitersSet => .ascii endOfHostDelimitersSet
  | .invalidUserInfoCharsSet => .ascii invalidUserInfoCharsSet
  | .schemeFirstCharSet => .ascii schemeFirstCharSet
  | .schemeRemainingCharSet => .ascii schemeRemainingCharSet
  | .slashes => .ascii slashes
  | .trimBoth => .num .int 0
  | .trimLeft => .num .int 1
  | .trimRight => .num .int 2
  | .iPv4len => .num .int 4
  | .iPv6len => .num .int 16
  | .lenDiff => .num .int 12
  | .big => .num .int 0xFFFFFF
  | .largestPortNumber => .num .int 65535
  | .None => .hostType .none
  | .HostName => .hostType .hostName
  | .IPv4 => .hostType .iPv4
  | .IPv6 => .hostType .iPv6
  | .defaultPSLFileName => .str defaultPSLFileName
  | .pslMaxAgeHours => .float 72
  | .publicSuffixListSources => .strs publicSuffixListSources
  | g => lookupGlob (computed 64) g   -- strings, used in other declarations only

/-- `int` is big enough for `n`. -/
structure Big (w : Nat) (B : Int) : Prop where
  pos : 1 ≤ w
  eq : B = 2 ^ (w - 1)

theorem Big.two {w : Nat} {B : Int} (h : Big w B) : (2 : Int) ^ w = 2 * B := by
  obtain ⟨h1, h2⟩ := h
  cases w with
  | zero => omega
  | succ n => simp at h2; rw [h2, Int.pow_succ]; omega

theorem wrap_int {w : Nat} {B : Int} (h : Big w B) {z : Int} (lo : -B ≤ z) (hi : z < B) : NumTy.int.wrap w z = z := by
  have h2 := h.two
  have hB : (((2 ^ w : Nat)) : Int) = 2 * B := by rw [← h2]; push_cast; rfl
  unfold NumTy.wrap
  simp only
  rw [Int.bmod_def, hB]
  have e : (2 * B + 1) / 2 = B := by omega
  rw [e]
  by_cases hz : 0 ≤ z
  · rw [Int.emod_eq_of_lt hz (by omega), if_pos hi]
  · have : z % (2 * B) = z + 2 * B := by
      rw [← Int.add_emod_right, Int.emod_eq_of_lt (by omega) (by omega)]
    rw [this, if_neg (by omega)]; omega

/-- What the text is run with, computed. -/
def tableCtx (w : Nat) (idna : Idna) (texts : Lib) (isPrint : Nat → Bool) : Ctx := ⟨w, idna, texts, isPrint, table⟩

variable {w : Nat} {idna : Idna} {texts : Lib} {isPrint : Nat → Bool} {B : Int}

/-! ## Computation rules -/

section
variable {α β : Type}

@[simp] theorem bind_ok (a : α) (f : α → Comp β) : Except.bind (.ok a) f = f a := rfl
@[simp] theorem bind_error (e : Trap) (f : α → Comp β) : Except.bind (.error e) f = .error e := rfl
@[simp] theorem cond_bool (b : Bool) (x y : Comp α) : Val.cond (.bool b) x y = if b then x else y := by cases b <;> rfl
@[simp] theorem not_bool (b : Bool) : Val.not (.bool b) = .ok (.bool !b) := rfl
@[simp] theorem neg_num (w : Nat) (t : NumTy) (z : Int) : Val.neg w (.num t z) = .ok (.num t (t.wrap w (-z))) := rfl
@[simp] theorem andThen_norm (k) (vs) : Out.andThen k (.norm vs) = k vs := rfl
@[simp] theorem andThen_brk (k) (vs) : Out.andThen k (.brk vs) = .ok (.brk vs) := rfl
@[simp] theorem andThen_cont (k) (vs) : Out.andThen k (.cont vs) = .ok (.cont vs) := rfl
@[simp] theorem andThen_ret (k) (vs) : Out.andThen k (.ret vs) = .ok (.ret vs) := rfl
@[simp] theorem only_norm (k) (vs) : Out.only k (.norm vs) = k vs := rfl
@[simp] theorem iterate_norm (k) (vs) : Out.iterate k (.norm vs) = k vs := rfl
@[simp] theorem iterate_cont (k) (vs) : Out.iterate k (.cont vs) = k vs := rfl
@[simp] theorem iterate_brk (k) (vs) : Out.iterate k (.brk vs) = .ok (.norm vs) := rfl
@[simp] theorem iterate_ret (k) (vs) : Out.iterate k (.ret vs) = .ok (.ret vs) := rfl
@[simp] theorem leave_norm (n) (vs) : Out.leave n (.norm vs) = .norm (vs.take n) := rfl
@[simp] theorem leave_brk (n) (vs) : Out.leave n (.brk vs) = .brk (vs.take n) := rfl
@[simp] theorem leave_cont (n) (vs) : Out.leave n (.cont vs) = .cont (vs.take n) := rfl
@[simp] theorem leave_ret (n) (vs) : Out.leave n (.ret vs) = .ret vs := rfl
@[simp] theorem getVar_zero (v) (vs) : getVar (v :: vs) 0 = .ok v := rfl
@[simp] theorem getVar_succ (v) (vs) (n) : getVar (v :: vs) (n + 1) = getVar vs n := rfl
@[simp] theorem typedAs_const (t : NumTy) (x z : Int) : typedAs (.num t x) (.num .const z) = .num t z := rfl
@[simp] theorem typedAs_int (v) (z : Int) : typedAs v (.num .int z) = .num .int z := by cases v <;> rfl
@[simp] theorem typedAs_byte (v) (z : Int) : typedAs v (.num .byte z) = .num .byte z := by cases v <;> rfl
@[simp] theorem typedAs_rune (v) (z : Int) : typedAs v (.num .rune z) = .num .rune z := by cases v <;> rfl
@[simp] theorem typedAs_bool (v) (b) : typedAs v (.bool b) = .bool b := by cases v <;> rfl
@[simp] theorem typedAs_str (v) (b) : typedAs v (.str b) = .str b := by cases v <;> rfl
@[simp] theorem typedAs_err (v) (b) : typedAs v (.err b) = .err b := by cases v <;> rfl
@[simp] theorem typedAs_runeSet (v) (b) : typedAs v (.runeSet b) = .runeSet b := by cases v <;> rfl
@[simp] theorem typedAs_suffixes (v) (b) : typedAs v (.suffixes b) = .suffixes b := by cases v <;> rfl
@[simp] theorem typedAs_node (v) (b) : typedAs v (.node b) = .node b := by cases v <;> rfl
@[simp] theorem typed_const (z) : typed (.num .const z) = .num .int z := rfl
@[simp] theorem typed_int (z) : typed (.num .int z) = .num .int z := rfl
@[simp] theorem typed_byte (z) : typed (.num .byte z) = .num .byte z := rfl
@[simp] theorem typed_rune (z) : typed (.num .rune z) = .num .rune z := rfl
@[simp] theorem typed_bool (z) : typed (.bool z) = .bool z := rfl
@[simp] theorem typed_str (z) : typed (.str z) = .str z := rfl
@[simp] theorem typed_err (z) : typed (.err z) = .err z := rfl
@[simp] theorem typed_bytes (z) : typed (.bytes z) = .bytes z := rfl
@[simp] theorem typed_node (z) : typed (.node z) = .node z := rfl
@[simp] theorem typed_result (z) : typed (.result z) = .result z := rfl
@[simp] theorem conv_int_const (z) : TypeName.conv .int (.num .const z) = .num .int z := rfl
@[simp] theorem conv_byte_const (z) : TypeName.conv .byte (.num .const z) = .num .byte z := rfl
@[simp] theorem conv_trimMode_const (z) : TypeName.conv .trimMode (.num .const z) = .num .int z := rfl
@[simp] theorem conv_int (t) (z) : TypeName.conv t (.num .int z) = .num .int z := by cases t <;> rfl
@[simp] theorem conv_byte (t) (z) : TypeName.conv t (.num .byte z) = .num .byte z := by cases t <;> rfl
@[simp] theorem conv_bool (t) (z) : TypeName.conv t (.bool z) = .bool z := by cases t <;> rfl
@[simp] theorem conv_str (t) (z) : TypeName.conv t (.str z) = .str z := by cases t <;> rfl
@[simp] theorem conv_err (t) (z) : TypeName.conv t (.err z) = .err z := by cases t <;> rfl
@[simp] theorem conv_ascii (t) (z) : TypeName.conv t (.ascii z) = .ascii z := by cases t <;> rfl
@[simp] theorem conv_runeSet (t) (z) : TypeName.conv t (.runeSet z) = .runeSet z := by cases t <;> rfl
@[simp] theorem conv_fastTLD (t) (z) : TypeName.conv t (.fastTLD z) = .fastTLD z := by cases t <;> rfl
@[simp] theorem conv_params (t) (z) : TypeName.conv t (.params z) = .params z := by cases t <;> rfl
@[simp] theorem conv_suffixes (t) (z) : TypeName.conv t (.suffixes z) = .suffixes z := by cases t <;> rfl
@[simp] theorem conv_bytes (t) (z) : TypeName.conv t (.bytes z) = .bytes z := by cases t <;> rfl
@[simp] theorem conv_result (t) (z) : TypeName.conv t (.result z) = .result z := by cases t <;> rfl
@[simp] theorem zero_bool : TypeName.bool.zero = .bool false := rfl
@[simp] theorem zero_int : TypeName.int.zero = .num .int 0 := rfl
@[simp] theorem zero_string : TypeName.string.zero = .str [] := rfl
@[simp] theorem zero_suffixes : TypeName.suffixes.zero = .suffixes ⟨[], [], []⟩ := rfl
@[simp] theorem zero_asciiSet : TypeName.asciiSet.zero = .ascii (Vector.replicate 8 0#32) := rfl
@[simp] theorem zero_rune : TypeName.rune.zero = .num .rune 0 := rfl
@[simp] theorem zero_intsetRune : TypeName.intsetRune.zero = .err none := rfl
@[simp] theorem zero_error : TypeName.error.zero = .err none := rfl
@[simp] theorem spread_tuple (ys) : spread [.tuple ys] = ys := rfl
@[simp] theorem spread_num (t z) : spread [.num t z] = [.num t z] := rfl
@[simp] theorem spread_bool (z) : spread [.bool z] = [.bool z] := rfl
@[simp] theorem spread_str (z) : spread [.str z] = [.str z] := rfl
@[simp] theorem spread_err (z) : spread [.err z] = [.err z] := rfl
@[simp] theorem spread_node (z) : spread [.node z] = [.node z] := rfl
@[simp] theorem spread_result (z) : spread [.result z] = [.result z] := rfl
@[simp] theorem spread_suffixes (z) : spread [.suffixes z] = [.suffixes z] := rfl
@[simp] theorem spread_strs (z) : spread [.strs z] = [.strs z] := rfl
@[simp] theorem spread_ascii (z) : spread [.ascii z] = [.ascii z] := rfl
@[simp] theorem spread_runeSet (z) : spread [.runeSet z] = [.runeSet z] := rfl
@[simp] theorem spread_hostType (z) : spread [.hostType z] = [.hostType z] := rfl
@[simp] theorem spread_two (x y l) : spread (x :: y :: l) = x :: y :: l := by cases x <;> rfl
@[simp] theorem wrap_const (w z) : NumTy.const.wrap w z = z := rfl
@[simp] theorem wrap_byte (w z) : NumTy.byte.wrap w z = z % 256 := rfl
@[simp] theorem arith_cc (w z) : arith w .const .const z = .ok (.num .const z) := rfl
@[simp] theorem arith_ii (w z) : arith w .int .int z = .ok (.num .int (NumTy.int.wrap w z)) := rfl
@[simp] theorem arith_ic (w z) : arith w .int .const z = .ok (.num .int (NumTy.int.wrap w z)) := rfl
@[simp] theorem arith_ci (w z) : arith w .const .int z = .ok (.num .int (NumTy.int.wrap w z)) := rfl
@[simp] theorem arith_bc (w z) : arith w .byte .const z = .ok (.num .byte (z % 256)) := rfl
@[simp] theorem compare_ii (b) : compare .int .int b = .ok (.bool b) := rfl
@[simp] theorem compare_ic (b) : compare .int .const b = .ok (.bool b) := rfl
@[simp] theorem compare_ci (b) : compare .const .int b = .ok (.bool b) := rfl
@[simp] theorem compare_bc (b) : compare .byte .const b = .ok (.bool b) := rfl
@[simp] theorem compare_cb (b) : compare .const .byte b = .ok (.bool b) := rfl
@[simp] theorem compare_rr (b) : compare .rune .rune b = .ok (.bool b) := rfl
@[simp] theorem compare_uc (b) : compare .uint32 .const b = .ok (.bool b) := rfl
@[simp] theorem compare_rc (b) : compare .rune .const b = .ok (.bool b) := rfl
@[simp] theorem binOp_add (w) (t u : NumTy) (x y : Int) : binOp w .add (.num t x) (.num u y) = arith w t u (x + y) := rfl
@[simp] theorem binOp_sub (w) (t u : NumTy) (x y : Int) : binOp w .sub (.num t x) (.num u y) = arith w t u (x - y) := rfl
@[simp] theorem binOp_mul (w) (t u : NumTy) (x y : Int) : binOp w .mul (.num t x) (.num u y) = arith w t u (x * y) := rfl
@[simp] theorem binOp_eq (w) (t u : NumTy) (x y : Int) : binOp w .eq (.num t x) (.num u y) = compare t u (decide (x = y)) := rfl
@[simp] theorem binOp_ne (w) (t u : NumTy) (x y : Int) : binOp w .ne (.num t x) (.num u y) = compare t u (decide (x ≠ y)) := rfl
@[simp] theorem binOp_lt (w) (t u : NumTy) (x y : Int) : binOp w .lt (.num t x) (.num u y) = compare t u (decide (x < y)) := rfl
@[simp] theorem binOp_le (w) (t u : NumTy) (x y : Int) : binOp w .le (.num t x) (.num u y) = compare t u (decide (x ≤ y)) := rfl
@[simp] theorem binOp_gt (w) (t u : NumTy) (x y : Int) : binOp w .gt (.num t x) (.num u y) = compare t u (decide (x > y)) := rfl
@[simp] theorem binOp_ge (w) (t u : NumTy) (x y : Int) : binOp w .ge (.num t x) (.num u y) = compare t u (decide (x ≥ y)) := rfl
@[simp] theorem binOp_add_str (w) (x y : Bytes) : binOp w .add (.str x) (.str y) = .ok (.str (x ++ y)) := rfl
@[simp] theorem binOp_eq_str (w) (x y : Bytes) : binOp w .eq (.str x) (.str y) = .ok (.bool (decide (x = y))) := rfl
@[simp] theorem binOp_ne_str (w) (x y : Bytes) : binOp w .ne (.str x) (.str y) = .ok (.bool (decide (x ≠ y))) := rfl
@[simp] theorem binOp_eq_host (w) (x y) : binOp w .eq (.hostType x) (.hostType y) = .ok (.bool (decide (x = y))) := rfl
@[simp] theorem binOp_eq_nil (w) (x) : binOp w .eq (.err x) (.err none) = .ok (.bool (decide (x = none))) := rfl
@[simp] theorem binOp_ne_nil (w) (x) : binOp w .ne (.err x) (.err none) = .ok (.bool (decide (x ≠ none))) := rfl
@[simp] theorem lenVal_str (s) : lenVal (.str s) = .ok (.num .int s.length) := rfl
@[simp] theorem indexVal_str (s) (t) (i) :
    indexVal (.str s) (.num t i) = (ofGo (Fasttld.index s i)).bind fun b => .ok (.num .byte b.toNat) := rfl
@[simp] theorem sliceVal_str (s) (t u) (i j) :
    sliceVal (.str s) (.num t i) (.num u j) = (ofGo (Fasttld.slice s i j)).bind fun b => .ok (.str b) := rfl
@[simp] theorem ofGo_ok (a : α) : ofGo (.ok a) = .ok a := rfl
@[simp] theorem ofGo_error (f : Fault) : (ofGo (.error f) : Comp α) = .error (.fault f) := rfl
@[simp] theorem ofGo_bind (x : Go α) (f : α → Go β) : ofGo (x >>= f) = (ofGo x).bind fun a => ofGo (f a) := by cases x <;> rfl
end

@[simp] theorem bind_assoc {α β γ : Type} (x : Comp α) (f : α → Comp β) (g : β → Comp γ) :
    (x.bind f).bind g = x.bind fun a => (f a).bind g := by cases x <;> rfl

@[simp] theorem bind_ite {α β : Type} (p : Prop) [Decidable p] (x y : Comp α) (f : α → Comp β) :
    Except.bind (if p then x else y) f = if p then x.bind f else y.bind f := by split <;> rfl

@[simp] theorem ofGo_ite {α : Type} (p : Prop) [Decidable p] (x y : Go α) : ofGo (if p then x else y) = if p then ofGo x else ofGo y := by
  split <;> rfl

@[simp] theorem tableCtx_w : (tableCtx w idna texts isPrint).w = w := rfl
@[simp] theorem tableCtx_idna : (tableCtx w idna texts isPrint).idna = idna := rfl
@[simp] theorem tableCtx_texts : (tableCtx w idna texts isPrint).texts = texts := rfl
@[simp] theorem tableCtx_isPrint : (tableCtx w idna texts isPrint).isPrint = isPrint := rfl
@[simp] theorem tableCtx_glob (g) : (tableCtx w idna texts isPrint).glob g = table g := rfl

attribute [simp] eval evals rhs assignAll defineAll assign1 lhsVal bindings

/-! ## Statements -/

/-- A loop, from a state between two rounds. -/
def loopOut (c : Ctx) (cf : Fn → List Val → Comp Val) (n : Nat) (e : Expr) (post body : Stmt) (fuel : Nat) (vs : Vars) : Comp Out :=
  whileLoop (eval c cf e) (exec c cf n post) (fun vs => (exec c cf n body vs).bind fun o => .ok (o.leave vs.length)) fuel vs

/-- A loop over values, from a state between two rounds. -/
def rangeOut (c : Ctx) (cf : Fn → List Val → Comp Val) (n : Nat) (body : Stmt) (l : List (List Val)) (vs : Vars) : Comp Out :=
  rangeLoop (exec c cf n body) l vs

section
variable {c : Ctx} {cf : Fn → List Val → Comp Val} {n : Nat}

theorem loopOut_step (e post body fuel vs) : loopOut c cf n e post body (fuel + 1) vs = (eval c cf e vs).bind fun x =>
    x.cond (((exec c cf n body vs).bind fun o => .ok (o.leave vs.length)).bind
      (Out.iterate fun vs => (exec c cf n post vs).bind (Out.only fun vs => loopOut c cf n e post body fuel vs)))
      (.ok (.norm vs)) := rfl

@[simp] theorem rangeOut_nil (body vs) : rangeOut c cf n body [] vs = .ok (.norm vs) := rfl
theorem rangeOut_cons (body x xs vs) : rangeOut c cf n body (x :: xs) vs =
    (exec c cf n body (vs ++ x)).bind fun o => (o.leave vs.length).iterate fun vs => rangeOut c cf n body xs vs := rfl

@[simp] theorem exec_skip (vs) : exec c cf n .skip vs = .ok (.norm vs) := rfl
@[simp] theorem exec_seq (a b vs) : exec c cf n (.seq a b) vs = (exec c cf n a vs).bind (Out.andThen fun vs => exec c cf n b vs) := rfl
@[simp] theorem exec_block (s vs) : exec c cf n (.block s) vs = (exec c cf n s vs).bind fun o => .ok (o.leave vs.length) := rfl
@[simp] theorem exec_assign (ls es vs) : exec c cf n (.assign ls es) vs =
    (rhs c cf es vs).bind fun xs => (assignAll ls xs vs).bind fun vs => .ok (.norm vs) := rfl
@[simp] theorem exec_assignOp (op l e vs) : exec c cf n (.assignOp op l e) vs = (lhsVal l vs).bind fun x => (eval c cf e vs).bind fun y =>
    (binOp c.w op x y).bind fun z => (assign1 l z vs).bind fun vs => .ok (.norm vs) := rfl
@[simp] theorem exec_assignIndexOp (op k name i e vs) : exec c cf n (.assignIndexOp op k name i e) vs = (getVar vs k).bind fun a =>
    (eval c cf i vs).bind fun i => (indexVal a i).bind fun x => (eval c cf e vs).bind fun y => (binOp c.w op x y).bind fun z =>
      (setIndex a i z).bind fun a => .ok (.norm (vs.set k a)) := rfl
@[simp] theorem exec_setMethod (k name e vs) : exec c cf n (.setMethod k name e) vs = (getVar vs k).bind fun a =>
    (eval c cf e vs).bind fun x => (addRune a x).bind fun a => .ok (.norm (vs.set k a)) := rfl
@[simp] theorem exec_incr (k name vs) : exec c cf n (.incr k name) vs = (getVar vs k).bind fun x =>
    (binOp c.w .add x (.num .const 1)).bind fun z => (assign1 (.var k name) z vs).bind fun vs => .ok (.norm vs) := rfl
@[simp] theorem exec_define (ns es vs) : exec c cf n (.define ns es) vs =
    (rhs c cf es vs).bind fun xs => (defineAll ns xs vs).bind fun vs => .ok (.norm vs) := rfl
@[simp] theorem exec_declare (ns t vs) : exec c cf n (.declare ns t) vs = .ok (.norm (vs ++ ns.map fun _ => t.zero)) := rfl
@[simp] theorem exec_declareGroup (l vs) : exec c cf n (.declareGroup l) vs = .ok (.norm (vs ++ l.map fun p => p.2.zero)) := rfl
@[simp] theorem exec_ite (init e a b vs) : exec c cf n (.ite init e a b) vs =
    (exec c cf n init vs).bind (Out.only fun vs' => (eval c cf e vs').bind fun x =>
      x.cond ((exec c cf n a vs').bind fun o => .ok (o.leave vs.length)) ((exec c cf n b vs').bind fun o => .ok (o.leave vs.length))) := rfl
@[simp] theorem exec_loop (init e post body vs) : exec c cf n (.loop init e post body) vs =
    (exec c cf n init vs).bind (Out.only fun vs' => (loopOut c cf n e post body n vs').bind fun o => .ok (o.leave vs.length)) := rfl
@[simp] theorem exec_range (i v e body vs) : exec c cf n (.range i v e body) vs = (eval c cf e vs).bind fun x => (rangeOver x).bind fun l =>
    rangeOut c cf n body (l.map fun p => bindings i v p.1 p.2) vs := rfl
@[simp] theorem exec_brk (vs) : exec c cf n .brk vs = .ok (.brk vs) := rfl
@[simp] theorem exec_cont (vs) : exec c cf n .cont vs = .ok (.cont vs) := rfl
@[simp] theorem exec_ret (es vs) : exec c cf n (.ret es) vs = (rhs c cf es vs).bind fun xs => .ok (.ret xs) := rfl
@[simp] theorem exec_retNamed (ns names vs) : exec c cf n (.retNamed ns names) vs = .ok (.ret (ns.map fun n => vs.getD n (.err none))) := rfl
@[simp] theorem exec_expr (e vs) : exec c cf n (.expr e) vs = (eval c cf e vs).bind fun _ => .ok (.norm vs) := rfl
end

/-! ## Fields -/

@[simp] theorem getField_params_URL (e) : getField (.params e) .URL = .ok (.str e.url) := rfl
@[simp] theorem getField_params_IgnoreSubDomains (e) : getField (.params e) .IgnoreSubDomains = .ok (.bool e.ignoreSubDomains) := rfl
@[simp] theorem getField_params_ConvertURLToPunyCode (e) : getField (.params e) .ConvertURLToPunyCode = .ok (.bool e.convertURLToPunyCode) := rfl
@[simp] theorem getField_fastTLD_tldTrie (e) : getField (.fastTLD e) .tldTrie = .ok (.node e) := rfl
@[simp] theorem getField_node_matches (e) : getField (.node e) .matches = .ok (.map e) := rfl
@[simp] theorem getField_node_end (e) : getField (.node e) .end = .ok (.bool e.isEnd) := rfl
@[simp] theorem getField_result_Domain (e) : getField (.result e) .Domain = .ok (.str e.domain) := rfl
@[simp] theorem getField_result_HostType (e) : getField (.result e) .HostType = .ok (.hostType e.hostType) := rfl
@[simp] theorem setField_Scheme (r s) : setField (.result r) .Scheme (.str s) = .ok (.result { r with scheme := s }) := rfl
@[simp] theorem setField_UserInfo (r s) : setField (.result r) .UserInfo (.str s) = .ok (.result { r with userInfo := s }) := rfl
@[simp] theorem setField_SubDomain (r s) : setField (.result r) .SubDomain (.str s) = .ok (.result { r with subDomain := s }) := rfl
@[simp] theorem setField_Domain (r s) : setField (.result r) .Domain (.str s) = .ok (.result { r with domain := s }) := rfl
@[simp] theorem setField_Suffix (r s) : setField (.result r) .Suffix (.str s) = .ok (.result { r with suffix := s }) := rfl
@[simp] theorem setField_RegisteredDomain (r s) : setField (.result r) .RegisteredDomain (.str s) = .ok (.result { r with registeredDomain := s }) := rfl
@[simp] theorem setField_Port (r s) : setField (.result r) .Port (.str s) = .ok (.result { r with port := s }) := rfl
@[simp] theorem setField_Path (r s) : setField (.result r) .Path (.str s) = .ok (.result { r with path := s }) := rfl
@[simp] theorem setField_HostType (r s) : setField (.result r) .HostType (.hostType s) = .ok (.result { r with hostType := s }) := rfl

/-! ## Calls of functions without text -/

section
variable {c : Ctx} (f : Nat)

@[simp] theorem call_len (v) : call c Source.program (f + 1) .len [v] = lenVal v := rfl
@[simp] theorem call_byte (t z) : call c Source.program (f + 1) .byte [.num t z] = .ok (.num .byte (z % 256)) := rfl
@[simp] theorem call_int (t z) : call c Source.program (f + 1) .int [.num t z] = .ok (.num .int (NumTy.int.wrap c.w z)) := rfl
@[simp] theorem call_toBytes (s) : call c Source.program (f + 1) .toBytes [.str s] = .ok (.bytes s) := rfl
@[simp] theorem call_toRunes (s) : call c Source.program (f + 1) .toRunes [.str s] = .ok (.runes ((rangeString s).map Prod.snd)) := rfl
@[simp] theorem call_DecodeRuneInString (s) : call c Source.program (f + 1) .DecodeRuneInString [.str s] = .ok (.tuple [.num .rune (decodeRune s).1, .num .int (decodeRune s).2]) := rfl
@[simp] theorem call_DecodeLastRuneInString (s) : call c Source.program (f + 1) .DecodeLastRuneInString [.str s] = .ok (.tuple [.num .rune (decodeLastRune s).1, .num .int (decodeLastRune s).2]) := rfl
@[simp] theorem call_LastIndexByte (s z) : call c Source.program (f + 1) .LastIndexByte [.str s, .num .byte z] = .ok (.num .int (lastIndexByte s (UInt8.ofNat z.toNat))) := rfl
@[simp] theorem call_SplitAfterN (s x sep t) : call c Source.program (f + 1) .SplitAfterN [.str s, .str (x :: sep), .num t 2] =
    .ok (.strs (splitAfterFirst (x :: sep) s :: if bytesContains (x :: sep) s then [s.drop (splitAfterFirst (x :: sep) s).length] else [])) := rfl
@[simp] theorem indexVal_first (x l) : indexVal (.strs (x :: l)) (.num .const 0) = .ok (.str x) := rfl
@[simp] theorem call_Atoi (s) : call c Source.program (f + 1) .Atoi [.str s] = .ok (atoiW c.w s) := rfl
@[simp] theorem call_QueryUnescape (s) : call c Source.program (f + 1) .QueryUnescape [.str s] = builtin c .QueryUnescape [.str s] := rfl
@[simp] theorem call_ToUnicode (s) : call c Source.program (f + 1) .ToUnicode [.str s] = .ok (.tuple [.str s, .err (c.idna.toUnicodeErr s)]) := rfl
@[simp] theorem call_idnaToPunyToASCII (s) : call c Source.program (f + 1) .idnaToPunyToASCII [.str s] = builtin c .idnaToPunyToASCII [.str s] := rfl
@[simp] theorem call_errorsNew (s) : call c Source.program (f + 1) .errorsNew [.str s] = .ok (.err (some s)) := rfl
@[simp] theorem call_Println (l) : call c Source.program (f + 1) .Println l = .ok (.tuple []) := rfl
@[simp] theorem call_toStr (s) : call c Source.program (f + 1) .toStr [.bytes s] = .ok (.str s) := rfl
@[simp] theorem call_append (l s) : call c Source.program (f + 1) .append [.strs l, .str s] = .ok (.strs (l ++ [s])) := rfl
@[simp] theorem call_NewRune (z) : call c Source.program (f + 1) .NewRune [.num .rune z] = .ok (.runeSet []) := rfl
@[simp] theorem call_TrimSpace (s) : call c Source.program (f + 1) .TrimSpace [.str s] = .ok (.str (trimSpace s)) := rfl
@[simp] theorem call_HasPrefix (s p) : call c Source.program (f + 1) .HasPrefix [.str s, .str p] = .ok (.bool (p.isPrefixOf s)) := rfl
@[simp] theorem call_Split (s b) : call c Source.program (f + 1) .Split [.str s, .str [b]] = .ok (.strs (splitByte b s)) := rfl
@[simp] theorem call_ToASCII (s) : call c Source.program (f + 1) .ToASCII [.str s] = builtin c .ToASCII [.str s] := rfl
@[simp] theorem call_Contains (s p) : call c Source.program (f + 1) .Contains [.bytes s, .bytes p] = .ok (.bool (bytesContains p s)) := rfl
@[simp] theorem call_ReadFile (s) : call c Source.program (f + 1) .ReadFile [.str s] = builtin c .ReadFile [.str s] := rfl
@[simp] theorem call_Exists (rs z) : call c Source.program (f + 1) .Exists [.runeSet rs, .num .rune z] = .ok (.bool (rs.exists z.toNat)) := rfl
@[simp] theorem call_Get (t k) : call c Source.program (f + 1) .Get [.map t, .str k] = builtin c .Get [.map t, .str k] := rfl
@[simp] theorem call_Len (t) : call c Source.program (f + 1) .Len [.map t] = .ok (.num .int t.kids.length) := rfl
@[simp] theorem call_Error (s) : call c Source.program (f + 1) .Error [.err (some s)] = .ok (.str s) := rfl

end

end Fasttld.GoLang
