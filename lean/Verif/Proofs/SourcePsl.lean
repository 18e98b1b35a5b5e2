import Verif.Proofs.SourceSets

/-!
# Running the text of psl.go: reading a list
-/

set_option linter.unusedSimpArgs false

namespace Fasttld.GoLang
open Fasttld

@[simp] theorem getField_publicSuffixes (p) : getField (.suffixes p) .publicSuffixes = .ok (.strs p.publicSuffixes) := rfl
@[simp] theorem getField_privateSuffixes (p) : getField (.suffixes p) .privateSuffixes = .ok (.strs p.privateSuffixes) := rfl
@[simp] theorem getField_allSuffixes (p) : getField (.suffixes p) .allSuffixes = .ok (.strs p.allSuffixes) := rfl
@[simp] theorem setField_publicSuffixes (p l) :
    setField (.suffixes p) .publicSuffixes (.strs l) = .ok (.suffixes { p with publicSuffixes := l }) := rfl
@[simp] theorem setField_privateSuffixes (p l) :
    setField (.suffixes p) .privateSuffixes (.strs l) = .ok (.suffixes { p with privateSuffixes := l }) := rfl
@[simp] theorem setField_allSuffixes (p l) :
    setField (.suffixes p) .allSuffixes (.strs l) = .ok (.suffixes { p with allSuffixes := l }) := rfl

theorem marker_bytes : [47, 47, 32, 61, 61, 61, 66, 69, 71, 73, 78, 32, 80, 82, 73, 86, 65, 84, 69, 32, 68, 79, 77, 65, 73, 78, 83, 61, 61, 61] =
    beginPrivate := rfl

set_option maxHeartbeats 4000000 in
theorem run_processLine {c : Ctx} (f : Nat) (rawLine : Bytes) (psl : Suffixes) (isPrivate : Bool) :
    call c Source.program (f + 2) .processLine [.str rawLine, .suffixes psl, .bool isPrivate] =
      .ok (.tuple [.suffixes (processLine c.idna rawLine psl isPrivate).1, .bool (processLine c.idna rawLine psl isPrivate).2]) := by
  show Func.run c (call c Source.program (f + 1)) (f + 1) Source.processLine_func _ = _
  unfold processLine
  generalize hl : trimSpace rawLine = line
  have hpre : (b! "//") = [47, 47] := rfl
  have h2 : ∀ p, (if beginPrivate = line then true else p) = (p || decide (beginPrivate = line)) := by
    intro p; split <;> simp_all
  simp only [hpre, h2]
  generalize hb : decide (beginPrivate = line) = isM
  have h2' : exec c (call c Source.program (f + 1)) (f + 1) Source.processLine_2 [.str rawLine, .suffixes psl, .bool isPrivate, .str line] =
      .ok (.norm [.str rawLine, .suffixes psl, .bool (isPrivate || isM), .str line]) := by
    cases isM <;> simp [Source.processLine_2, marker_bytes, hb]
  by_cases h3 : line.length = 0 ∨ List.isPrefixOf [47, 47] line
  · rw [if_pos h3]
    rcases h3 with h3 | h3
    · simp [Func.run, Source.processLine_func, Func.start, Func.args, Func.finish, Func.result, Source.processLine_1, hl, h2',
        Source.processLine_3, h3]
    · simp [Func.run, Source.processLine_func, Func.start, Func.args, Func.finish, Func.result, Source.processLine_1, hl, h2',
        Source.processLine_3, h3]
  · rw [if_neg h3]
    obtain ⟨h3a, h3b⟩ := not_or.mp h3
    have h3c : ¬ ((line.length : Int) = 0) := by omega
    generalize hq : (isPrivate || isM) = q at h2' ⊢
    have ha : builtin c .ToASCII [.str line] = match c.idna.toASCII line with
        | some t => .ok (.tuple [.str t, .err none])
        | none => .ok (.tuple [.str [], .err (some (c.texts.toASCII line))]) := rfl
    cases ht : c.idna.toASCII line with
    | none =>
      rw [ht] at ha
      simp [Func.run, Source.processLine_func, Func.start, Func.args, Func.finish, Func.result, Source.processLine_1, hl, h2',
        Source.processLine_3, h3a, h3b, h3c, Source.processLine_4, Source.processLine_5, ha]
    | some suffix =>
      rw [ht] at ha
      by_cases hs : suffix = line <;> cases q <;>
      simp [Func.run, Source.processLine_func, Func.start, Func.args, Func.finish, Func.result, Source.processLine_1, hl, h2',
        Source.processLine_3, h3a, h3b, h3c, Source.processLine_4, Source.processLine_5, ha, hs, Source.processLine_6,
        Source.processLine_7, Source.processLine_8, Source.processLine_9]

/-- The loop over the lines; `n` is the place of the variable `psl`. -/
theorem loop_getHardcoded {c : Ctx} (f n : Nat) : ∀ (l : List Bytes) (psl : Suffixes) (b : Bool), ∃ b',
    rangeOut c (call c Source.program (f + 2)) n Source.getHardcodedPublicSuffixList_loop1 (l.map fun s => [.str s]) [.suffixes psl, .bool b] =
      .ok (.norm [.suffixes (processLines c.idna l psl b), .bool b']) := by
  intro l
  induction l with
  | nil => intro psl b; exact ⟨b, rfl⟩
  | cons x l ih =>
    intro psl b
    obtain ⟨b', h⟩ := ih (processLine c.idna x psl b).1 (processLine c.idna x psl b).2
    refine ⟨b', ?_⟩
    simp only [List.map_cons, rangeOut_cons]
    generalize rangeOut _ _ _ _ (List.map (fun s : Bytes => [Val.str s]) l) = L at h ⊢
    simp [Source.getHardcodedPublicSuffixList_loop1, run_processLine, h, processLines]

theorem loop_getPublic {c : Ctx} (f n : Nat) (x y z : Val) : ∀ (l : List Bytes) (psl : Suffixes) (b : Bool), ∃ b',
    rangeOut c (call c Source.program (f + 2)) n Source.getPublicSuffixList_loop1 (l.map fun s => [.str s]) [x, .suffixes psl, y, z, .bool b] =
      .ok (.norm [x, .suffixes (processLines c.idna l psl b), y, z, .bool b']) := by
  intro l
  induction l with
  | nil => intro psl b; exact ⟨b, rfl⟩
  | cons a l ih =>
    intro psl b
    obtain ⟨b', h⟩ := ih (processLine c.idna a psl b).1 (processLine c.idna a psl b).2
    refine ⟨b', ?_⟩
    simp only [List.map_cons, rangeOut_cons]
    generalize rangeOut _ _ _ _ (List.map (fun s : Bytes => [Val.str s]) l) = L at h ⊢
    simp [Source.getPublicSuffixList_loop1, run_processLine, h, processLines]

theorem enumStrs_map : ∀ (l : List Bytes) (i : Nat), ((enumStrs i l).map fun p => [Val.str p.2]) = l.map fun s => [Val.str s] := by
  intro l
  induction l with
  | nil => intro i; rfl
  | cons a l ih => intro i; simp [enumStrs, ih]

theorem run_getHardcodedPublicSuffixList {c : Ctx} (f : Nat) :
    call c Source.program (f + 3) .getHardcodedPublicSuffixList [] =
      .ok (.tuple [.suffixes (parsePSL c.idna c.texts.hardcodedPSL), .err none]) := by
  show Func.run c (call c Source.program (f + 2)) (f + 2) Source.getHardcodedPublicSuffixList_func _ = _
  obtain ⟨b', h⟩ := loop_getHardcoded (c := c) f (f + 2) (splitByte 10 c.texts.hardcodedPSL) ⟨[], [], []⟩ false
  simp [Func.run, Source.getHardcodedPublicSuffixList_func, Func.start, Func.args, Func.finish, Func.result,
    Source.getHardcodedPublicSuffixList_1, Source.getHardcodedPublicSuffixList_2, Source.getHardcodedPublicSuffixList_3,
    Source.getHardcodedPublicSuffixList_4, rangeOver, Function.comp_def, enumStrs_map, h, parsePSL]

theorem run_getPublicSuffixList {c : Ctx} (f : Nat) (path : Bytes) :
    call c Source.program (f + 3) .getPublicSuffixList [.str path] =
      match c.texts.readFile path with
      | .ok text => .ok (.tuple [.suffixes (parsePSL c.idna text), .err none])
      | .error e => .ok (.tuple [.suffixes ⟨[], [], []⟩, .err (some e)]) := by
  show Func.run c (call c Source.program (f + 2)) (f + 2) Source.getPublicSuffixList_func _ = _
  have hr : builtin c .ReadFile [.str path] = match c.texts.readFile path with
      | .ok t => .ok (.tuple [.bytes t, .err none])
      | .error e => .ok (.tuple [.bytes [], .err (some e)]) := rfl
  cases ht : c.texts.readFile path with
  | error e =>
    rw [ht] at hr
    simp [Func.run, Source.getPublicSuffixList_func, Func.start, Func.args, Func.finish, Func.result,
      Source.getPublicSuffixList_1, Source.getPublicSuffixList_2, Source.getPublicSuffixList_3, hr]
  | ok text =>
    rw [ht] at hr
    obtain ⟨b', h⟩ := loop_getPublic (c := c) f (f + 2) (.str path) (.bytes text) (.err none) (splitByte 10 text) ⟨[], [], []⟩ false
    simp [Func.run, Source.getPublicSuffixList_func, Func.start, Func.args, Func.finish, Func.result,
      Source.getPublicSuffixList_1, Source.getPublicSuffixList_2, Source.getPublicSuffixList_3, hr,
      Source.getPublicSuffixList_4, Source.getPublicSuffixList_5, Source.getPublicSuffixList_6, rangeOver, Function.comp_def,
      enumStrs_map, h, parsePSL]

theorem run_validPSLDelimiters {c : Ctx} (f : Nat) (contents : Bytes) :
    call c Source.program (f + 2) .validPSLDelimiters [.bytes contents] = .ok (.bool (validPSLDelimiters contents)) := by
  show Func.run c (call c Source.program (f + 1)) (f + 1) Source.validPSLDelimiters_func _ = _
  have e1 : (b! "// ===BEGIN ICANN DOMAINS===") = [47, 47, 32, 61, 61, 61, 66, 69, 71, 73, 78, 32, 73, 67, 65, 78, 78, 32, 68, 79, 77, 65, 73, 78, 83, 61, 61, 61] := rfl
  have e2 : (b! "// ===END ICANN DOMAINS===") = [47, 47, 32, 61, 61, 61, 69, 78, 68, 32, 73, 67, 65, 78, 78, 32, 68, 79, 77, 65, 73, 78, 83, 61, 61, 61] := rfl
  have e3 : (b! "// ===BEGIN PRIVATE DOMAINS===") = [47, 47, 32, 61, 61, 61, 66, 69, 71, 73, 78, 32, 80, 82, 73, 86, 65, 84, 69, 32, 68, 79, 77, 65, 73, 78, 83, 61, 61, 61] := rfl
  have e4 : (b! "// ===END PRIVATE DOMAINS===") = [47, 47, 32, 61, 61, 61, 69, 78, 68, 32, 80, 82, 73, 86, 65, 84, 69, 32, 68, 79, 77, 65, 73, 78, 83, 61, 61, 61] := rfl
  unfold validPSLDelimiters
  rw [e1, e2, e3, e4]
  simp [Func.run, Source.validPSLDelimiters_func, Func.start, Func.args, Func.finish, Func.result, Source.validPSLDelimiters_1]
  generalize bytesContains _ contents = b1
  generalize bytesContains _ contents = b2
  generalize bytesContains _ contents = b3
  generalize bytesContains _ contents = b4
  cases b1 <;> cases b2 <;> cases b3 <;> cases b4 <;> simp

end Fasttld.GoLang
