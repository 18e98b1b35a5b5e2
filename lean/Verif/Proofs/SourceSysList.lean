import Verif.Proofs.SourceSysText

/-!
# Running the text of psl.go with the operating system: reading a list
-/

set_option linter.unusedSimpArgs false

namespace Fasttld.GoLang
open Fasttld

variable {round : Rat → Rat} {c : Ctx} (f : Nat)

@[simp] theorem storeX_suffixes (n name fl v) (vs : Vars) (p : Suffixes) (h : vs[n]? = some (.suffixes p)) :
    storeX (.field n name fl) v vs = EffX.lift (assign1 (.field n name fl) v vs) := by
  simp [storeX, h]

theorem toX_logAll_nil {α : Type} (k : Unit → XProg α) : (toX (logAll [])).bind k = k () := rfl
theorem toX_logAll_cons {α : Type} (l : Bytes) (ls : List Bytes) (k : Unit → XProg α) :
    (toX (logAll (l :: ls))).bind k = .effect (.log l) ((toX (logAll ls)).bind k) := rfl
theorem toX_logAll_append {α : Type} (l l' : List Bytes) (k : Unit → XProg α) :
    (toX (logAll (l ++ l'))).bind k = (toX (logAll l)).bind fun _ => (toX (logAll l')).bind k := by
  induction l with
  | nil => rfl
  | cons a l ih => simp only [List.cons_append, toX_logAll_cons, ih]

theorem printed_line (line t : Bytes) : printedAll [.str line, .num .const 124, .err (some t)] = some (line ++ b! " 124 " ++ t) := by
  have h : decimalText 124 = [49, 50, 52] := by decide
  simp [printedAll, printed, errText, h]

set_option maxHeartbeats 4000000 in
theorem run_processLine_sys (rawLine : Bytes) (psl : Suffixes) (isPrivate : Bool) (S : Local) :
    callSys round c (f + 2) .processLine [.str rawLine, .suffixes psl, .bool isPrivate] S =
      endsWith (logAll (processLineLog c.idna c.texts.toIdnaTexts rawLine))
        (fun _ => .tuple [.suffixes (processLine c.idna rawLine psl isPrivate).1, .bool (processLine c.idna rawLine psl isPrivate).2]) S := by
  obtain ⟨A, O, D⟩ := S
  rw [callSys_text (F := Source.processLine_func) (f := f + 1) rfl rfl _ rfl]
  unfold processLine processLineLog
  generalize hl : trimSpace rawLine = line
  have hpre : (b! "//") = [47, 47] := rfl
  have h2 : ∀ p, (if beginPrivate = line then true else p) = (p || decide (beginPrivate = line)) := by
    intro p; split <;> simp_all
  simp only [hpre, h2]
  generalize hb : decide (beginPrivate = line) = isM
  have h2' : execX c (callSys round c (f + 1)) (f + 1) Source.processLine_2 [.str rawLine, .suffixes psl, .bool isPrivate, .str line] =
      EffX.ok (.norm [.str rawLine, .suffixes psl, .bool (isPrivate || isM), .str line]) := by
    cases isM <;> simp -implicitDefEqProofs [Source.processLine_2, marker_bytes, hb]
  by_cases h3 : line.length = 0 ∨ List.isPrefixOf [47, 47] line
  · simp only [if_pos h3]
    rcases h3 with h3 | h3
    · simp -implicitDefEqProofs [endX, Source.processLine_func, Func.start, Func.args, Func.finishM, Func.finish, Func.result, Source.processLine_1, hl, h2',
        Source.processLine_3, h3, effx_deferred_app, effx_setDeferred_app, effx_ok_app, endsWith, toX_logAll_nil]
    · simp -implicitDefEqProofs [endX, Source.processLine_func, Func.start, Func.args, Func.finishM, Func.finish, Func.result, Source.processLine_1, hl, h2',
        Source.processLine_3, h3, effx_deferred_app, effx_setDeferred_app, effx_ok_app, endsWith, toX_logAll_nil]
  · simp only [if_neg h3]
    obtain ⟨h3a, h3b⟩ := not_or.mp h3
    have h3c : ¬ ((line.length : Int) = 0) := by omega
    generalize hq : (isPrivate || isM) = q at h2' ⊢
    have ha : builtin c .ToASCII [.str line] = match c.idna.toASCII line with
        | some t => .ok (.tuple [.str t, .err none])
        | none => .ok (.tuple [.str [], .err (some (c.texts.toASCII line))]) := rfl
    cases ht : c.idna.toASCII line with
    | none =>
      rw [ht] at ha
      have hp := callSys_Println (round := round) (c := c) f _ _ (printed_line line (c.texts.toASCII line))
      simp only [endsWith, toX_logAll_cons, toX_logAll_nil]
      generalize line ++ b! " 124 " ++ c.texts.toASCII line = tx at hp ⊢
      simp -implicitDefEqProofs [endX, Source.processLine_func, Func.start, Func.args, Func.finishM, Func.finish, Func.result, Source.processLine_1, hl, h2',
        Source.processLine_3, h3a, h3b, h3c, Source.processLine_4, Source.processLine_5, ha, hp, effx_effect_app, effx_deferred_app, effx_setDeferred_app, effx_ok_app]
    | some suffix =>
      rw [ht] at ha
      by_cases hs : suffix = line <;> cases q <;>
      simp -implicitDefEqProofs [endX, Source.processLine_func, Func.start, Func.args, Func.finishM, Func.finish, Func.result, Source.processLine_1, hl, h2',
        Source.processLine_3, h3a, h3b, h3c, Source.processLine_4, Source.processLine_5, ha, hs, Source.processLine_6,
        Source.processLine_7, Source.processLine_8, Source.processLine_9, effx_deferred_app, effx_setDeferred_app, effx_ok_app, endsWith, toX_logAll_nil]

theorem processLines_cons (idna : Idna) (x : Bytes) (l : List Bytes) (psl : Suffixes) (b : Bool) :
    processLines idna (x :: l) psl b = processLines idna l (processLine idna x psl b).1 (processLine idna x psl b).2 := rfl

/-- The loop over the lines and what comes after it. -/
theorem loop_getHardcoded_sys (a : Nat) (L : List Bytes) (A : Arrays) (O D) (hA : A[a]? = some L) {α : Type} (k : Out → EffX α) :
    ∀ (l : List Bytes) (i : Nat) (psl : Suffixes) (b : Bool), L.drop i = l → ∃ b',
    ((rangeOutX c (callSys round c (f + 2)) (f + 2) Source.getHardcodedPublicSuffixList_loop1 "_" "line" ((List.range' i l.length).map (Item.elem a))
      [.suffixes psl, .bool b]).bind k) ⟨A, O, D⟩ =
    (toX (logAll (l.flatMap (processLineLog c.idna c.texts.toIdnaTexts)))).bind fun _ =>
      k (.norm [.suffixes (processLines c.idna l psl b), .bool b']) ⟨A, O, D⟩ := by
  intro l
  induction l with
  | nil => intro i psl b _; exact ⟨b, rfl⟩
  | cons x l ih =>
    intro i psl b hd
    have hget : L[i]? = some x := by
      have := congrArg List.head? hd
      simpa [List.head?_drop] using this
    have hd' : L.drop (i + 1) = l := by
      have := congrArg List.tail hd
      simpa [List.tail_drop] using this
    obtain ⟨b', h⟩ := ih (i + 1) (processLine c.idna x psl b).1 (processLine c.idna x psl b).2 hd'
    refine ⟨b', ?_⟩
    simp only [List.length_cons, List.range'_succ, List.map_cons, rangeOutX_cons, List.flatMap_cons, toX_logAll_append, processLines_cons]
    generalize rangeOutX _ _ _ _ _ _ (List.map _ _) = M at h ⊢
    rw [← h]
    simp -implicitDefEqProofs [Item.get, effx_elems_app hA, indexVal, hget, Source.getHardcodedPublicSuffixList_loop1]
    rw [effx_bind_prog (run_processLine_sys f x psl b ⟨A, O, D⟩)]
    simp -implicitDefEqProofs

theorem loop_getPublic_sys (x y z : Val) (a : Nat) (L : List Bytes) (A : Arrays) (O D) (hA : A[a]? = some L) {α : Type} (k : Out → EffX α) :
    ∀ (l : List Bytes) (i : Nat) (psl : Suffixes) (b : Bool), L.drop i = l → ∃ b',
    ((rangeOutX c (callSys round c (f + 2)) (f + 2) Source.getPublicSuffixList_loop1 "_" "line" ((List.range' i l.length).map (Item.elem a))
      [x, .suffixes psl, y, z, .bool b]).bind k) ⟨A, O, D⟩ =
    (toX (logAll (l.flatMap (processLineLog c.idna c.texts.toIdnaTexts)))).bind fun _ =>
      k (.norm [x, .suffixes (processLines c.idna l psl b), y, z, .bool b']) ⟨A, O, D⟩ := by
  intro l
  induction l with
  | nil => intro i psl b _; exact ⟨b, rfl⟩
  | cons s l ih =>
    intro i psl b hd
    have hget : L[i]? = some s := by
      have := congrArg List.head? hd
      simpa [List.head?_drop] using this
    have hd' : L.drop (i + 1) = l := by
      have := congrArg List.tail hd
      simpa [List.tail_drop] using this
    obtain ⟨b', h⟩ := ih (i + 1) (processLine c.idna s psl b).1 (processLine c.idna s psl b).2 hd'
    refine ⟨b', ?_⟩
    simp only [List.length_cons, List.range'_succ, List.map_cons, rangeOutX_cons, List.flatMap_cons, toX_logAll_append, processLines_cons]
    generalize rangeOutX _ _ _ _ _ _ (List.map _ _) = M at h ⊢
    rw [← h]
    simp -implicitDefEqProofs [Item.get, effx_elems_app hA, indexVal, hget, Source.getPublicSuffixList_loop1]
    rw [effx_bind_prog (run_processLine_sys f s psl b ⟨A, O, D⟩)]
    simp -implicitDefEqProofs

/-- psl.go:93-100 and what comes after it. -/
theorem run_getHardcoded_sys (A O D) {α : Type} (k : Val → EffX α) :
    (callSys round c (f + 3) .getHardcodedPublicSuffixList []).bind k ⟨A, O, D⟩ =
    (toX (logAll (parseLog c.idna c.texts.toIdnaTexts c.texts.hardcodedPSL))).bind fun _ =>
      k (.tuple [.suffixes (parsePSL c.idna c.texts.hardcodedPSL), .err none]) ⟨A ++ [splitByte 10 c.texts.hardcodedPSL], O, D⟩ := by
  have h0 : (callSys round c (f + 3) .getHardcodedPublicSuffixList []).bind k ⟨A, O, D⟩ =
      (endX c (callSys round c (f + 2)) (f + 2) Source.getHardcodedPublicSuffixList_func D Source.getHardcodedPublicSuffixList_func.body []).bind k ⟨A, O, []⟩ := by
    simp only [EffX.bind]
    rw [callSys_text (F := Source.getHardcodedPublicSuffixList_func) (f := f + 2) rfl rfl _ rfl]
    rfl
  rw [h0]
  have hget : (A ++ [splitByte 10 c.texts.hardcodedPSL])[A.length]? = some (splitByte 10 c.texts.hardcodedPSL) := by simp
  simp -implicitDefEqProofs [endX, Source.getHardcodedPublicSuffixList_func, Source.getHardcodedPublicSuffixList_1, Source.getHardcodedPublicSuffixList_2,
    Source.getHardcodedPublicSuffixList_3, effx_newArray_app, rangeOverM, effx_elems_app hget, List.range_eq_range']
  obtain ⟨b', h⟩ := loop_getHardcoded_sys (round := round) (c := c) f A.length _ _ O [] hget
    (fun a => (Out.andThenX (fun vs => (execX c (callSys round c (f + 2)) (f + 2) Source.getHardcodedPublicSuffixList_4 vs).bind
      (Out.andThenX fun vs => EffX.ok (.norm vs))) a).bind fun a =>
      (EffX.lift (Source.getHardcodedPublicSuffixList_func.finishM a)).bind fun a => EffX.deferred.bind fun l => (runDeferred (callSys round c (f + 2)) l).bind fun _ =>
      (EffX.setDeferred D).bind fun _ => k a)
    (splitByte 10 c.texts.hardcodedPSL) 0 ⟨[], [], []⟩ false rfl
  refine h.trans ?_
  show _ = (toX (logAll (parseLog c.idna c.texts.toIdnaTexts c.texts.hardcodedPSL))).bind _
  unfold parseLog
  congr 1

/-- psl.go:72-84 and what comes after it. -/
theorem run_getPublic_sys (path : Bytes) (A O D) {α : Type} (k : Val → EffX α) :
    (callSys round c (f + 3) .getPublicSuffixList [.str path]).bind k ⟨A, O, D⟩ = .sys (.readFile path) fun b t => match b with
      | none => .effect (.log t) (k (.tuple [.suffixes ⟨[], [], []⟩, .err (some t)]) ⟨A, O, D⟩)
      | some text => (toX (logAll (parseLog c.idna c.texts.toIdnaTexts text))).bind fun _ =>
        k (.tuple [.suffixes (parsePSL c.idna text), .err none]) ⟨A ++ [splitByte 10 text], O, D⟩ := by
  have h0 : (callSys round c (f + 3) .getPublicSuffixList [.str path]).bind k ⟨A, O, D⟩ =
      (endX c (callSys round c (f + 2)) (f + 2) Source.getPublicSuffixList_func D Source.getPublicSuffixList_func.body [.str path]).bind k ⟨A, O, []⟩ := by
    simp only [EffX.bind]
    rw [callSys_text (F := Source.getPublicSuffixList_func) (f := f + 2) rfl rfl _ rfl]
    rfl
  rw [h0]
  simp -implicitDefEqProofs [endX, Source.getPublicSuffixList_func, Source.getPublicSuffixList_1, Source.getPublicSuffixList_2, effx_sys_app]
  funext b t
  cases b with
  | none =>
    simp -implicitDefEqProofs [readVal, Source.getPublicSuffixList_3, effx_effect_app, Func.finishM, Func.finish, Func.result, effx_deferred_app, effx_setDeferred_app]
  | some text =>
    have hget : (A ++ [splitByte 10 text])[A.length]? = some (splitByte 10 text) := by simp
    simp -implicitDefEqProofs [readVal, Source.getPublicSuffixList_3, Source.getPublicSuffixList_4, Source.getPublicSuffixList_5, effx_newArray_app,
      rangeOverM, effx_elems_app hget, List.range_eq_range']
    obtain ⟨b', h⟩ := loop_getPublic_sys (round := round) (c := c) f (.str path) (.bytes text) (.err none) A.length _ _ O [] hget
      (fun a => (Out.andThenX (fun vs => (execX c (callSys round c (f + 2)) (f + 2) Source.getPublicSuffixList_6 vs).bind
        (Out.andThenX fun vs => EffX.ok (.norm vs))) a).bind fun a =>
        (EffX.lift (Source.getPublicSuffixList_func.finishM a)).bind fun a => EffX.deferred.bind fun l => (runDeferred (callSys round c (f + 2)) l).bind fun _ =>
        (EffX.setDeferred D).bind fun _ => k a)
      (splitByte 10 text) 0 ⟨[], [], []⟩ false rfl
    refine h.trans ?_
    unfold parseLog
    congr 1

end Fasttld.GoLang
