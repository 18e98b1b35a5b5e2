import Verif.Proofs.SourceSysQuiet
import Verif.Proofs.SourceSysImpl
import Verif.Proofs.Threads

/-!
# Running the text of Extract with logging, on a structure that New made
-/

set_option linter.unusedSimpArgs false

namespace Fasttld.GoLang
open Fasttld

variable {w : Nat} {idna : Idna} {texts : Lib} {isPrint : Nat → Bool} {B : Int} {round : Rat → Rat}

/-! ## Before the host is unescaped -/

/-- fasttld.go:142-259 -/
def headStmts : Stmt :=
  .seq Source.Extract_1 <| .seq Source.Extract_2 <| .seq Source.Extract_3 <| .seq Source.Extract_4 <| .seq Source.Extract_5 <|
  .seq Source.Extract_6 <| .seq Source.Extract_7 <| .seq Source.Extract_8 <| .seq Source.Extract_9 <| .seq Source.Extract_10 <|
  .seq Source.Extract_11 <| .seq Source.Extract_12 <| .seq Source.Extract_13 <| .seq Source.Extract_14 .skip

/-- fasttld.go:261-275 -/
def idnaStmts : Stmt := .seq Source.Extract_15 <| .seq Source.Extract_16 <| .seq Source.Extract_17 .skip

theorem Extract_parts3 : Source.Extract_func.body = headStmts.append (idnaStmts.append (.seq Source.Extract_18 <| .seq Source.Extract_19 <|
    .seq Source.Extract_20 <| .seq Source.Extract_21 afterStmts)) := rfl

theorem headStmts_plain : headStmts.plain = true := by decide +kernel
theorem headStmts_quiet : headStmts.quiet = true := by decide +kernel
theorem walkStmts_quiet : (Stmt.seq Source.Extract_21 afterStmts).quiet = true := by decide +kernel

/-- What the part before the host is unescaped ends with. -/
def BeforeIdna (isPrint : Nat → Bool) (t : Val) (e : URLParams) (m : Fasttld.M (ExtractResult × Option Bytes)) (v : Comp Out) : Prop :=
  match m with
  | .error (.fault f) => v = .error (.fault f)
  | .error (.ret u er) => v = .ok (.ret (retVals isPrint u er))
  | .ok (u, none) => v = .ok (.ret (retVals isPrint u none))
  | .ok (u, some s) => s.length ≤ e.url.length ∧ ∃ o c h a, v = .ok (.norm [t, .params e, .result u, .str s, o, c, h, a])

section
variable {t : Val} {e : URLParams} {α : Type}

theorem BeforeIdna.go {g : Go α} {k K} (h : ∀ a, g = .ok a → BeforeIdna isPrint t e (k a) (K a)) :
    BeforeIdna isPrint t e (liftGo g >>= k) ((ofGo g).bind K) := by
  cases g with
  | ok a => exact h a rfl
  | error f => rfl

theorem BeforeIdna.m {g : Fasttld.M α} {k K} (h : ∀ a, g = .ok a → BeforeIdna isPrint t e (k a) (K a)) :
    BeforeIdna isPrint t e (g >>= k) (ofM isPrint g K) := by
  match g, h with
  | .ok a, h => exact h a rfl
  | .error (.fault f), _ => rfl
  | .error (.ret u er), _ => rfl

theorem BeforeIdna.ne {m : Fasttld.M (ExtractResult × Option Bytes)} {v : Comp Out} (h : BeforeIdna isPrint t e m v) : v ≠ .error .stuck := by
  match m, h with
  | .error (.fault f), h => cases h; simp
  | .error (.ret u er), h => cases h; simp
  | .ok (u, none), h => cases h; simp
  | .ok (u, some s), ⟨_, _, _, _, _, h⟩ => cases h; simp
end

section
variable (f n : Nat) (e : URLParams)

local notation "EX" => exec (tableCtx w idna texts isPrint) (call (tableCtx w idna texts isPrint) Source.program (f + 1)) n

theorem exec_beforeIdna (t : Val) (hB : Big w B) (hw : 2 ^ 31 ≤ B) {M : Nat} (hurl : e.url.length ≤ M) (hMB : M + 4 < B) (hf : M + 10 ≤ f) :
    BeforeIdna isPrint t e (beforeIdna e) (EX headStmts [t, .params e]) := by
  have h1 : EX Source.Extract_1 [t, .params e] = .ok (.norm [t, .params e, .result {}]) := by simp [Source.Extract_1]
  unfold beforeIdna
  simp only [headStmts]
  rw [exec_seq, h1, ok_andThen, exec_seq, exec_2 f n t e hB hw (by omega) (by omega), ofGo_andThen]
  refine BeforeIdna.go fun s hs => ?_
  have l1 := fastTrim_length_le hs
  rw [exec_seq, exec_3 f n t e hB hw {} s (by omega) (by omega), ofGo_andThen]
  refine BeforeIdna.go fun r1 hr1 => ?_
  have l2 := stageScheme_length hr1
  rw [exec_seq, exec_4 f n t e hB hw r1.1 r1.2 (by omega) (by omega), ofGo_andThen]
  refine BeforeIdna.go fun r2 hr2 => ?_
  have l3 := stageUserInfo_length hr2
  have h567 : EX (.seq Source.Extract_5 (.seq Source.Extract_6 Source.Extract_7)) [t, .params e, .result r2.1, .str r2.2] =
      .ok (.norm [t, .params e, .result r2.1, .str r2.2, .num .int (-1), .num .int (-1), .num .int (-1)]) := by
    have hw1 : NumTy.int.wrap w (-1) = -1 := wrap_int hB (by omega) (by omega)
    simp [Source.Extract_5, Source.Extract_6, Source.Extract_7]
  rw [exec_seq3, h567, ok_andThen, exec_seq, exec_8 f n t e hB hw r2.1 r2.2 (by omega)]
  cases hsc : scanLoop r2.2.length r2.2 0 (-1) (-1) with
  | err er => rfl
  | done o c h =>
    obtain ⟨b1, b2⟩ := scanLoop_closing r2.2 0 (-1) (-1) (by omega) (by omega) (by omega) hsc
    have e9 := exec_9 (idna := idna) (texts := texts) (isPrint := isPrint) f n t e hB hw r2.1 r2.2 (by omega) o c h b1 b2
    have e10 := exec_10 (idna := idna) (texts := texts) (isPrint := isPrint) f n t e hB hw r2.1 r2.2 (by omega) (by omega) o c (adjustHostEnd r2.2.length c h)
    rw [scanOut, ok_andThen]
    rw [exec_seq]
    rw [e9]
    rw [ok_andThen]
    rw [exec_seq]
    rw [e10]
    rw [ofM_andThen]
    refine BeforeIdna.m fun u3 hu3 => ?_
    have h11 : EX Source.Extract_11 [t, .params e, .result u3, .str r2.2, .num .int o, .num .int c, .num .int (adjustHostEnd r2.2.length c h)] =
        .ok (.norm [t, .params e, .result u3, .str r2.2, .num .int o, .num .int c, .num .int (adjustHostEnd r2.2.length c h), .str []]) := by
      simp [Source.Extract_11]
    rw [exec_seq, h11, ok_andThen, exec_seq, exec_12, ofGo_andThen]
    refine BeforeIdna.go fun r4 hr4 => ?_
    have l4 := stageSplit_length hr4
    rw [exec_seq, exec_13 f n t e hB hw u3 r4.1 r4.2 (by omega), ofM_andThen]
    refine BeforeIdna.m fun u5 hu5 => ?_
    by_cases h6 : u5.hostType = .iPv6
    · have h14 : EX Source.Extract_14 [t, .params e, .result u5, .str r4.1, .num .int o, .num .int c,
          .num .int (adjustHostEnd r2.2.length c h), .str r4.2] = .ok (.ret [.result u5, .err none]) := by
        simp [Source.Extract_14, h6, table]
      rw [exec_seq, h14, if_pos h6]
      rfl
    · have h14 : EX Source.Extract_14 [t, .params e, .result u5, .str r4.1, .num .int o, .num .int c,
          .num .int (adjustHostEnd r2.2.length c h), .str r4.2] = .ok (.norm [t, .params e, .result u5, .str r4.1, .num .int o, .num .int c,
          .num .int (adjustHostEnd r2.2.length c h), .str r4.2]) := by
        simp [Source.Extract_14, h6, table]
      rw [exec_seq, h14, if_neg h6, ok_andThen]
      exact ⟨(by omega : r4.1.length ≤ e.url.length), _, _, _, _, rfl⟩
end

theorem beforeHost_idna (idna : Idna) (e : URLParams) : beforeHost idna e = (beforeIdna e >>= fun r => match r with
    | (u, none) => .ok (.inl (u, none))
    | (u, some s) => stageIdna idna e s u >>= fun s => .ok (.inr (s, u))) := by
  unfold beforeHost beforeIdna
  have hb : ∀ {α β γ : Type} (x : Fasttld.M α) (k : α → Fasttld.M β) (l : β → Fasttld.M γ), ((x >>= k) >>= l) = (x >>= fun a => k a >>= l) := by
    intro α β γ x k l; cases x <;> rfl
  simp only [hb]
  congr 1; funext s
  congr 1; funext r
  congr 1; funext r
  cases scanLoop r.2.length r.2 0 (-1) (-1) with
  | err er => rfl
  | done o c h =>
    simp only [hb]
    congr 1; funext u
    congr 1; funext hs
    congr 1; funext u
    split <;> rfl

/-! ## Unescaping the host -/

section
variable {c : Ctx} (f : Nat)

@[simp] theorem callSys_QueryUnescape (s) : callSys round c (f + 1) .QueryUnescape [.str s] = EffX.lift (builtin c .QueryUnescape [.str s]) := by
  show EffX.up (Eff.lift _) = _
  simp
@[simp] theorem callSys_ToUnicode (s) : callSys round c (f + 1) .ToUnicode [.str s] = EffX.ok (.tuple [.str s, .err (c.idna.toUnicodeErr s)]) := rfl
@[simp] theorem callSys_idnaToPuny (s) : callSys round c (f + 1) .idnaToPunyToASCII [.str s] = EffX.lift (builtin c .idnaToPunyToASCII [.str s]) := by
  show EffX.up (Eff.lift _) = _
  simp
@[simp] theorem callSys_Error (s) : callSys round c (f + 1) .Error [.err (some s)] = EffX.ok (.str s) := rfl
@[simp] theorem callSys_SplitAfterN (s x sep t) : callSys round c (f + 1) .SplitAfterN [.str s, .str (x :: sep), .num t 2] =
    EffX.ok (.strs (splitAfterFirst (x :: sep) s :: if bytesContains (x :: sep) s then [s.drop (splitAfterFirst (x :: sep) s).length] else [])) := rfl

@[simp] theorem getFieldX_ConvertURLToPunyCode (e) : getFieldX (.params e) .ConvertURLToPunyCode = EffX.ok (.bool e.convertURLToPunyCode) := rfl
@[simp] theorem indexM_first (x l) : indexM (.strs (x :: l)) (.num .const 0) = Eff.ok (.str x) := rfl

/-- What formatAsPunycode logs. -/
def punycodeLog (c : Ctx) (s : Bytes) : List Bytes :=
  match c.idna.lookupASCII s with
  | some _ => []
  | none => [splitAfterFirst (b! "idna: invalid label") (c.texts.lookupASCII s)]

theorem run_formatAsPunycode_sys (s : Bytes) (S : Local) : callSys round c (f + 2) .formatAsPunycode [.str s] S =
    endsWith (logAll (punycodeLog c s)) (fun _ => .str (formatAsPunycode c.idna s)) S := by
  obtain ⟨A, O, D⟩ := S
  rw [callSys_text (F := Source.formatAsPunycode_func) (f := f + 1) rfl rfl _ rfl]
  have ha : builtin c .idnaToPunyToASCII [.str s] = match c.idna.lookupASCII s with
      | some t => .ok (.tuple [.str t, .err none])
      | none => .ok (.tuple [.str [], .err (some (c.texts.lookupASCII s))]) := rfl
  unfold punycodeLog formatAsPunycode
  cases h : c.idna.lookupASCII s with
  | some t =>
    rw [h] at ha
    simp -implicitDefEqProofs [endX, Source.formatAsPunycode_func, Func.start, Func.args, Func.finishM, Func.finish, Func.result, Source.formatAsPunycode_1,
      Source.formatAsPunycode_2, Source.formatAsPunycode_3, ha, effx_deferred_app, effx_setDeferred_app, effx_ok_app, endsWith, toX_logAll_nil]
  | none =>
    rw [h] at ha
    simp -implicitDefEqProofs [endX, Source.formatAsPunycode_func, Func.start, Func.args, Func.finishM, Func.finish, Func.result, Source.formatAsPunycode_1,
      Source.formatAsPunycode_2, Source.formatAsPunycode_3, ha, effx_deferred_app, effx_setDeferred_app, effx_ok_app, endsWith, toX_logAll_nil, toX_logAll_cons, effx_effect_app]

/-- The rest of a computation, depending on how a stage of the model ends. -/
def afterStage (isPrint : Nat → Bool) {α β : Type} (m : M α) (k : α → EffX β) (K : Out → EffX β) : EffX β :=
  match m with
  | .ok a => k a
  | .error (.ret u er) => K (.ret (retVals isPrint u er))
  | .error (.fault er) => EffX.lift (.error (.fault er))

local notation "CT" => tableCtx w idna texts isPrint

set_option maxHeartbeats 1000000 in
theorem execX_idna (n : Nat) (e : URLParams) (t : Val) (u : ExtractResult) (s : Bytes) (o c h a : Val) {β : Type} (K : Out → EffX β) (A O D) :
    (execX CT (callSys round CT (f + 2)) n idnaStmts [t, .params e, .result u, .str s, o, c, h, a]).bind K ⟨A, O, D⟩ =
      (toX (logAll (stageIdnaLog idna texts.toIdnaTexts e s))).bind fun _ => afterStage isPrint (stageIdna idna e s u)
        (fun s' => K (.norm [t, .params e, .result u, .str s', o, c, h, a, .str (unescapeOrEmpty s), .err none])) K ⟨A, O, D⟩ := by
  have hq : builtin CT .QueryUnescape [.str s] = match queryUnescape s with
    | .ok t => .ok (.tuple [.str t, .err none])
    | .error esc => .ok (.tuple [.str [], .err (some ((Err.badEscape esc).text isPrint))]) := rfl
  have hl : (b! "idna: invalid label") = [105, 100, 110, 97, 58, 32, 105, 110, 118, 97, 108, 105, 100, 32, 108, 97, 98, 101, 108] := rfl
  simp only [stageIdnaLog, stageIdna, unescapeOrEmpty]
  cases hu : queryUnescape s with
  | error esc =>
    rw [hu] at hq
    simp -implicitDefEqProofs [idnaStmts, Source.Extract_15, Source.Extract_16, hq, toX_logAll_nil, afterStage, fail, retVals]
  | ok v =>
    rw [hu] at hq
    cases hp : e.convertURLToPunyCode with
    | true =>
      have h1 := fun S => run_formatAsPunycode_sys (round := round) (c := CT) f v S
      have h2 : (toX (logAll (punycodeLog CT v))) = toX (logAll (match idna.lookupASCII v with
        | some val => []
        | none => [splitAfterFirst (b! "idna: invalid label") (texts.lookupASCII v)])) := by
        rfl
      simp -implicitDefEqProofs [idnaStmts, Source.Extract_15, Source.Extract_16, Source.Extract_17, hq, hp, afterStage]
      have h3 : ∀ (k : Val → EffX β) (S : Local), (callSys round CT (f + 2) .formatAsPunycode [.str v]).bind k S =
          (toX (logAll (punycodeLog CT v))).bind fun _ => k (.str (formatAsPunycode idna v)) S :=
        fun k S => effx_bind_prog (v := fun _ => .str (formatAsPunycode idna v)) (h1 S) k
      rw [h3, h2]
      simp -implicitDefEqProofs
      rfl
    | false =>
      cases hm : idna.toUnicodeErr v with
      | none =>
        have hm' : (CT).idna.toUnicodeErr v = none := hm
        simp -implicitDefEqProofs [idnaStmts, Source.Extract_15, Source.Extract_16, Source.Extract_17, hq, hp, hm, hm', toX_logAll_nil, afterStage]
      | some msg =>
        have hm' : (CT).idna.toUnicodeErr v = some msg := hm
        simp -implicitDefEqProofs [idnaStmts, Source.Extract_15, Source.Extract_16, Source.Extract_17, hq, hp, hm, hm', toX_logAll_nil, toX_logAll_cons, afterStage,
          effx_effect_app, fail, retVals, hl]
        rfl
end

/-! ## The whole function -/

theorem andThenX_assoc (x : EffX Out) (k l : Vars → EffX Out) :
    (x.bind (Out.andThenX k)).bind (Out.andThenX l) = x.bind (Out.andThenX fun vs => (k vs).bind (Out.andThenX l)) := by
  rw [effx_bind_assoc]
  congr 1; funext o
  cases o <;> rfl

theorem execX_append (c : Ctx) (cx n) (p r : Stmt) (vs) : execX c cx n (p.append r) vs = (execX c cx n p vs).bind (Out.andThenX fun vs => execX c cx n r vs) := by
  induction p generalizing vs with
  | seq a b _ ih =>
    simp only [Stmt.append, execX_seq, andThenX_assoc]
    congr 2; funext vs; exact ih vs
  | skip => rfl
  | _ => rfl

theorem execX_declareGroup (c : Ctx) (cx n) (l vs) : execX c cx n (.declareGroup l) vs = EffX.ok (.norm (vs ++ l.map fun p => p.2.zero)) := rfl

theorem Follows.eq {α : Type} {v : Comp α} {y : EffX α} (h : Follows (Eff.lift v) y) (hv : v ≠ .error .stuck) : y = EffX.lift v := by
  funext S
  obtain ⟨A, O, D⟩ := S
  have h := h A O D
  generalize hy : y ⟨A, O, D⟩ = q at h
  cases v with
  | error t =>
    cases h with
    | stuck => exact absurd rfl hv
    | err => rfl
  | ok a =>
    cases h with
    | ok => rfl

/-- What Extract returns: the value of the model; nothing has changed. -/
def Extracted (isPrint : Nat → Bool) (m : Mem) (S : Local) (m' : Mem) (v : Comp (Val × Local)) (r : Go (ExtractResult × Option Err)) : Prop :=
  m' = m ∧ match r with
    | .ok (u, er) => v = .ok (.tuple [.result u, .err (er.map (Err.text isPrint))], S)
    | .error f => v = .error (.fault f)

/-- The end of a function that has deferred nothing. -/
def endQuiet (cx : Fn → List Val → EffX Val) (D : List (Fn × List Val)) (v : Val) : EffX Val :=
  EffX.deferred.bind fun l => (runDeferred cx l).bind fun _ => (EffX.setDeferred D).bind fun _ => EffX.ok v

theorem endQuiet_app (cx D v A O) : endQuiet cx D v ⟨A, O, []⟩ = .ret (.ok (v, ⟨A, O, D⟩)) := rfl

theorem impl_reads {ok : LEvent → Prop} {cx : Fn → List Val → EffX Val} {D : List (Fn × List Val)} {A : Arrays} {O : List Obj} {m : Mem}
    {p : MProg (Comp (Val × Arrays))} {P : XProg (Comp (Val × Local))} {q : MProg (Go (ExtractResult × Option Err))} {v : Go (ExtractResult × Option Err)}
    (hs : Sim (Returned isPrint A) p q) (hb : Below O [] p P) (hr : q.reads m.nodes v) :
    Impl ok (Extracted isPrint m ⟨A, O, D⟩) m (P.bind (EffX.next (endQuiet cx D))) (.ret v) := by
  induction hs generalizing P with
  | @ret a b h =>
    cases hr
    cases hb with
    | stuck => match v, h with
      | .ok (u, er), h => cases h
      | .error er, h => cases h
    | err t =>
      match v, h with
      | .error er, h => cases h; exact .ret ⟨rfl, rfl⟩
    | ok a A' =>
      match v, h with
      | .ok (u, er), h => cases h; exact .ret ⟨rfl, rfl⟩
      | .error er, h => cases h
  | call o _ ih =>
    cases hb with
    | call _ hb =>
      refine .mem (fun _ => MOp.sees_can hr fun _ _ h => h) fun b m' hd => ?_
      obtain ⟨rfl, h⟩ := MOp.sees_step hr (fun _ _ h => h) hd
      exact ih b (hb b) h
  | nil k l => exact hr.elim

section
variable (f : Nat) (e : URLParams)

local notation "CT" => tableCtx w idna texts isPrint

theorem extract_returned (t : Trie) : extract idna t e = returned (extractM idna t e) := by unfold extract returned; rfl

theorem execX_root {n : Nat} {i : Nat} {o : Obj} {A : Arrays} {O D} (ho : O[i]? = some o) (u : ExtractResult) (s' : Bytes) (x1 x2 x3 x4 x5 x6 : Val)
    {β : Type} (K : Out → EffX β) :
    (execX CT (callSys round CT (f + 1)) n (.seq Source.Extract_18 <| .seq Source.Extract_19 <|
        .seq Source.Extract_20 <| .seq Source.Extract_21 afterStmts) [.obj i, .params e, .result u, .str s', x1, x2, x3, x4, x5, x6]).bind K ⟨A, O, D⟩ =
      (execX CT (callSys round CT (f + 1)) n (.seq Source.Extract_21 afterStmts) (walkEnv (.obj i) e u s' x1 x2 x3 x4 x5 x6 (.ptr o.tldTrie)
        false false (⟨false, 0, s'.length, s'.length, s'.length⟩ : Walk) [])).bind K ⟨A, O, D⟩ := by
  generalize Source.Extract_21.seq afterStmts = Z
  simp -implicitDefEqProofs [Source.Extract_18, Source.Extract_19, Source.Extract_20, execX_seq, effx_bind_assoc, getFieldX_tldTrie, effx_getObj_app ho, execX_declareGroup]

set_option maxHeartbeats 1000000 in
/-- fasttld.go:142-400 -/
theorem impl_Extract {ok : LEvent → Prop} (hB : Big w B) (hw : 2 ^ 31 ≤ B) {M : Nat} (hurl : e.url.length ≤ M) (hMB : M + 4 < B) (hf : M + 10 ≤ f)
    (hM : ∀ v : Bytes, v.length ≤ e.url.length → (formatAsPunycode idna v).length ≤ M) (m : Mem) (A : Arrays) (O D) (i : Nat) (o : Obj) (t : Trie)
    (ho : O[i]? = some o) (ht : Rep m.nodes o.tldTrie t) :
    Impl ok (Extracted isPrint m ⟨A, O, D⟩) m (callSys round CT (f + 3) .Extract [.obj i, .params e] ⟨A, O, D⟩)
      (logAll (extractLog idna texts.toIdnaTexts e) >>= fun _ => .ret (extract idna t e)) := by
  have hhead := exec_beforeIdna (idna := idna) (texts := texts) (isPrint := isPrint) (f + 1) (f + 2) e (.obj i) hB hw hurl hMB (by omega)
  have hq := (Agrees.exec (c := CT) (n := f + 2) (fun fn xs hp => Agrees.call CT (f + 1) fn xs hp) headStmts [.obj i, .params e] headStmts_plain) hhead.ne
  have hx := (Follows.exec (c := CT) (n := f + 2) (fun fn xs hp => Follows.call round CT (f + 1) fn xs hp) headStmts [.obj i, .params e] headStmts_quiet)
  rw [hq] at hx
  have hx := hx.eq hhead.ne
  rw [callSys_text (F := Source.Extract_func) (f := f + 2) rfl rfl _ rfl]
  change Impl _ _ _ (endX CT (callSys round CT (f + 2)) (f + 2) Source.Extract_func D Source.Extract_func.body [.obj i, .params e] ⟨A, O, []⟩) _
  have key : ∀ vs S, endX CT (callSys round CT (f + 2)) (f + 2) Source.Extract_func D Source.Extract_func.body vs S =
      (execX CT (callSys round CT (f + 2)) (f + 2) headStmts vs).bind (fun o => (Out.andThenX (fun vs =>
        (execX CT (callSys round CT (f + 2)) (f + 2) idnaStmts vs).bind (Out.andThenX fun vs => execX CT (callSys round CT (f + 2)) (f + 2) (.seq Source.Extract_18 <| .seq Source.Extract_19 <|
    .seq Source.Extract_20 <| .seq Source.Extract_21 afterStmts) vs)) o).bind fun o => (EffX.lift (Source.Extract_func.finishM o)).bind (endQuiet (callSys round CT (f + 2)) D)) S := by
    intro vs S
    rw [Extract_parts3]
    simp only [endX, execX_append, effx_bind_assoc]
    rfl
  rw [key, hx]
  have hret : ∀ u er, Impl ok (Extracted isPrint m ⟨A, O, D⟩) m (((EffX.lift (Source.Extract_func.finishM (.ret (retVals isPrint u er)))).bind
      (endQuiet (callSys round CT (f + 2)) D)) ⟨A, O, []⟩) (.ret (.ok (u, er))) := fun u er => .ret ⟨rfl, rfl⟩
  rw [extract_returned, extractM_split, beforeHost_idna]
  unfold extractLog
  generalize exec CT _ _ headStmts _ = v at hhead ⊢
  match beforeIdna e, hhead with
  | .error (.fault er), h => cases h; exact .ret ⟨rfl, rfl⟩
  | .error (.ret u er), h => cases h; exact hret u er
  | .ok (u, none), h => cases h; exact hret u none
  | .ok (u, some s), ⟨hs, x1, x2, x3, x4, h⟩ =>
    cases h
    simp only [effx_lift_ok, effx_ok_bind, andThenX_norm, effx_bind_assoc]
    rw [execX_idna]
    refine Impl.ofL _ fun _ => ?_
    have hlen : ∀ s', stageIdna idna e s u = .ok s' → s'.length ≤ M := fun s' h =>
      stageIdna_length (Nat.le_trans hs hurl) (fun v hv => hM v (Nat.le_trans hv hs)) h
    have hres : ∀ st, stageIdna idna e s u = st → (Except.ok (u, some s) >>= fun r : ExtractResult × Option Bytes => match r with
          | (u, none) => .ok (.inl (u, none))
          | (u, some s) => do .ok (.inr (← stageIdna idna e s u, u)) : Fasttld.M ((ExtractResult × Option Err) ⊕ (Bytes × ExtractResult))) =
        (st >>= fun s' => .ok (.inr (s', u))) := by
      rintro _ rfl; rfl
    rcases hst : stageIdna idna e s u with (er | ⟨u', er⟩) | s'
    · rw [hres _ hst]; exact .ret ⟨rfl, rfl⟩
    · rw [hres _ hst]; exact hret u' er
    · rw [hres _ hst]
      have hl := hlen s' hst
      show Impl _ _ _ ((execX _ _ _ (.seq Source.Extract_18 _) _).bind _ _) _
      rw [execX_root (f + 1) e ho]
      have hsim := execM_walk (idna := idna) (texts := texts) (isPrint := isPrint) (f + 1) (f + 2) e hB hw u s' x1 x2 x3 x4 (.str (unescapeOrEmpty s)) (.err none) (.obj i)
        (by omega) (by omega) (by omega) A o.tldTrie
      have hfol := (Follows.exec (c := CT) (n := f + 2) (fun fn xs hp => Follows.call round CT (f + 1) fn xs hp) (.seq Source.Extract_21 afterStmts)
        (walkEnv (.obj i) e u s' x1 x2 x3 x4 (.str (unescapeOrEmpty s)) (.err none) (.ptr o.tldTrie) false false (⟨false, 0, s'.length, s'.length, s'.length⟩ : Walk) []) walkStmts_quiet)
      have hfol := (hfol.bind (k := endExtract) (l := fun o => EffX.lift (Source.Extract_func.finishM o)) fun o => .lift _) A O []
      rw [← effx_bind_assoc]
      refine impl_reads hsim hfol ?_
      refine MProg.reads_bind (walkLoopH_reads s' u _ ht _ _) ?_
      exact congrArg returned (stageHost_split t e s' u).symm
end

end Fasttld.GoLang
