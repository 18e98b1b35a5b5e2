import Verif.Model.GoCli
import Verif.Proofs.SourceSysBase

/-!
# Running the text of PrintRes
-/

set_option linter.unusedSimpArgs false

namespace Fasttld.GoLang
open Fasttld

variable {w : Nat} {idna : Idna} {texts : Lib} {isPrint : Nat → Bool} {B : Int} {round : Rat → Rat} (f : Nat)

local notation "CT" => tableCtx w idna texts isPrint

section
variable {c : Ctx}

@[simp] theorem callSys_colorNew_attrs (l) : callSys round c (f + 1) .colorNew [.attrs l] = EffX.ok (.color l) := rfl
theorem callSys_Print (l s) : callSys round c (f + 1) .Print [.color l, .str s] = (EffX.effect (.print ⟨l, s⟩)).bind fun _ => EffX.ok (.tuple []) := rfl
theorem callSys_colorPrintln (l s) : callSys round c (f + 1) .colorPrintln [.color l, .str s] =
    (EffX.effect (.print ⟨l, s ++ [10]⟩)).bind fun _ => EffX.ok (.tuple []) := rfl
theorem callSys_colorPrintln_err (l t) : callSys round c (f + 1) .colorPrintln [.color l, .err (some t)] =
    (EffX.effect (.print ⟨l, t ++ [10]⟩)).bind fun _ => EffX.ok (.tuple []) := rfl
theorem callSys_colorPrintln_nil (l) : callSys round c (f + 1) .colorPrintln [.color l] =
    (EffX.effect (.print ⟨l, [10]⟩)).bind fun _ => EffX.ok (.tuple []) := rfl

/-- The variables of PrintRes. -/
def printVars (url : Bytes) (r : ExtractResult) : Vars :=
  [.str url, .result r, .attrs leftAttrsFilled, .attrs leftAttrsBlank, .attrs rightAttrs]

/-- One piece of text is printed. -/
def printed1 (a : Chunk) (vs : Vars) : EffX Out := (EffX.effect (.print a)).bind fun _ => EffX.ok (.norm vs)

variable {url : Bytes} {r : ExtractResult}

/-- `if len(value) != 0 { … } else { … }` -/
theorem exec_label (n : Nat) (e : Expr) (l s : Bytes) (he : evalX c (callSys round c (f + 1)) e (printVars url r) = EffX.ok (.str s)) :
    execX c (callSys round c (f + 1)) n (.ite .skip (.bin .ne (.call .len [e]) (.intLit 0))
      (.seq (.expr (.call .Print [(.call .colorNew [(.spreadArg (.var 2 "leftAttrsFilled"))]), (.strLit l)])) .skip)
      (.seq (.expr (.call .Print [(.call .colorNew [(.spreadArg (.var 3 "leftAttrsBlank"))]), (.strLit l)])) .skip)) (printVars url r) =
    printed1 (if s.length ≠ 0 then ⟨leftAttrsFilled, l⟩ else ⟨leftAttrsBlank, l⟩) (printVars url r) := by
  have hf : getVar (printVars url r) 2 = .ok (.attrs leftAttrsFilled) := rfl
  have hg : getVar (printVars url r) 3 = .ok (.attrs leftAttrsBlank) := rfl
  have hl : Out.leave (printVars url r).length (.norm (printVars url r)) = .norm (printVars url r) := rfl
  by_cases hs : s.length = 0
  · have hb : binOp c.w .ne (.num .int s.length) (.num .const (0 : Nat)) = .ok (.bool false) := by simp [binOp, compare, NumTy.join, hs]
    rw [if_neg (fun h => h hs)]
    simp -implicitDefEqProofs only [execX_ite, execX_skip, effx_ok_bind, onlyX_norm, evalX, evalsX, he, callSys_len, binOpX_num, hb, effx_lift_ok, condX_bool,
      if_false, execX_seq, execX_expr, hf, hg, callSys_colorNew_attrs, callSys_Print, effx_bind_assoc, andThenX_norm, hl, printed1,
      Bool.false_eq_true, List.map_nil]
  · have hb : binOp c.w .ne (.num .int s.length) (.num .const (0 : Nat)) = .ok (.bool true) := by
      have : ¬ ((s.length : Int) = 0) := by omega
      simp [binOp, compare, NumTy.join, this, hs]
    simp -implicitDefEqProofs only [execX_ite, execX_skip, effx_ok_bind, onlyX_norm, evalX, evalsX, he, callSys_len, binOpX_num, hb, effx_lift_ok, condX_bool,
      if_true, execX_seq, execX_expr, hf, hg, callSys_colorNew_attrs, callSys_Print, effx_bind_assoc, andThenX_norm, hl, printed1, hs, ne_eq, not_false_eq_true,
      List.map_nil]

/-- `color.New(rightAttrs...).Println(value)` -/
theorem exec_value (n : Nat) (e : Expr) (s : Bytes) (he : evalX c (callSys round c (f + 1)) e (printVars url r) = EffX.ok (.str s)) :
    execX c (callSys round c (f + 1)) n (.expr (.call .colorPrintln [(.call .colorNew [(.spreadArg (.var 4 "rightAttrs"))]), e])) (printVars url r) =
    printed1 ⟨rightAttrs, s ++ [10]⟩ (printVars url r) := by
  have hv : getVar (printVars url r) 4 = .ok (.attrs rightAttrs) := rfl
  simp -implicitDefEqProofs [he, hv, callSys_colorPrintln, printed1]

theorem printed1_bind {β : Type} (a : Chunk) (vs : Vars) (k : Out → EffX β) : (printed1 a vs).bind k = (EffX.effect (.print a)).bind fun _ => k (.norm vs) := by
  simp [printed1]

end

section
variable (url : Bytes) (r : ExtractResult) (n : Nat)

local notation "X" => execX CT (callSys round CT (f + 1)) n

/-- print.go:76-80 -/
theorem exec_PrintRes_22 : X Source.PrintRes_22 (printVars url r) =
    printed1 (if r.hostType ≠ .none then ⟨[.fgHiBlue, .bold], b! "        host type: "⟩ else ⟨leftAttrsBlank, b! "        host type: "⟩) (printVars url r) := by
  obtain ⟨_, _, _, _, _, _, _, _, t⟩ := r
  cases t <;> rfl

/-- print.go:81-90 -/
theorem exec_PrintRes_23 : X Source.PrintRes_23 (printVars url r) =
    printed1 (match r.hostType with
   | .hostName => ⟨rightAttrs, b! "hostname\n"⟩
   | .iPv4 => ⟨rightAttrs, b! "ipv4 address\n"⟩
   | .iPv6 => ⟨rightAttrs, b! "ipv6 address\n"⟩
   | .none => ⟨rightAttrs, b! "\n"⟩) (printVars url r) := by
  obtain ⟨_, _, _, _, _, _, _, _, t⟩ := r
  cases t <;> rfl

theorem exec_PrintRes_24 : X Source.PrintRes_24 (printVars url r) = printed1 ⟨[], b! "\n"⟩ (printVars url r) := rfl

/-- print.go:8-93 -/
theorem callSys_PrintRes (A O D) : callSys round CT (f + 2) .PrintRes [.str url, .result r] ⟨A, O, D⟩ =
    (toX (printAll (printRes url r))).bind fun _ => .ret (.ok (.tuple [], ⟨A, O, D⟩)) := by
  rw [callSys_text (F := Source.PrintRes_func) (f := f + 1) rfl rfl _ rfl]
  change endX CT (callSys round CT (f + 1)) (f + 1) Source.PrintRes_func D (.seq Source.PrintRes_1 (.seq Source.PrintRes_2 (.seq Source.PrintRes_3
    (.seq Source.PrintRes_4 <| .seq Source.PrintRes_5 <| .seq Source.PrintRes_6 <| .seq
    Source.PrintRes_7 <| .seq Source.PrintRes_8 <| .seq Source.PrintRes_9 <| .seq Source.PrintRes_10 <| .seq Source.PrintRes_11 <| .seq Source.PrintRes_12 <| .seq
    Source.PrintRes_13 <| .seq Source.PrintRes_14 <| .seq Source.PrintRes_15 <| .seq Source.PrintRes_16 <| .seq Source.PrintRes_17 <| .seq Source.PrintRes_18 <| .seq
    Source.PrintRes_19 <| .seq Source.PrintRes_20 <| .seq Source.PrintRes_21 <| .seq Source.PrintRes_22 <| .seq Source.PrintRes_23 <| .seq Source.PrintRes_24 <| .skip)))) [.str url, .result r] ⟨A, O, []⟩ = _
  rw [endX_skip (vs' := [.str url, .result r, .attrs leftAttrsFilled]) (h := rfl), endX_skip (vs' := [.str url, .result r, .attrs leftAttrsFilled, .attrs leftAttrsBlank]) (h := rfl),
    endX_skip (vs' := printVars url r) (h := rfl)]
  have h4 := exec_label (c := CT) (round := round) f (f + 1) (url := url) (r := r) (.var 0 "url") (b! "              url: ") url rfl
  have h6 := exec_label (c := CT) (round := round) f (f + 1) (url := url) (r := r) (.field (.var 1 "res") .Scheme) (b! "           scheme: ") r.scheme rfl
  have h8 := exec_label (c := CT) (round := round) f (f + 1) (url := url) (r := r) (.field (.var 1 "res") .UserInfo) (b! "         userinfo: ") r.userInfo rfl
  have h10 := exec_label (c := CT) (round := round) f (f + 1) (url := url) (r := r) (.field (.var 1 "res") .SubDomain) (b! "        subdomain: ") r.subDomain rfl
  have h12 := exec_label (c := CT) (round := round) f (f + 1) (url := url) (r := r) (.field (.var 1 "res") .Domain) (b! "           domain: ") r.domain rfl
  have h14 := exec_label (c := CT) (round := round) f (f + 1) (url := url) (r := r) (.field (.var 1 "res") .Suffix) (b! "           suffix: ") r.suffix rfl
  have h16 := exec_label (c := CT) (round := round) f (f + 1) (url := url) (r := r) (.field (.var 1 "res") .RegisteredDomain) (b! "registered domain: ") r.registeredDomain rfl
  have h18 := exec_label (c := CT) (round := round) f (f + 1) (url := url) (r := r) (.field (.var 1 "res") .Port) (b! "             port: ") r.port rfl
  have h20 := exec_label (c := CT) (round := round) f (f + 1) (url := url) (r := r) (.field (.var 1 "res") .Path) (b! "             path: ") r.path rfl
  have h5 := exec_value (c := CT) (round := round) f (f + 1) (url := url) (r := r) (.var 0 "url") url rfl
  have h7 := exec_value (c := CT) (round := round) f (f + 1) (url := url) (r := r) (.field (.var 1 "res") .Scheme) r.scheme rfl
  have h9 := exec_value (c := CT) (round := round) f (f + 1) (url := url) (r := r) (.field (.var 1 "res") .UserInfo) r.userInfo rfl
  have h11 := exec_value (c := CT) (round := round) f (f + 1) (url := url) (r := r) (.field (.var 1 "res") .SubDomain) r.subDomain rfl
  have h13 := exec_value (c := CT) (round := round) f (f + 1) (url := url) (r := r) (.field (.var 1 "res") .Domain) r.domain rfl
  have h15 := exec_value (c := CT) (round := round) f (f + 1) (url := url) (r := r) (.field (.var 1 "res") .Suffix) r.suffix rfl
  have h17 := exec_value (c := CT) (round := round) f (f + 1) (url := url) (r := r) (.field (.var 1 "res") .RegisteredDomain) r.registeredDomain rfl
  have h19 := exec_value (c := CT) (round := round) f (f + 1) (url := url) (r := r) (.field (.var 1 "res") .Port) r.port rfl
  have h21 := exec_value (c := CT) (round := round) f (f + 1) (url := url) (r := r) (.field (.var 1 "res") .Path) r.path rfl
  have e : ∀ (a b : Stmt) (D), endX CT (callSys round CT (f + 1)) (f + 1) Source.PrintRes_func D (.seq a b) (printVars url r) =
      (execX CT (callSys round CT (f + 1)) (f + 1) a (printVars url r)).bind fun o => (Out.andThenX (fun vs => execX CT (callSys round CT (f + 1)) (f + 1) b vs) o).bind fun o =>
      (EffX.lift (Source.PrintRes_func.finishM o)).bind fun v => EffX.deferred.bind fun l =>
      (runDeferred (callSys round CT (f + 1)) l).bind fun _ => (EffX.setDeferred D).bind fun _ => EffX.ok v := fun a b D => endX_seq _ D a b _
  have step : ∀ (a b : Stmt) (x : Chunk) (S : Local), execX CT (callSys round CT (f + 1)) (f + 1) a (printVars url r) = printed1 x (printVars url r) →
      endX CT (callSys round CT (f + 1)) (f + 1) Source.PrintRes_func D (.seq a b) (printVars url r) S =
      .effect (.print x) (endX CT (callSys round CT (f + 1)) (f + 1) Source.PrintRes_func D b (printVars url r) S) := by
    intro a b x S h
    rw [e, h, printed1_bind, effx_effect_app]
    rfl
  rw [step Source.PrintRes_4 _ _ _ h4, step Source.PrintRes_5 _ _ _ h5, step Source.PrintRes_6 _ _ _ h6, step Source.PrintRes_7 _ _ _ h7, step Source.PrintRes_8 _ _ _ h8, step Source.PrintRes_9 _ _ _ h9, step Source.PrintRes_10 _ _ _ h10, step Source.PrintRes_11 _ _ _ h11, step Source.PrintRes_12 _ _ _ h12,
    step Source.PrintRes_13 _ _ _ h13, step Source.PrintRes_14 _ _ _ h14, step Source.PrintRes_15 _ _ _ h15, step Source.PrintRes_16 _ _ _ h16, step Source.PrintRes_17 _ _ _ h17, step Source.PrintRes_18 _ _ _ h18, step Source.PrintRes_19 _ _ _ h19, step Source.PrintRes_20 _ _ _ h20, step Source.PrintRes_21 _ _ _ h21,
    step _ _ _ _ (exec_PrintRes_22 f url r (f + 1)), step _ _ _ _ (exec_PrintRes_23 f url r (f + 1)), step _ _ _ _ (exec_PrintRes_24 f url r (f + 1))]
  rfl
end

end Fasttld.GoLang
