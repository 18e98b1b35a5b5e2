import Verif.Proofs.SourceSysPrint
import Verif.Proofs.SourceSysExtract
import Verif.Proofs.SourceSysNew

/-!
# Running the text of the command `fasttld extract`
-/

set_option linter.unusedSimpArgs false

namespace Fasttld.GoLang
open Fasttld

variable {w : Nat} {idna : Idna} {texts : Lib} {isPrint : Nat → Bool} {B : Int} {round : Rat → Rat} (f : Nat)

local notation "CT" => tableCtx w idna texts isPrint

/-- The command ends, if New returns no error and Extract does not panic. -/
def CommandEnds {α β : Type} (S : Local) (v : Comp (Val × Local)) (r : α × Option β) : Prop :=
  r.2.isSome → ∃ A O, v = .ok (.tuple [], ⟨A, O, S.deferred⟩)

section
variable {c : Ctx} (cx : Fn → List Val → EffX Val) (n : Nat) (p i t : Bool) (arg : Bytes) (rest : List Bytes) (o : Nat)

local notation "X" => execX (withFlags c p i t) cx n

theorem exec_Run_1 : X Source.Run_1 [.command, .strs (arg :: rest)] = (cx .New [.listParams ⟨[], p⟩]).bind fun v =>
    EffX.lift ((defineAll ["extractor", "err"] (spread [v]) [.command, .strs (arg :: rest)]).bind fun vs => .ok (.norm vs)) := by
  simp [Source.Run_1, withFlags]

theorem exec_Run_2 : X Source.Run_2 [.command, .strs (arg :: rest), .obj o, .err none] = EffX.ok (.norm [.command, .strs (arg :: rest), .obj o, .err none]) := rfl

theorem exec_Run_3 : X Source.Run_3 [.command, .strs (arg :: rest), .obj o, .err none] = (cx .Extract [.obj o, .params ⟨arg, i, t⟩]).bind fun v =>
    EffX.lift ((redefineAll ["res", "err"] [none, some 3] (spread [v]) [.command, .strs (arg :: rest), .obj o, .err none]).bind fun vs => .ok (.norm vs)) := by
  have h : EffX.up (indexM (.strs (arg :: rest)) (.num .const 0)) = EffX.ok (.str arg) := rfl
  simp [Source.Run_3, withFlags, h]

theorem exec_Run_4 (er : Option Bytes) (r : ExtractResult) : execX (withFlags c p i t) (callSys round c (f + 1)) n Source.Run_4 [.command, .strs (arg :: rest), .obj o, .err er, .result r] =
    match er with
    | none => EffX.ok (.norm [.command, .strs (arg :: rest), .obj o, .err er, .result r])
    | some s => (EffX.effect (.print ⟨[.fgHiRed, .bold], b! "Error: "⟩)).bind fun _ => (EffX.effect (.print ⟨[.fgHiWhite], s ++ [10]⟩)).bind fun _ =>
        EffX.ok (.norm [.command, .strs (arg :: rest), .obj o, .err er, .result r]) := by
  cases er <;> rfl

theorem exec_Run_5 (er : Option Bytes) (r : ExtractResult) : X Source.Run_5 [.command, .strs (arg :: rest), .obj o, .err er, .result r] =
    (cx .PrintRes [.str arg, .result r]).bind fun _ => EffX.ok (.norm [.command, .strs (arg :: rest), .obj o, .err er, .result r]) := by
  have h : EffX.up (indexM (.strs (arg :: rest)) (.num .const 0)) = EffX.ok (.str arg) := rfl
  simp [Source.Run_5, withFlags, h]

end

theorem lbindM_assoc {α β γ : Type} (x : LProg α) (g : α → LProg β) (h : β → LProg γ) : (x >>= g) >>= h = x >>= fun a => g a >>= h := lbind_assoc x g h

/-- After `extractor, err := …`. -/
theorem next_define (c : Ctx) (cx n F D s ns) (x y : Val) (vs vs' S) (h : defineAll ns [x, y] vs = .ok vs') :
    EffX.next (fun a => (EffX.lift ((defineAll ns (spread [a]) vs).bind fun vs => .ok (.norm vs))).bind fun o =>
      (Out.andThenX (fun vs => execX c cx n s vs) o).bind fun o => (EffX.lift (Func.finishM F o)).bind fun v => EffX.deferred.bind fun l =>
        (runDeferred cx l).bind fun _ => (EffX.setDeferred D).bind fun _ => EffX.ok v) (.ok (.tuple [x, y], S)) = endX c cx n F D s vs' S := by
  show (EffX.bind (EffX.lift ((defineAll ns [x, y] vs).bind fun vs => .ok (Out.norm vs))) _) S = _
  rw [h]
  rfl

/-- After `res, err := …`. -/
theorem next_redefine (c : Ctx) (cx n F D s ns os) (x y : Val) (vs vs' S) (h : redefineAll ns os [x, y] vs = .ok vs') :
    EffX.next (fun a => (EffX.lift ((redefineAll ns os (spread [a]) vs).bind fun vs => .ok (.norm vs))).bind fun o =>
      (Out.andThenX (fun vs => execX c cx n s vs) o).bind fun o => (EffX.lift (Func.finishM F o)).bind fun v => EffX.deferred.bind fun l =>
        (runDeferred cx l).bind fun _ => (EffX.setDeferred D).bind fun _ => EffX.ok v) (.ok (.tuple [x, y], S)) = endX c cx n F D s vs' S := by
  show (EffX.bind (EffX.lift ((redefineAll ns os [x, y] vs).bind fun vs => .ok (Out.norm vs))) _) S = _
  rw [h]
  rfl

/-- After New has returned an error: `log.Fatal`, to which no meaning is given. -/
theorem exec_Run_fatal (c c' : Ctx) (n) (D s vs o er S) (h : vs.length = 2) : endX c (callSys round c' (f + 1)) n Source.Run_func D (.seq Source.Run_2 s) (vs ++ [.obj o, .err (some er)]) S =
    .ret (.error .stuck) := by
  match vs, h with
  | [a, b], _ => rfl

theorem cliAfterNew_eq (tx : IdnaTexts) (errText : Err → Bytes) (x : FastTLD) (e : URLParams) :
    cliAfterNew idna tx errText x e = (logAll (extractLog idna tx e) >>= fun _ => .ret (extract idna x.tldTrie e)) >>= fun
      | .ok (res, err) => printAll (cliPrint errText e.url res err) >>= fun _ => .ret (some (res, err))
      | .error _ => .ret none := by
  rw [lbindM_assoc]
  rfl

section
variable (p i t : Bool) (arg : Bytes) (rest : List Bytes)

local notation "CC" => withFlags CT p i t

/-- cmd/fasttld/extract.go:25-36 -/
theorem impl_command {ok : LEvent → Prop} (hB : Big w B) (hw : 2 ^ 31 ≤ B) (hr : Spec.IsRounding round) {M : Nat} (hurl : arg.length ≤ M) (hMB : M + 4 < B) (hf : M + 10 ≤ f)
    (hM : ∀ v : Bytes, v.length ≤ arg.length → (formatAsPunycode idna v).length ≤ M)
    (hh : ∀ incl, Short B f (rulesOf idna incl texts.hardcodedPSL)) (hl : ∀ p text t, ok (.sys (.readFile p (some text)) t) → ∀ incl, Short B f (rulesOf idna incl text))
    (m : Mem) (A : Arrays) (O D) :
    Impl ok (fun _ => CommandEnds ⟨A, O, D⟩) m (runCommand round CT (f + 6) p i t (arg :: rest) ⟨A, O, D⟩)
      (cliL idna texts.toIdnaTexts texts.hardcodedPSL (Err.text isPrint) p ⟨arg, i, t⟩) := by
  rw [runCommand, runX_eq _ _ rfl]
  change Impl _ _ _ (endX CC (callSys round CT (f + 6)) (f + 6) Source.Run_func D (.seq Source.Run_1 <| .seq Source.Run_2 <| .seq Source.Run_3 <| .seq Source.Run_4 <|
    .seq Source.Run_5 <| .skip) [.command, .strs (arg :: rest)] ⟨A, O, []⟩) _
  rw [endX_seq, exec_Run_1, effx_bind_assoc, EffX.bind]
  refine Impl.bind (impl_New f hB (by omega) hr ⟨[], p⟩ m A O [] hh hl) fun m1 v x hv => ?_
  obtain ⟨o, A', O', ob, rfl, ho, ⟨-, -, rules, hrules, hx⟩, -⟩ := hv
  obtain ⟨x, err⟩ := x
  rw [next_define (vs' := [.command, .strs (arg :: rest), .obj o, .err (err.map Prod.snd)]) (h := rfl)]
  cases err with
  | some er =>
    have e := exec_Run_fatal (round := round) (f + 5) CC CT (f + 6) D (.seq Source.Run_3 <| .seq Source.Run_4 <| .seq Source.Run_5 <| .skip)
      [.command, .strs (arg :: rest)] o er.2 ⟨A', O', []⟩ rfl
    rw [List.cons_append, List.cons_append, List.nil_append] at e
    rw [Option.map_some, e]
    exact .ret (R := fun _ => CommandEnds ⟨A, O, D⟩) fun h => by cases h
  | none =>
    rw [Option.map_none, endX_skip (h := exec_Run_2 _ _ p i t arg rest o), endX_seq, exec_Run_3, effx_bind_assoc, EffX.bind]
    show Impl _ _ m1 _ (cliAfterNew idna texts.toIdnaTexts (Err.text isPrint) x ⟨arg, i, t⟩ >>= fun r => .ret (x, r))
    rw [cliAfterNew_eq, lbindM_assoc]
    refine Impl.bind (impl_Extract (isPrint := isPrint) (f + 3) ⟨arg, i, t⟩ hB hw hurl hMB (by omega) hM m1 A' O' [] o ob x.tldTrie ho (by rw [hx]; exact Rep.of_holds hrules)) fun m2 v r hv => ?_
    obtain ⟨rfl, hv⟩ := hv
    cases r with
    | error e => exact (hv ▸ .ret (R := fun _ => CommandEnds ⟨A, O, D⟩) fun h => by cases h)
    | ok r =>
      obtain ⟨r, er⟩ := r
      cases hv
      rw [next_redefine (vs' := [.command, .strs (arg :: rest), .obj o, .err (er.map (Err.text isPrint)), .result r]) (h := rfl)]
      show Impl _ _ m2 _ ((printAll (cliPrint (Err.text isPrint) arg r er) >>= fun _ => .ret (some (r, er))) >>= fun r => .ret (x, r))
      have e : endX CC (callSys round CT (f + 6)) (f + 6) Source.Run_func D (.seq Source.Run_4 <| .seq Source.Run_5 <| .skip)
          [.command, .strs (arg :: rest), .obj o, .err (er.map (Err.text isPrint)), .result r] ⟨A', O', []⟩ =
          (toX (printAll (cliPrint (Err.text isPrint) arg r er))).bind fun _ => .ret (.ok (.tuple [], ⟨A', O', D⟩)) := by
        have h5 : ∀ er, endX CC (callSys round CT (f + 6)) (f + 6) Source.Run_func D (.seq Source.Run_5 <| .skip)
            [.command, .strs (arg :: rest), .obj o, .err er, .result r] ⟨A', O', []⟩ =
            (toX (printAll (printRes arg r))).bind fun _ => .ret (.ok (.tuple [], ⟨A', O', D⟩)) := by
          intro er
          rw [endX_seq, exec_Run_5, effx_bind_assoc, effx_bind_prog (v := fun _ => Val.tuple []) (S' := ⟨A', O', []⟩) (callSys_PrintRes (f + 4) arg r A' O' [])]
          rfl
        cases er with
        | none =>
          rw [Option.map_none, endX_skip (h := exec_Run_4 (f + 5) _ p i t arg rest o none r), h5]
          rfl
        | some er =>
          rw [Option.map_some, endX_seq, exec_Run_4 (f + 5)]
          simp only [effx_bind_assoc, effx_effect_app]
          have := h5 (some (Err.text isPrint er))
          show XProg.effect _ (XProg.effect _ (endX CC (callSys round CT (f + 6)) (f + 6) Source.Run_func D (.seq Source.Run_5 <| .skip)
            [.command, .strs (arg :: rest), .obj o, .err (some (Err.text isPrint er)), .result r] ⟨A', O', []⟩)) = _
          rw [this]
          rfl
      rw [e, lbindM_assoc]
      exact Impl.ofL _ fun _ => .ret (R := fun _ => CommandEnds ⟨A, O, D⟩) fun _ => ⟨A', O', rfl⟩
end

end Fasttld.GoLang
