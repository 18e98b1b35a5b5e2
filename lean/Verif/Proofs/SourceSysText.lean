import Verif.Proofs.SourceSysBase
import Verif.Proofs.Float

/-!
# Running the text of psl.go with the operating system: the functions that do not build a trie
-/

set_option linter.unusedSimpArgs false

namespace Fasttld.GoLang
open Fasttld

variable {round : Rat → Rat} {c : Ctx} (f : Nat)

/-- What a function returns, after it has done what `p` does. -/
def endsWith {α : Type} (p : LProg α) (v : α → Val) (S : Local) : XProg (Comp (Val × Local)) :=
  (toX p).bind fun r => .ret (.ok (v r, S))

theorem downloadFileL_eq (url : Bytes) : downloadFileL url = .call (.httpGet url) fun b t => match b with
    | .failed => .ret (.error t)
    | .status code body complete => .effect .closeBody
        (if code = 200 then .ret (if complete then .ok body else .error t)
         else .ret (.error (b! "Download failed, HTTP status code : " ++ decimalText code))) := by
  show LProg.call _ _ = _
  congr 1; funext b t
  cases b with
  | failed => rfl
  | status code body complete => rfl

/-- The values that downloadFile returns. -/
def downloaded : Except Bytes Bytes → Bytes → Val
  | .error t, b => .tuple [.bytes b, .err (some t)]
  | .ok b, _ => .tuple [.bytes b, .err none]

/-- psl.go:110-125 and what comes after it; the bytes do not matter if there is an error. -/
theorem run_downloadFile (url : Bytes) (A O D) {α : Type} {k : Val → EffX α} {K : Except Bytes Bytes → XProg (Comp (α × Local))}
    (hk : ∀ r b, k (downloaded r b) ⟨A, O, D⟩ = K r) :
    (callSys round c (f + 2) .downloadFile [.str url]).bind k ⟨A, O, D⟩ = (toX (downloadFileL url)).bind K := by
  have h0 : (callSys round c (f + 2) .downloadFile [.str url]).bind k ⟨A, O, D⟩ =
      (endX c (callSys round c (f + 1)) (f + 1) Source.downloadFile_func D Source.downloadFile_func.body [.str url]).bind k ⟨A, O, []⟩ := by
    simp only [EffX.bind]
    rw [callSys_text (F := Source.downloadFile_func) (f := f + 1) rfl rfl _ rfl]
    rfl
  rw [h0, downloadFileL_eq]
  simp -implicitDefEqProofs [endX, Source.downloadFile_func, Source.downloadFile_1, Source.downloadFile_2, effx_sys_app, toX, XProg.bind]
  funext b t
  cases b with
  | failed =>
    have := hk (.error t) []
    simpa [httpVal, Source.downloadFile_3, Func.finishM, Func.finish, Func.result, effx_deferred_app, effx_setDeferred_app, toX, XProg.bind, downloaded] using this
  | status code body complete =>
    by_cases hc : code = 200
    · subst hc
      cases complete with
      | true =>
        have := hk (.ok body) []
        simpa [httpVal, Source.downloadFile_3, Source.downloadFile_4, Source.downloadFile_5, Source.downloadFile_6, Func.finishM, Func.finish,
          Func.result, effx_deferred_app, effx_setDeferred_app, effx_effect_app, toX, XProg.bind, downloaded] using this
      | false =>
        have := hk (.error t) body
        simpa [httpVal, Source.downloadFile_3, Source.downloadFile_4, Source.downloadFile_5, Source.downloadFile_6, Func.finishM, Func.finish,
          Func.result, effx_deferred_app, effx_setDeferred_app, effx_effect_app, toX, XProg.bind, downloaded] using this
    · have hc' : ¬ ((code : Int) = 200) := by omega
      have := hk (.error (b! "Download failed, HTTP status code : " ++ decimalText code)) []
      simpa [httpVal, Source.downloadFile_3, Source.downloadFile_4, Source.downloadFile_5, Source.downloadFile_6, Func.finishM, Func.finish,
          Func.result, effx_deferred_app, effx_setDeferred_app, effx_effect_app, toX, XProg.bind, downloaded, hc, hc'] using this

/-! ## update -/

theorem updateL_cons (h : Nat) (s : Bytes) (l : List Bytes) : updateL h (s :: l) = (downloadFileL s >>= fun r => match r with
    | .error t => .effect (.log t) (updateL h l)
    | .ok body => if !validPSLDelimiters body then updateL h l else .call (.seek h) fun b t =>
        if !b then .effect (.log t) (updateL h l) else .call (.write h body) fun b t =>
          if !b then .effect (.log t) (updateL h l) else .effect (.log (b! "Public Suffix List updated.")) (.ret true)) := by
  show LProg.bind _ _ = LProg.bind _ _
  refine congrArg _ (funext fun r => ?_)
  cases r with
  | error t => rfl
  | ok body =>
    show (if _ then _ else _) = (if _ then _ else _)
    split
    · rfl
    · show LProg.call _ _ = _
      refine congrArg (LProg.call _) (funext fun b => funext fun t => ?_)
      cases b with
      | false => rfl
      | true =>
        show LProg.call _ _ = _
        refine congrArg (LProg.call _) (funext fun b => funext fun t => ?_)
        cases b <;> rfl

/-- The text of the error of update. -/
def noMirror : Bytes := b! "failed to fetch any Public Suffix List from all mirrors"

/-- The loop of psl.go:145-164 and what comes after it. -/
theorem loop_update (h : Nat) (L : List Bytes) {α : Type} (A O D) {k : Out → EffX α} {K : Bool → XProg (Comp (α × Local))}
    (ht : k (.ret [.err none]) ⟨A, O, D⟩ = K true) (hf : k (.norm [.file h, .strs L]) ⟨A, O, D⟩ = K false) :
    ∀ (l : List Bytes) (i : Nat),
    ((rangeOutX c (callSys round c (f + 2)) (f + 2) Source.update_loop1 "_" "publicSuffixListSource"
      ((enumStrs i l).map fun p => .pair (.num .int p.1) (.str p.2)) [.file h, .strs L]).bind k) ⟨A, O, D⟩ = (toX (updateL h l)).bind K := by
  intro l
  induction l with
  | nil => intro i; simpa [updateL, toX, XProg.bind, enumStrs] using hf
  | cons s l ih =>
    intro i
    have h2 := ih (i + 1)
    simp only [enumStrs, List.map_cons, rangeOutX_cons]
    generalize rangeOutX _ _ _ _ _ _ (List.map _ _) = M at h2 ⊢
    rw [updateL_cons, toX_bind, xbind_assoc]
    simp -implicitDefEqProofs [Item.get, Source.update_loop1]
    refine run_downloadFile f s A O D fun r b => ?_
    cases r with
    | error t => simpa [downloaded, effx_effect_app, toX, XProg.bind] using h2
    | ok body =>
      cases hv : validPSLDelimiters body with
      | false => simpa [downloaded, hv] using h2
      | true =>
        simp -implicitDefEqProofs [downloaded, hv, effx_sys_app, toX, XProg.bind]
        funext b t
        cases b with
        | false => simpa [effx_effect_app, toX, XProg.bind] using h2
        | true =>
          simp [effx_sys_app, toX, XProg.bind]
          funext b t
          cases b with
          | false => simpa [effx_effect_app, toX, XProg.bind] using h2
          | true => simpa [effx_effect_app, toX, XProg.bind] using ht

/-- psl.go:143-166 -/
theorem run_update (h : Nat) (l : List Bytes) (S : Local) : callSys round c (f + 3) .update [.file h, .strs l] S =
    endsWith (updateL h l) (fun r => .err (if r then none else some noMirror)) S := by
  obtain ⟨A, O, D⟩ := S
  rw [callSys_text (F := Source.update_func) (f := f + 2) rfl rfl _ rfl]
  simp -implicitDefEqProofs [endX, Func.start, Func.args, Source.update_func, Source.update_1]
  refine loop_update f h l A O [] ?_ ?_ l 0
  · simp [Func.finishM, Func.finish, Func.result, effx_deferred_app, effx_setDeferred_app, effx_ok_app]
  · simp [Source.update_2, Func.finishM, Func.finish, Func.result, effx_deferred_app, effx_setDeferred_app, effx_ok_app, noMirror]

/-! ## checkCacheFile -/

theorem timeSub_eq (a b : Int) : timeSub a b = Spec.saturate (a - b) := by
  have h1 : (-2 ^ 63 : Int) = -9223372036854775808 := by decide
  have h2 : (2 ^ 63 : Int) = 9223372036854775808 := by decide
  unfold timeSub Spec.saturate
  rw [h1, h2]
  split
  · rfl
  · split <;> split <;> omega

theorem durationHours_eq (d : Int) : durationHours round d = Spec.hours round d := rfl

theorem hours_zero (hr : Spec.IsRounding round) : Spec.hours round 0 = 0 := by
  have h0 : round 0 = 0 := round_float hr (isFloat64_int (m := 0) (by decide))
  have h1 : (0 : Rat) / 3600000000000 = 0 := by rw [Rat.div_def, Rat.zero_mul]
  simp [Spec.hours, h0, h1, Rat.add_zero]

/-- psl.go:138-140 -/
theorem run_fileLastModifiedHours (i : FileInfo) (S : Local) {α : Type} (k : Val → EffX α) :
    (callSys round c (f + 2) .fileLastModifiedHours [.fileInfo i]).bind k S =
    .sys .now fun b _ => k (.float (durationHours round (timeSub b i.modTime))) S := by
  obtain ⟨A, O, D⟩ := S
  have e : callSys round c (f + 2) .fileLastModifiedHours [.fileInfo i] ⟨A, O, D⟩ =
      .sys .now fun b _ => .ret (.ok (.float (durationHours round (timeSub b i.modTime)), ⟨A, O, D⟩)) := by
    rw [callSys_text (F := Source.fileLastModifiedHours_func) (f := f + 1) rfl rfl _ rfl]
    simp -implicitDefEqProofs [endX, Func.start, Func.args, Source.fileLastModifiedHours_func, Source.fileLastModifiedHours_1, effx_sys_app, Func.finishM, Func.finish, Func.result,
      effx_deferred_app, effx_setDeferred_app, effx_ok_app]
  simp only [EffX.bind, e, XProg.bind]
  rfl

theorem checkCacheFileL_eq (p : Bytes) : checkCacheFileL p = .call (.abs (trimSpace p)) fun r _ => .call (.stat r.1) fun st _ => match st with
    | some i => .call .now fun n _ => .call (.readFile r.1) fun x _ =>
        .ret (r.2 && !i.isDir && x.any validPSLDelimiters, n - i.modTime)
    | none => .call (.readFile r.1) fun _ _ => .ret (false, 0) := by
  show LProg.call _ _ = _
  congr 1; funext r t
  show LProg.call _ _ = _
  congr 1; funext st t
  cases st with
  | some i => rfl
  | none =>
    show LProg.call _ _ = _
    congr 1; funext x t
    simp
    rfl

/-- psl.go:175-188 -/
theorem run_checkCacheFile (hr : Spec.IsRounding round) (p : Bytes) (S : Local) : callSys round c (f + 3) .checkCacheFile [.str p] S =
    endsWith (checkCacheFileL p) (fun r => .tuple [.bool r.1, .float (Spec.hours round (Spec.saturate r.2))]) S := by
  obtain ⟨A, O, D⟩ := S
  rw [callSys_text (F := Source.checkCacheFile_func) (f := f + 2) rfl rfl _ rfl, checkCacheFileL_eq]
  have hs : Spec.hours round (Spec.saturate 0) = 0 := hours_zero hr
  have hd : ∀ a b, durationHours round (timeSub a b) = Spec.hours round (Spec.saturate (a - b)) := fun a b => by
    rw [timeSub_eq, durationHours_eq]
  generalize hH : (fun d => Spec.hours round (Spec.saturate d)) = H
  have hs' : H 0 = 0 := by rw [← hH]; exact hs
  have hd' : ∀ a b, durationHours round (timeSub a b) = H (a - b) := fun a b => by rw [← hH]; exact hd a b
  have hv : (fun r : Bool × Int => Val.tuple [.bool r.1, .float (Spec.hours round (Spec.saturate r.2))]) = fun r => .tuple [.bool r.1, .float (H r.2)] := by
    rw [← hH]
  rw [hv]
  clear hs hd hH hv
  simp -implicitDefEqProofs [endX, Func.start, Func.args, Source.checkCacheFile_func, Source.checkCacheFile_1, effx_sys_app, endsWith, toX, XProg.bind]
  funext r _
  obtain ⟨p', ok⟩ := r
  simp -implicitDefEqProofs [Source.checkCacheFile_2, effx_sys_app]
  funext st t
  cases st with
  | none =>
    simp -implicitDefEqProofs [statVal, Source.checkCacheFile_3, Source.checkCacheFile_4, Source.checkCacheFile_5, Source.checkCacheFile_6, effx_sys_app, toX, XProg.bind]
    funext x t
    cases x <;> cases ok <;>
    simp -implicitDefEqProofs [readVal, Source.checkCacheFile_7, Func.finishM, Func.finish, Func.result, effx_deferred_app, effx_setDeferred_app, effx_ok_app, hs']
  | some i =>
    simp -implicitDefEqProofs [statVal, Source.checkCacheFile_3, Source.checkCacheFile_4, run_fileLastModifiedHours, toX, XProg.bind]
    funext n _
    simp -implicitDefEqProofs [Source.checkCacheFile_5, Source.checkCacheFile_6, effx_sys_app, toX, XProg.bind]
    funext x t
    cases x <;> cases ok <;> cases hD : i.isDir <;>
    simp -implicitDefEqProofs [readVal, Source.checkCacheFile_7, Func.finishM, Func.finish, Func.result, effx_deferred_app, effx_setDeferred_app, effx_ok_app,
      hd', hD]

end Fasttld.GoLang
