import Verif.Proofs.SourcePlain
import Verif.Proofs.SourceRun

/-!
# Running the text of Extract when the trie is in memory
-/

set_option linter.unusedSimpArgs false

namespace Fasttld.GoLang
open Fasttld

variable {w : Nat} {idna : Idna} {texts : Lib} {isPrint : Nat → Bool} {B : Int}

theorem andThenM_assoc (x : Eff Out) (k l : Vars → Eff Out) :
    (x.bind (Out.andThenM k)).bind (Out.andThenM l) = x.bind (Out.andThenM fun vs => (k vs).bind (Out.andThenM l)) := by
  rw [eff_bind_assoc]
  congr 1; funext o
  cases o <;> rfl

theorem execM_append (c : Ctx) (cm n) (p r : Stmt) (vs) : execM c cm n (p.append r) vs = (execM c cm n p vs).bind (Out.andThenM fun vs => execM c cm n r vs) := by
  induction p generalizing vs with
  | seq a b _ ih =>
    simp only [Stmt.append, execM_seq, andThenM_assoc]
    congr 2; funext vs; exact ih vs
  | skip => rfl
  | _ => rfl

theorem execM_declareGroup (c : Ctx) (cm n) (l vs) : execM c cm n (.declareGroup l) vs = Eff.ok (.norm (vs ++ l.map fun p => p.2.zero)) := rfl

theorem loopHead_append (T : Stmt) : loopHead T = (loopHead .skip).append T := rfl

theorem loopHead_plain : (loopHead .skip).plain = true := by decide +kernel
theorem beforeStmts_plain : beforeStmts.plain = true := by decide +kernel
theorem afterStmts_plain : afterStmts.plain = true := by decide +kernel

theorem Agrees.eq {α : Type} {x : Comp α} {y : Eff α} (h : Agrees x y) {z : Comp α} (hx : x = z) (hz : z ≠ .error .stuck) : y = Eff.lift z := by
  subst hx; exact h hz

/-- What the first part of the loop over the labels ends with. -/
def headOut (isPrint : Nat → Bool) (env : Bool → Bool → Walk → Bytes → Vars) (hl : Bool) : M Head → Comp Out
  | .error (.fault f) => .error (.fault f)
  | .error (.ret u er) => .ok (.ret (retVals isPrint u er))
  | .ok (.skip W) => .ok (.cont (env hl false W []))
  | .ok (.label l isLast W) => .ok (.norm (env (if isLast then hl else true) isLast W l))

section
variable (f n : Nat) (e : URLParams) (u : ExtractResult) (s : Bytes) (o c h a x y rv : Val)

local notation "CT" => tableCtx w idna texts isPrint
local notation "EX" => exec CT (call CT Source.program (f + 1)) n
local notation "EM" => execM CT (callMem CT (f + 1)) n
local notation "ENV" => walkEnv rv e u s o c h a x y
local notation "LM" => loopOutM CT (callMem CT (f + 1)) n (Expr.not (Expr.var 13 "end")) Stmt.skip Source.Extract_loop2

theorem exec_headOut (hB : Big w B) (hw : 2 ^ 31 ≤ B) (hs : s.length + 4 < B) (hf : s.length + 1 ≤ f) (node : Val) (hl : Bool) (W : Walk) :
    EX (loopHead .skip) (ENV node hl false W []) = headOut isPrint (fun hl en W l => ENV node hl en W [.str l]) hl (walkHead s u hl W) := by
  rw [exec_loopHead f n rv e u s o c h a x y .skip hB hw hs hf]
  unfold walkHead
  have hok : ∀ {α β : Type} (a : α) (k : α → M β), (liftGo (.ok a) >>= k) = k a := fun _ _ => rfl
  have herr : ∀ {α β : Type} (er : Fault) (k : α → M β), (liftGo (.error er) >>= k) = .error (.fault er) := fun _ _ => rfl
  cases hpre : slice s 0 W.sepIdx with
  | error er => rfl
  | ok pre =>
  simp only [ofGo_ok, bind_ok, hok]
  cases lastIndexAny pre labelSeparatorsRuneSet with
  | error er => rfl
  | ok z =>
  simp only [ofGo_ok, bind_ok, hok]
  by_cases hz : z = -1
  · rw [if_neg (by simpa using hz), if_neg (by simpa using hz), hpre]; rfl
  · rw [if_pos hz, if_pos hz]
    cases index s z with
    | error er => rfl
    | ok b =>
    simp only [ofGo_ok, bind_ok, hok]
    cases slice s (z + sepSize b) W.sepIdx with
    | error er => rfl
    | ok l =>
    simp only [ofGo_ok, bind_ok, hok]
    by_cases hl0 : l.length = 0
    · rw [if_pos hl0, if_pos hl0]
      obtain rfl : l = [] := List.length_eq_zero_iff.1 hl0
      cases hl <;> rfl
    · rw [if_neg hl0, if_neg hl0]; rfl

theorem execM_head (hB : Big w B) (hw : 2 ^ 31 ≤ B) (hs : s.length + 4 < B) (hf : s.length + 1 ≤ f) (node : Val) (hl : Bool) (W : Walk) :
    EM (loopHead .skip) (ENV node hl false W []) =
      Eff.lift (headOut isPrint (fun hl en W l => ENV node hl en W [.str l]) hl (walkHead s u hl W)) := by
  refine (Agrees.exec (fun fn xs hp => Agrees.call _ f fn xs hp) _ _ loopHead_plain).eq (exec_headOut f n e u s o c h a x y rv hB hw hs hf node hl W) ?_
  unfold headOut
  split <;> simp

/-- In each round the position goes down. -/
theorem walkHead_less {s : Bytes} {u : ExtractResult} {hl : Bool} {W W' : Walk}
    (h : walkHead s u hl W = .ok (.skip W') ∨ ∃ l, walkHead s u hl W = .ok (.label l false W')) : 0 ≤ W'.sepIdx ∧ W'.sepIdx < W.sepIdx := by
  unfold walkHead at h
  cases hpre : slice s 0 W.sepIdx with
  | error er => simp [hpre, liftGo, bind, Except.bind] at h
  | ok pre =>
  cases hz : lastIndexAny pre labelSeparatorsRuneSet with
  | error er => simp [hpre, hz, liftGo, bind, Except.bind] at h
  | ok z =>
  by_cases hz1 : z = -1
  · subst hz1
    simp [hpre, hz, liftGo, bind, Except.bind] at h
  · cases hi : index s z with
    | error er => simp [hpre, hz, hz1, hi, liftGo, bind, Except.bind] at h
    | ok b =>
    cases hsl : slice s (z + sepSize b) W.sepIdx with
    | error er => simp [hpre, hz, hz1, hi, hsl, liftGo, bind, Except.bind] at h
    | ok l =>
      have hb := index_bounds hi
      have hss : sepSize b = 1 ∨ sepSize b = 3 := by unfold sepSize; split <;> simp
      have hle : z + sepSize b ≤ W.sepIdx := by
        unfold slice at hsl
        split at hsl
        · next hc => exact hc.2.1
        · cases hsl
      have hW : W'.sepIdx = z := by
        by_cases hn : l = []
        · subst hn
          cases hl <;> simp [hpre, hz, hz1, hi, hsl, liftGo, bind, Except.bind, fail] at h
          rw [← h]
        · simp [hpre, hz, hz1, hi, hsl, hn, liftGo, bind, Except.bind] at h
          rw [← h]
      omega

theorem loopM_end (fuel : Nat) (node : Val) (hl : Bool) (W : Walk) : LM (fuel + 1) (ENV node hl true W []) = Eff.ok (.norm (ENV node hl true W [])) := by
  rw [loopOutM_step]; simp

theorem loopM_go (fuel : Nat) (node : Val) (hl : Bool) (W : Walk) :
    LM (fuel + 1) (ENV node hl false W []) = (EM Source.Extract_loop2 (ENV node hl false W [])).bind fun o => (o.leave 18).iterateM fun vs => LM fuel vs := by
  rw [loopOutM_step]; simp

variable {α β : Type} {R : Comp (α × Arrays) → β → Prop} (A : Arrays) (G : Out → Eff α) (k : M Walk → MProg β)
  (hK : ∀ node hl en W, Sim R (G (.norm (walkEnv rv e u s o c h a x y (.ptr node) hl en W [])) A) (k (.ok W)))
include hK

set_option maxHeartbeats 4000000 in
/-- fasttld.go:309-337 -/
theorem tailM_out (node : Ref) (hl en : Bool) (W : Walk) (l : Bytes) (L : Vars → Eff Out) (cont : Ref → Walk → MProg (M Walk))
    (hL : ∀ (val : Ref) (W' : Walk), W'.sepIdx = W.sepIdx → Sim R ((L (ENV (.ptr val) hl en W' [])).bind G A) ((if en then .ret (.ok W') else cont val W').bind k)) :
    Sim R (((EM walkTail (ENV (.ptr node) hl en W [.str l])).bind fun o => ((o.leave 18).iterateM L).bind G) A)
      ((walkLabelH s node l en W cont).bind k) := by
  have hq : callMem CT (f + 1) .QueryUnescape [.str l] =
      Eff.ok (.tuple [.str (unescapeOrEmpty l), .err (match queryUnescape l with
        | .ok _ => none
        | .error esc => some ((Err.badEscape esc).text isPrint))]) := by
    show Eff.lift (builtin CT .QueryUnescape [.str l]) = _
    simp only [builtin, unescapeOrEmpty]
    cases queryUnescape l <;> rfl
  generalize (match queryUnescape l with
        | .ok _ => none
        | .error esc => some ((Err.badEscape esc).text isPrint)) = er at hq
  generalize hG : (fun o : Out => ((o.leave 18).iterateM L).bind G) = G'
  have hbrk : ∀ (node : Ref) (hl en : Bool) (W : Walk) (l : Bytes) (r : Vars), Sim R (G' (.brk (ENV (.ptr node) hl en W (.str l :: r))) A) (k (.ok W)) := by
    intro node hl en W l r
    subst hG
    exact hK node hl en W
  have hnorm : ∀ (val : Ref) (W' : Walk) (l : Bytes) (r : Vars), W'.sepIdx = W.sepIdx → Sim R (G' (.norm (ENV (.ptr val) hl en W' (.str l :: r))) A)
      ((if en then .ret (.ok W') else cont val W').bind k) := by
    intro val W' l r hW
    subst hG
    exact hL val W' hW
  clear hG hL hK
  have hlen : ∀ (val : Ref) (W' : Walk) (l : Bytes) (r : Vars), W'.sepIdx = W.sepIdx → Sim R ((Eff.ask (.len val)).bind (fun m => if m = 0 then G' (.brk (ENV (.ptr val) hl en W' (.str l :: r)))
      else G' (.norm (ENV (.ptr val) hl en W' (.str l :: r)))) A)
      (.call (.len val) fun m => (if m = 0 then .ret (.ok W') else if en then .ret (.ok W') else cont val W').bind k) := by
    intro val W' l r hW
    rw [eff_ask_bind_app]
    refine .call _ fun m => ?_
    split
    · exact hbrk val hl en W' l r
    · exact hnorm val W' l r hW
  simp [walkTail, callMem_Get]
  rw [eff_ask_bind_app]
  refine .call _ fun x => ?_
  cases x with
  | some v =>
    simp [callMem_Get]
    rw [eff_ask_bind_app]
    refine .call _ fun y => ?_
    cases y with
    | some v =>
      simp
      exact hbrk node hl en { W with sepIdx := W.previousSepIdx } l []
    | none =>
      simp
      exact hbrk node hl en W l []
  | none =>
    simp [callMem_Get, hq]
    rw [eff_ask_bind_app]
    refine .call _ fun y => ?_
    cases y with
    | none =>
      by_cases hp : W.previousSepIdx = s.length
      · simp only [hp]
        simp [hp]
        have := hbrk node hl en W (unescapeOrEmpty l) []
        simp only [walkEnv, hp] at this
        exact this
      · simp [hp]
        exact hbrk node hl en { W with sepIdx := W.previousSepIdx } (unescapeOrEmpty l) []
    | some val =>
      obtain ⟨hs, p, q, ss, se⟩ := W
      cases hs
      · simp
        rw [eff_ask_bind_app]
        refine .call _ fun b => ?_
        cases b
        · exact hlen val ⟨false, p, q, q, se⟩ (unescapeOrEmpty l) [] rfl
        · exact hlen val ⟨true, p, q, q, p⟩ (unescapeOrEmpty l) [] rfl
      · simp
        exact hlen val ⟨true, p, q, q, se⟩ (unescapeOrEmpty l) [] rfl

/-- fasttld.go:287-338 -/
theorem loopM_walk (hB : Big w B) (hw : 2 ^ 31 ≤ B) (hs : s.length + 4 < B) (hf : s.length + 1 ≤ f)
    (hR : ∀ u er, Sim R (G (.ret (retVals isPrint u er)) A) (k (.error (.ret u er))))
    (hF : ∀ er, Sim R (.ret (.error (.fault er))) (k (.error (.fault er)))) :
    ∀ (m fuel : Nat) (node : Ref) (hl : Bool) (W : Walk), m + 1 ≤ fuel → 0 ≤ W.sepIdx → W.sepIdx < m →
      Sim R ((LM fuel (ENV (.ptr node) hl false W [])).bind G A) ((walkLoopH s u m node hl W).bind k) := by
  intro m
  induction m with
  | zero => intro fuel node hl W _ h0 h1; omega
  | succ m ih =>
    intro fuel node hl W hm h0 h1
    obtain ⟨fuel, rfl⟩ : ∃ z, fuel = z + 1 := ⟨fuel - 1, by omega⟩
    have hhead := execM_head (idna := idna) (texts := texts) (isPrint := isPrint) f n e u s o c h a x y rv hB hw hs hf (.ptr node) hl W
    rw [loopM_go, loop2_eq, loopHead_append, execM_append, hhead, walkLoopH]
    have hless := fun W' => @walkHead_less s u hl W W'
    generalize walkHead s u hl W = H at hless ⊢
    have key : ∀ (z : Comp Out) (T : Vars → Eff Out) (X : Out → Eff Out), (((Eff.lift z).bind (Out.andThenM T)).bind X).bind G A =
        match z with
        | .ok (.norm vs) => (T vs).bind (fun o => (X o).bind G) A
        | .ok o => (X o).bind G A
        | .error er => .ret (.error er) := by
      intro z T X
      match z with
      | .ok (.norm vs) => simp
      | .ok (.brk vs) => rfl
      | .ok (.cont vs) => rfl
      | .ok (.ret vs) => rfl
      | .error er => rfl
    rw [key]
    match H, hless with
    | .error (.fault er), _ => exact hF er
    | .error (.ret u er), _ => exact hR u er
    | .ok (.skip W'), hless =>
      obtain ⟨l1, l2⟩ := hless W' (.inl rfl)
      exact ih fuel node hl W' (by omega) l1 (by omega)
    | .ok (.label l true W'), _ =>
      refine tailM_out f n e u s o c h a x y rv A G k hK node hl true W' l _ _ fun val W'' _ => ?_
      obtain ⟨fuel, rfl⟩ : ∃ z, fuel = z + 1 := ⟨fuel - 1, by omega⟩
      show Sim R ((LM (fuel + 1) (ENV (.ptr val) hl true W'' [])).bind G A) _
      rw [loopM_end]
      exact hK val hl true W''
    | .ok (.label l false W'), hless =>
      obtain ⟨l1, l2⟩ := hless W' (.inr ⟨l, rfl⟩)
      refine tailM_out f n e u s o c h a x y rv A G k hK node true false W' l _ _ fun val W'' hW => ?_
      exact ih fuel val true W'' (by omega) (by omega) (by omega)

end

section
variable (f n : Nat) (e : URLParams)

local notation "CT" => tableCtx w idna texts isPrint
local notation "EM" => execM CT (callMem CT (f + 1)) n

/-- fasttld.go:278-285 -/
theorem execM_root (u : ExtractResult) (s : Bytes) (o c h a x y : Val) {β : Type} (k : Vars → Eff β) (K : Out → Eff β) (hK : ∀ vs, K (.norm vs) = k vs) (A : Arrays) :
    (EM (.seq Source.Extract_18 (.seq Source.Extract_19 Source.Extract_20)) [.ext, .params e, .result u, .str s, o, c, h, a, x, y]).bind K A =
      .call .loadRoot fun r => k (walkEnv .ext e u s o c h a x y (.ptr r) false false (⟨false, 0, s.length, s.length, s.length⟩ : Walk) []) A := by
  simp [Source.Extract_18, Source.Extract_19, Source.Extract_20, hK, execM_declareGroup]
  rw [eff_ask_bind_app]

theorem ofM_ne (m : M (ExtractResult × Option Err)) : (ofM isPrint m fun r => .ok (.ret (retVals isPrint r.1 r.2))) ≠ .error .stuck := by
  match m with
  | .ok r => simp [ofM]
  | .error (.ret u er) => simp [ofM]
  | .error (.fault er) => simp [ofM]

/-- The end of Extract. -/
def endExtract (o : Out) : Eff Val := Eff.lift (Source.Extract_func.finishM o)

theorem endExtract_ret (u er A) : Sim (Returned isPrint A) (endExtract (.ret (retVals isPrint u er)) A) (.ret (.ok (u, er))) := .ret rfl

theorem Sim.returned (m : M (ExtractResult × Option Err)) (A : Arrays) :
    Sim (Returned isPrint A) ((Eff.lift (ofM isPrint m fun r => .ok (.ret (retVals isPrint r.1 r.2)))).bind endExtract A) (.ret (returned m)) := by
  match m with
  | .ok r => exact endExtract_ret _ _ _
  | .error (.ret u er) => exact endExtract_ret _ _ _
  | .error (.fault er) => exact .ret rfl

/-- The loop over the labels and what comes after it. -/
theorem execM_walk (hB : Big w B) (hw : 2 ^ 31 ≤ B) (u : ExtractResult) (s : Bytes) (o c h a x y rv : Val) (hs : s.length + 4 < B)
    (hf : s.length + 5 ≤ f) (hn : s.length + 3 ≤ n) (A : Arrays) (node : Ref) :
    Sim (Returned isPrint A) ((EM (.seq Source.Extract_21 afterStmts)
      (walkEnv rv e u s o c h a x y (.ptr node) false false (⟨false, 0, s.length, s.length, s.length⟩ : Walk) [])).bind endExtract A)
      ((walkLoopH s u (s.length + 2) node false ⟨false, 0, s.length, s.length, s.length⟩).bind fun W =>
        .ret (returned (W >>= afterWalk e s u))) := by
  have hafter := fun node hl en W => (Agrees.exec (fun fn xs hp => Agrees.call CT f fn xs hp) afterStmts _ afterStmts_plain).eq
    (exec_after (idna := idna) (texts := texts) (isPrint := isPrint) f n e hB hw rv u s o c h a x y hs hf node hl en W)
    (ofM_ne _)
  simp only [execM_seq, Source.Extract_21, execM_loop, execM_skip, eff_ok_bind, onlyM_norm, eff_bind_assoc]
  refine loopM_walk f n e u s o c h a x y rv A _ _ ?_ hB hw hs (by omega) ?_ ?_ _ n node false _ (by omega) (by simp) (by simp; omega)
  · intro node hl en W
    show Sim _ ((EM afterStmts (walkEnv rv e u s o c h a x y (.ptr node) hl en W [])).bind endExtract A) _
    rw [hafter]
    exact Sim.returned _ A
  · intro u er
    exact endExtract_ret _ _ _
  · intro er
    exact .ret rfl

/-- From fasttld.go:278 on. -/
theorem execM_host (hB : Big w B) (hw : 2 ^ 31 ≤ B) (u : ExtractResult) (s : Bytes) (o c h a x y : Val) (hs : s.length + 4 < B)
    (hf : s.length + 5 ≤ f) (hn : s.length + 3 ≤ n) (A : Arrays) :
    Sim (Returned isPrint A) ((EM (.seq Source.Extract_18 <| .seq Source.Extract_19 <| .seq Source.Extract_20 <| .seq Source.Extract_21 afterStmts)
      [.ext, .params e, .result u, .str s, o, c, h, a, x, y]).bind endExtract A)
      (.call .loadRoot fun node => (walkLoopH s u (s.length + 2) node false ⟨false, 0, s.length, s.length, s.length⟩).bind fun W =>
        .ret (returned (W >>= afterWalk e s u))) := by
  have hsplit : (.seq Source.Extract_18 <| .seq Source.Extract_19 <| .seq Source.Extract_20 <| .seq Source.Extract_21 afterStmts) =
      (Stmt.seq Source.Extract_18 (.seq Source.Extract_19 (.seq Source.Extract_20 .skip))).append (.seq Source.Extract_21 afterStmts) := rfl
  have hskip : ∀ vs, EM (Stmt.seq Source.Extract_18 (.seq Source.Extract_19 (.seq Source.Extract_20 .skip))) vs =
      EM (Stmt.seq Source.Extract_18 (.seq Source.Extract_19 Source.Extract_20)) vs := by
    intro vs
    simp only [execM_seq]
    congr 2; funext vs; congr 2; funext vs
    generalize EM Source.Extract_20 vs = X
    have : (Out.andThenM fun vs => EM Stmt.skip vs) = Eff.ok := by funext o; cases o <;> rfl
    rw [this]
    funext A
    simp only [Eff.bind]
    generalize X A = p
    induction p with
    | ret r => cases r <;> rfl
    | call o k ih => simp only [MProg.bind]; congr 1; funext b; exact ih b
  rw [hsplit, execM_append, eff_bind_assoc, hskip, execM_root (k := fun vs => (EM (.seq Source.Extract_21 afterStmts) vs).bind endExtract) (hK := fun _ => rfl)]
  exact .call _ fun node => execM_walk f n e hB hw u s o c h a x y .ext hs hf hn A node

/-- fasttld.go:142-400 -/
theorem execM_Extract (hB : Big w B) (hw : 2 ^ 31 ≤ B) {M : Nat} (hurl : e.url.length ≤ M) (hMB : M + 4 < B) (hf : M + 10 ≤ f) (hn : M + 3 ≤ n)
    (hM : ∀ v : Bytes, v.length ≤ e.url.length → (formatAsPunycode idna v).length ≤ M) (A : Arrays) :
    Sim (Returned isPrint A) ((EM Source.Extract_func.body [.ext, .params e]).bind endExtract A) (extractH idna e) := by
  have h := exec_before (idna := idna) (texts := texts) (isPrint := isPrint) f n e .ext hB hw hurl hMB hf hM
  have hag := Agrees.exec (c := CT) (n := n) (fun fn xs hp => Agrees.call CT f fn xs hp) beforeStmts [.ext, .params e] beforeStmts_plain
  have h2 := fun u s o c h a x y hs1 hs2 hs3 => execM_host (idna := idna) (texts := texts) (isPrint := isPrint) f n e hB hw u s o c h a x y hs1 hs2 hs3 A
  rw [Extract_parts, execM_append, eff_bind_assoc]
  unfold extractH
  generalize exec CT (call CT Source.program (f + 1)) n beforeStmts _ = v at h hag
  generalize EM beforeStmts _ = v' at hag ⊢
  generalize (Stmt.seq Source.Extract_18 _) = R at h2 ⊢
  generalize beforeHost idna e = m at h ⊢
  match m, h with
  | .error (.fault er), h =>
    rw [hag.eq h (by simp)]
    exact .ret rfl
  | .error (.ret u er), h =>
    rw [hag.eq h (by simp)]
    exact endExtract_ret _ _ _
  | .ok (.inl r), h =>
    rw [hag.eq h (by simp)]
    exact endExtract_ret _ _ _
  | .ok (.inr (s, u)), h =>
    obtain ⟨hl, o, c, h, a, x, y, he⟩ := h
    rw [hag.eq he (by simp)]
    exact h2 u s o c h a x y (by omega) (by omega) (by omega)

end

theorem callMem_Extract (hB : Big w B) (hw : 2 ^ 31 ≤ B) (f : Nat) (e : URLParams) {M : Nat} (hurl : e.url.length ≤ M) (hMB : M + 4 < B)
    (hf : M + 10 ≤ f) (hM : ∀ v : Bytes, v.length ≤ e.url.length → (formatAsPunycode idna v).length ≤ M) (A : Arrays) :
    Sim (Returned isPrint A) (callMem (tableCtx w idna texts isPrint) (f + 2) .Extract [.ext, .params e] A) (extractH idna e) := by
  have h := execM_Extract (idna := idna) (texts := texts) (isPrint := isPrint) f (f + 1) e hB hw hurl hMB hf (by omega) hM A
  exact h

end Fasttld.GoLang
