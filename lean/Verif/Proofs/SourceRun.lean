import Verif.Proofs.SourceNames
import Verif.Proofs.Work
import Verif.Proofs.Memory

/-!
# Running the text of Extract: the whole function
-/

set_option linter.unusedSimpArgs false

namespace Fasttld.GoLang
open Fasttld

variable {w : Nat} {idna : Idna} {texts : Lib} {isPrint : Nat → Bool} {B : Int}

theorem stageScheme_length {s : Bytes} {u : ExtractResult} {r : ExtractResult × Bytes} (h : stageScheme s u = .ok r) :
    r.2.length ≤ s.length := by
  unfold stageScheme at h
  simp only at h
  split at h
  · cases h1 : slice s 0 (getSchemeEndIndex s) with
    | error er => rw [h1] at h; cases h
    | ok a =>
      cases h2 : slice s (getSchemeEndIndex s) s.length with
      | error er => rw [h1, h2] at h; cases h
      | ok b => rw [h1, h2] at h; cases h; exact slice_length_le h2
  · cases h; exact Nat.le_refl _

theorem stageUserInfo_length {s : Bytes} {u : ExtractResult} {r : ExtractResult × Bytes} (h : stageUserInfo s u = .ok r) :
    r.2.length ≤ s.length := by
  unfold stageUserInfo at h
  cases h0 : indexLastByteBefore s 64 invalidUserInfoCharsSet with
  | error er => rw [h0] at h; cases h
  | ok z =>
    rw [h0] at h
    change (if z ≠ -1 then _ else _) = _ at h
    split at h
    · cases h1 : slice s 0 z with
      | error er => rw [h1] at h; cases h
      | ok a =>
        cases h2 : slice s (z + 1) s.length with
        | error er => rw [h1, h2] at h; cases h
        | ok b => rw [h1, h2] at h; cases h; exact slice_length_le h2
    · cases h; exact Nat.le_refl _

theorem stageSplit_length {s : Bytes} {z : Int} {r : Bytes × Bytes} (h : stageSplit s z = .ok r) : r.1.length ≤ s.length := by
  unfold stageSplit at h
  split at h
  · cases h1 : slice s z s.length with
    | error er => rw [h1] at h; cases h
    | ok a =>
      cases h2 : slice s 0 z with
      | error er => rw [h1, h2] at h; cases h
      | ok b => rw [h1, h2] at h; cases h; exact slice_length_le h2
  · cases h; exact Nat.le_refl _

theorem stageIdna_length {s r : Bytes} {e : URLParams} {u : ExtractResult} {M : Nat} (hs : s.length ≤ M)
    (hM : ∀ v : Bytes, v.length ≤ s.length → (formatAsPunycode idna v).length ≤ M) (h : stageIdna idna e s u = .ok r) : r.length ≤ M := by
  unfold stageIdna at h
  split at h
  · cases h
  · next v hv =>
    split at h
    · cases h; exact hM v (queryUnescape_length hv)
    · split at h
      · cases h
      · cases h; exact hs

theorem scanLoop_closing {n : Nat} : ∀ (rest : Bytes) (i : Nat) (o c : Int) {o' c' h' : Int}, i + rest.length = n → -1 ≤ c → c < n →
    scanLoop n rest i o c = .done o' c' h' → -1 ≤ c' ∧ c' < n := by
  intro rest
  induction rest with
  | nil => intro i o c o' c' h' _ h1 h2 h; cases h; exact ⟨h1, h2⟩
  | cons r rest ih =>
    intro i o c o' c' h' hn h1 h2 h
    simp only [List.length_cons] at hn
    unfold scanLoop at h
    have hc : -1 ≤ (if r = 93 then (i : Int) else c) ∧ (if r = 93 then (i : Int) else c) < n := by split <;> omega
    generalize (if r = 93 then (i : Int) else c) = c1 at h hc
    generalize (if r = 91 then (i : Int) else o) = o1 at h
    simp only at h
    have := fun o => ih (i + 1) o c1 (o' := o') (c' := c') (h' := h') (by omega) hc.1 hc.2
    repeat' split at h
    all_goals first | (cases h; done) | (cases h; exact hc) | exact this _ h

section
variable {c : Ctx} {cf : Fn → List Val → Comp Val} {n : Nat}

theorem andThen_assoc (x : Comp Out) (k l : Vars → Comp Out) :
    (x.bind (Out.andThen k)).bind (Out.andThen l) = x.bind (Out.andThen fun vs => (k vs).bind (Out.andThen l)) := by
  match x with
  | .error _ => rfl
  | .ok (.norm vs) => rfl
  | .ok (.brk vs) => rfl
  | .ok (.cont vs) => rfl
  | .ok (.ret vs) => rfl

theorem exec_seq2 (a b r vs) : exec c cf n (.seq a (.seq b r)) vs = (exec c cf n (.seq a b) vs).bind (Out.andThen fun vs => exec c cf n r vs) := by
  simp only [exec_seq, andThen_assoc]

theorem exec_seq3 (a b d r vs) : exec c cf n (.seq a (.seq b (.seq d r))) vs =
    (exec c cf n (.seq a (.seq b d)) vs).bind (Out.andThen fun vs => exec c cf n r vs) := by
  simp only [exec_seq, andThen_assoc]

theorem ofGo_andThen {α : Type} (g : Go α) (env : α → Vars) (k : Vars → Comp Out) :
    ((ofGo g).bind fun a => .ok (.norm (env a))).bind (Out.andThen k) = (ofGo g).bind fun a => k (env a) := by
  cases g <;> rfl

theorem ok_andThen (vs : Vars) (k : Vars → Comp Out) : (Except.ok (Out.norm vs) : Comp Out).bind (Out.andThen k) = k vs := rfl
end

/-! ## The parts of Extract -/

/-- A sequence of statements, then another statement. -/
def Stmt.append : Stmt → Stmt → Stmt
  | .seq a b, r => .seq a (b.append r)
  | .skip, r => r
  | a, r => .seq a r

theorem exec_append (c : Ctx) (cf n) (p r : Stmt) (vs) : exec c cf n (p.append r) vs = (exec c cf n p vs).bind (Out.andThen fun vs => exec c cf n r vs) := by
  induction p generalizing vs with
  | seq a b _ ih =>
    simp only [Stmt.append, exec_seq, andThen_assoc]
    congr 2; funext vs; exact ih vs
  | skip => rfl
  | _ => rfl

/-- Before the trie is needed. -/
def beforeStmts : Stmt :=
  .seq Source.Extract_1 <| .seq Source.Extract_2 <| .seq Source.Extract_3 <| .seq Source.Extract_4 <| .seq Source.Extract_5 <|
  .seq Source.Extract_6 <| .seq Source.Extract_7 <| .seq Source.Extract_8 <| .seq Source.Extract_9 <| .seq Source.Extract_10 <|
  .seq Source.Extract_11 <| .seq Source.Extract_12 <| .seq Source.Extract_13 <| .seq Source.Extract_14 <| .seq Source.Extract_15 <|
  .seq Source.Extract_16 <| .seq Source.Extract_17 .skip

/-- After the loop over the labels. -/
def afterStmts : Stmt :=
  .seq Source.Extract_22 <| .seq Source.Extract_23 <| .seq Source.Extract_24 <| .seq Source.Extract_25 <| .seq Source.Extract_26 <|
  .seq Source.Extract_27 <| .seq Source.Extract_28 <| .seq Source.Extract_29 <| .seq Source.Extract_30 .skip

theorem Extract_parts : Source.Extract_func.body = beforeStmts.append (.seq Source.Extract_18 <| .seq Source.Extract_19 <|
    .seq Source.Extract_20 <| .seq Source.Extract_21 afterStmts) := rfl

/-- What the part before the trie ends with. -/
def Before (isPrint : Nat → Bool) (t : Val) (e : URLParams) (M : Nat) (m : Fasttld.M ((ExtractResult × Option Err) ⊕ (Bytes × ExtractResult)))
    (v : Comp Out) : Prop :=
  match m with
  | .error (.fault f) => v = .error (.fault f)
  | .error (.ret u er) => v = .ok (.ret (retVals isPrint u er))
  | .ok (.inl r) => v = .ok (.ret (retVals isPrint r.1 r.2))
  | .ok (.inr (s, u)) => s.length ≤ M ∧ ∃ o c h a x y, v = .ok (.norm [t, .params e, .result u, .str s, o, c, h, a, x, y])

section
variable {t : Val} {e : URLParams} {M : Nat} {α : Type}

theorem Before.go {g : Go α} {k K} (h : ∀ a, g = .ok a → Before isPrint t e M (k a) (K a)) :
    Before isPrint t e M (liftGo g >>= k) ((ofGo g).bind K) := by
  cases g with
  | ok a => exact h a rfl
  | error f => rfl

theorem Before.m {g : Fasttld.M α} {k K} (h : ∀ a, g = .ok a → Before isPrint t e M (k a) (K a)) :
    Before isPrint t e M (g >>= k) (ofM isPrint g K) := by
  match g, h with
  | .ok a, h => exact h a rfl
  | .error (.fault f), _ => rfl
  | .error (.ret u er), _ => rfl
end

section
variable (f n : Nat) (e : URLParams)

local notation "EX" => exec (tableCtx w idna texts isPrint) (call (tableCtx w idna texts isPrint) Source.program (f + 1)) n

/-- After the loop over the labels. -/
theorem exec_after (hB : Big w B) (hw : 2 ^ 31 ≤ B) (t : Val) (u : ExtractResult) (s : Bytes) (o c h a x y : Val) (hs : s.length + 4 < B)
    (hf : s.length + 5 ≤ f) (node : Val) (hl en : Bool) (W : Walk) :
    EX afterStmts (walkEnv t e u s o c h a x y node hl en W []) =
      ofM isPrint (afterWalk e s u W) fun r => .ok (.ret (retVals isPrint r.1 r.2)) := by
  unfold afterStmts afterWalk
  rw [exec_seq, exec_22 f n t e u s o c h a x y node hl en W hB hw hs hf, ofM_bind, ofM_liftGo]
  cases h4 : stageIPv4 s W u with
  | error er => rfl
  | ok r =>
    cases r with
    | some u4 => rfl
    | none =>
      show EX _ (walkEnv t e u s o c h a x y node hl en W []) = _
      rw [exec_seq2, exec_24 f n t e u s o c h a x y node hl en W hB hw hs (by omega), ofM_andThen]
      show _ = ofM isPrint (stageCheckChars s W u >>= _) _
      rw [ofM_bind]
      refine ofM_congr fun W' _ => ?_
      rw [exec_seq2, exec_26 f n t e u s o c h a x y node hl en W' hB hw hs (by omega), ofGo_andThen, ofM_bind, ofM_liftGo]
      refine ofGo_congr fun r _ => ?_
      rw [exec_seq, exec_27, ofGo_andThen, ofM_bind, ofM_liftGo]
      refine ofGo_congr fun u _ => ?_
      rw [exec_30]
      split <;> rfl

/-- From the loop over the labels on. -/
theorem exec_host (hB : Big w B) (hw : 2 ^ 31 ≤ B) (t : Trie) (u : ExtractResult) (s : Bytes) (o c h a x y : Val) (hs : s.length + 4 < B)
    (hf : s.length + 5 ≤ f) (hn : s.length + 3 ≤ n)
    (hne : walkLoop s u (s.length + 2) t false ⟨false, 0, s.length, s.length, s.length⟩ ≠ .error (.fault .outOfFuel)) :
    EX (.seq Source.Extract_18 <| .seq Source.Extract_19 <| .seq Source.Extract_20 <| .seq Source.Extract_21 afterStmts)
      [.fastTLD t, .params e, .result u, .str s, o, c, h, a, x, y] =
      ofM isPrint (stageHost t e s u) fun r => .ok (.ret (retVals isPrint r.1 r.2)) := by
  rw [exec_seq3, exec_20, ok_andThen, exec_seq, stageHost_split]
  simp only [ofM_bind]
  simp only [Source.Extract_21, exec_loop, exec_skip, bind_ok, Out.only]
  have hb : ∀ (X : Comp Out) (k : Vars → Comp Out), (X.bind fun o => .ok (o.leave 18)).bind (Out.andThen k) = X.bind fun o => (o.leave 18).andThen k := by
    intro X k; cases X <;> rfl
  refine (hb _ _).trans (loop_walk f n (.fastTLD t) e u s o c h a x y hB hw hs (by omega) (fun o => (o.leave 18).andThen fun vs => EX afterStmts vs) _ ?_
    ?_ (s.length + 2) n t false _ (by omega) hne)
  case refine_2 => intro xs; rfl
  intro node hl en W
  exact exec_after f n e hB hw (.fastTLD t) u s o c h a x y hs hf node hl en W

/-- Before the trie is needed. -/
theorem exec_before (t : Val) (hB : Big w B) (hw : 2 ^ 31 ≤ B) {M : Nat} (hurl : e.url.length ≤ M) (hMB : M + 4 < B) (hf : M + 10 ≤ f)
    (hM : ∀ v : Bytes, v.length ≤ e.url.length → (formatAsPunycode idna v).length ≤ M) :
    Before isPrint t e M (beforeHost idna e) (EX beforeStmts [t, .params e]) := by
  have h1 : EX Source.Extract_1 [t, .params e] = .ok (.norm [t, .params e, .result {}]) := by simp [Source.Extract_1]
  unfold beforeHost
  simp only [beforeStmts]
  rw [exec_seq, h1, ok_andThen, exec_seq, exec_2 f n t e hB hw (by omega) (by omega), ofGo_andThen]
  refine Before.go fun s hs => ?_
  have l1 := fastTrim_length_le hs
  rw [exec_seq, exec_3 f n t e hB hw {} s (by omega) (by omega), ofGo_andThen]
  refine Before.go fun r1 hr1 => ?_
  have l2 := stageScheme_length hr1
  rw [exec_seq, exec_4 f n t e hB hw r1.1 r1.2 (by omega) (by omega), ofGo_andThen]
  refine Before.go fun r2 hr2 => ?_
  have l3 := stageUserInfo_length hr2
  have h567 : EX (.seq Source.Extract_5 (.seq Source.Extract_6 Source.Extract_7)) [t, .params e, .result r2.1, .str r2.2] =
      .ok (.norm [t, .params e, .result r2.1, .str r2.2, .num .int (-1), .num .int (-1), .num .int (-1)]) := by
    have hw1 : NumTy.int.wrap w (-1) = -1 := wrap_int hB (by omega) (by omega)
    simp [Source.Extract_5, Source.Extract_6, Source.Extract_7]
  rw [exec_seq3, h567, ok_andThen, exec_seq, exec_8 f n t e hB hw r2.1 r2.2 (by omega)]
  cases hsc : scanLoop r2.2.length r2.2 0 (-1) (-1) with
  | err er => rfl
  | done o c h =>
    obtain ⟨b1, b2⟩ := scanLoop_closing r2.2 0 (-1) (-1) (by omega) (by omega) (by omega) hsc
    have e9 := exec_9 (idna := idna) (texts := texts) (isPrint := isPrint) f n t e hB hw r2.1 r2.2 (by omega) o c h b1 b2
    have e10 := exec_10 (idna := idna) (texts := texts) (isPrint := isPrint) f n t e hB hw r2.1 r2.2 (by omega) (by omega) o c (adjustHostEnd r2.2.length c h)
    rw [scanOut, ok_andThen]
    rw [exec_seq]
    rw [e9]
    rw [ok_andThen]
    rw [exec_seq]
    rw [e10]
    rw [ofM_andThen]
    refine Before.m fun u3 hu3 => ?_
    have h11 : EX Source.Extract_11 [t, .params e, .result u3, .str r2.2, .num .int o, .num .int c, .num .int (adjustHostEnd r2.2.length c h)] =
        .ok (.norm [t, .params e, .result u3, .str r2.2, .num .int o, .num .int c, .num .int (adjustHostEnd r2.2.length c h), .str []]) := by
      simp [Source.Extract_11]
    rw [exec_seq, h11, ok_andThen, exec_seq, exec_12, ofGo_andThen]
    refine Before.go fun r4 hr4 => ?_
    have l4 := stageSplit_length hr4
    rw [exec_seq, exec_13 f n t e hB hw u3 r4.1 r4.2 (by omega), ofM_andThen]
    refine Before.m fun u5 hu5 => ?_
    by_cases h6 : u5.hostType = .iPv6
    · have h14 : EX Source.Extract_14 [t, .params e, .result u5, .str r4.1, .num .int o, .num .int c,
          .num .int (adjustHostEnd r2.2.length c h), .str r4.2] = .ok (.ret [.result u5, .err none]) := by
        simp [Source.Extract_14, h6, table]
      rw [exec_seq, h14, if_pos h6]
      rfl
    · have h14 : EX Source.Extract_14 [t, .params e, .result u5, .str r4.1, .num .int o, .num .int c,
          .num .int (adjustHostEnd r2.2.length c h), .str r4.2] = .ok (.norm [t, .params e, .result u5, .str r4.1, .num .int o, .num .int c,
          .num .int (adjustHostEnd r2.2.length c h), .str r4.2]) := by
        simp [Source.Extract_14, h6, table]
      rw [exec_seq, h14, if_neg h6, ok_andThen, exec_seq3, exec_17 f n t e u5 r4.1 _ _ _ _ (by omega), ofM_andThen]
      refine Before.m fun s' hs' => ?_
      exact ⟨stageIdna_length (by omega : r4.1.length ≤ M) (fun v hv => hM v (by omega)) hs', _, _, _, _, _, _, rfl⟩

theorem error_bind {α β : Type} (x : Stop) (k : α → Fasttld.M β) : ((.error x : Fasttld.M α) >>= k) = .error x := rfl

theorem extractM_stop {t : Trie} {e : URLParams} {x : Stop} (h : beforeHost idna e = .error x) : extractM idna t e = .error x := by
  rw [extractM_split, h]; rfl
theorem extractM_early {t : Trie} {e : URLParams} {r} (h : beforeHost idna e = .ok (.inl r)) : extractM idna t e = .ok r := by
  rw [extractM_split, h]; rfl
theorem extractM_host {t : Trie} {e : URLParams} {s u} (h : beforeHost idna e = .ok (.inr (s, u))) : extractM idna t e = stageHost t e s u := by
  rw [extractM_split, h]; rfl

/-- The whole body. -/
theorem exec_Extract (t : Trie) (hB : Big w B) (hw : 2 ^ 31 ≤ B) {M : Nat} (hurl : e.url.length ≤ M) (hMB : M + 4 < B) (hf : M + 10 ≤ f) (hn : M + 3 ≤ n)
    (hM : ∀ v : Bytes, v.length ≤ e.url.length → (formatAsPunycode idna v).length ≤ M)
    (hne : extractM idna t e ≠ .error (.fault .outOfFuel)) :
    EX Source.Extract_func.body [.fastTLD t, .params e] =
      ofM isPrint (extractM idna t e) fun r => .ok (.ret (retVals isPrint r.1 r.2)) := by
  have h := exec_before (idna := idna) (texts := texts) (isPrint := isPrint) f n e (.fastTLD t) hB hw hurl hMB hf hM
  have h2 := fun s u o c h a x y hs1 hs2 hs3 hne => exec_host (idna := idna) (texts := texts) (isPrint := isPrint) f n e hB hw t u s o c h a x y hs1 hs2 hs3 hne
  rw [Extract_parts, exec_append]
  generalize EX beforeStmts _ = v at h ⊢
  generalize (Stmt.seq Source.Extract_18 _) = R at h2 ⊢
  cases hb : beforeHost idna e with
  | error x =>
    rw [hb] at h
    rw [extractM_stop hb]
    cases x with
    | fault g => cases h; rfl
    | ret u er => cases h; rfl
  | ok x =>
    rw [hb] at h
    cases x with
    | inl r => rw [extractM_early hb]; cases h; rfl
    | inr r =>
      obtain ⟨s, u⟩ := r
      obtain ⟨hl, o, c, h, a, x, y, he⟩ := h
      rw [extractM_host hb] at hne ⊢
      rw [he, ok_andThen]
      refine h2 s u o c h a x y (by omega) (by omega) (by omega) fun hbad => hne ?_
      rw [stageHost_split, hbad, error_bind]

end

theorem run_Extract (hB : Big w B) (hw : 2 ^ 31 ≤ B) (f : Nat) (t : Trie) (e : URLParams) {M : Nat} (hurl : e.url.length ≤ M) (hMB : M + 4 < B)
    (hf : M + 10 ≤ f) (hM : ∀ v : Bytes, v.length ≤ e.url.length → (formatAsPunycode idna v).length ≤ M) {r : ExtractResult} {er : Option Err}
    (h : extract idna t e = .ok (r, er)) :
    call (tableCtx w idna texts isPrint) Source.program (f + 2) .Extract [.fastTLD t, .params e] =
      .ok (.tuple [.result r, .err (er.map (Err.text isPrint))]) := by
  have hcase : extractM idna t e = .ok (r, er) ∨ extractM idna t e = .error (.ret r er) := by
    unfold extract at h
    split at h
    · next x hx => cases h; exact .inl hx
    · next x y hx => cases h; exact .inr hx
    · cases h
  show Func.run _ (call _ Source.program (f + 1)) (f + 1) Source.Extract_func _ = _
  unfold Func.run
  rw [if_pos (by rfl)]
  have hstart : Source.Extract_func.start [.fastTLD t, .params e] = [.fastTLD t, .params e] := rfl
  rw [hstart, exec_Extract f (f + 1) e t hB hw hurl hMB hf (by omega) hM (by rcases hcase with h | h <;> rw [h] <;> simp)]
  have hfin : Source.Extract_func.finish (.ret (retVals isPrint r er)) = .ok (.tuple [.result r, .err (er.map (Err.text isPrint))]) := rfl
  rcases hcase with h | h <;> rw [h] <;> exact hfin

/-! ## Enough fuel -/

theorem big_of (h : 32 ≤ w) : Big w (2 ^ (w - 1)) := ⟨by omega, rfl⟩

theorem two31_le (h : 32 ≤ w) : (2 : Int) ^ 31 ≤ 2 ^ (w - 1) := by
  have : 2 ^ 31 ≤ 2 ^ (w - 1) := Nat.pow_le_pow_right (by decide) (by omega)
  exact_mod_cast this

theorem runs_of (h : 32 ≤ w) {fn : Fn} {xs : List Val} {v : Comp Val} (N : Nat)
    (hc : ∀ f, N ≤ f → call (tableCtx w idna texts isPrint) Source.program (f + 2) fn xs = v) :
    RunsTo (sourceCtx w idna texts isPrint) fn xs v := by
  rw [sourceCtx_eq (big_of h) (two31_le h)]
  refine ⟨N + 2, fun fuel hN => ?_⟩
  obtain ⟨f, rfl⟩ : ∃ m, fuel = m + 2 := ⟨fuel - 2, by omega⟩
  exact hc f (by omega)

end Fasttld.GoLang
