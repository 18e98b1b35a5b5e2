import Verif.Proofs.SourceSysTrie

/-!
# Running the text of newHardcodedPSL, Update and New with the operating system
-/

set_option linter.unusedSimpArgs false

namespace Fasttld.GoLang
open Fasttld

variable {round : Rat → Rat} {w : Nat} {idna : Idna} {texts : Lib} {isPrint : Nat → Bool} {B : Int} {ok : LEvent → Prop} (f n : Nat)

local notation "CT" => tableCtx w idna texts isPrint

theorem TrieAt.sub {m m' : Mem} {r : Ref} {t : Trie} (h : TrieAt m r t) (hs : m.nodes.Sub m'.nodes) : TrieAt m' r t := by
  obtain ⟨rules, h1, h2⟩ := h
  exact ⟨rules, h1.sub hs, h2⟩

/-- A structure in memory, as a value. -/
structure ObjIs (m : Mem) (o : Obj) (F : FastTLD) : Prop where
  path : o.cacheFilePath = F.cacheFilePath
  incl : o.includePrivateSuffix = F.includePrivateSuffix
  trie : TrieAt m o.tldTrie F.tldTrie

/-- Rules short enough for the machine. -/
def Short (B : Int) (f : Nat) (rules : List Bytes) : Prop := ∀ s ∈ rules, (splitByte 46 s).length < B ∧ (splitByte 46 s).length + 1 ≤ f + 1

/-- The structures `O` are as they were, and the place `i` is none of theirs. -/
def Keeps (O O' : List Obj) (i : Nat) : Prop := O.length ≤ i ∧ ∀ j < O.length, O'[j]? = O[j]?

theorem Keeps.append (O : List Obj) (l : List Obj) : Keeps O (O ++ l) O.length :=
  ⟨Nat.le_refl _, fun _ h => List.getElem?_append_left h⟩

theorem Keeps.set {O O' : List Obj} {i : Nat} (h : Keeps O O' i) (o : Obj) : Keeps O (O'.set i o) i :=
  ⟨h.1, fun j hj => by rw [List.getElem?_set_ne (by have := h.1; omega), h.2 j hj]⟩

theorem Keeps.trans {O O' O'' : List Obj} {i k : Nat} (h : Keeps O O' i) (h' : Keeps O' O'' k) (hl : O.length ≤ O'.length) : Keeps O O'' k :=
  ⟨Nat.le_trans hl h'.1, fun j hj => by rw [h'.2 j (by omega), h.2 j hj]⟩

/-- The results of newHardcodedPSL and New, and what else is true then. -/
def FastMade (m : Mem) (S : Local) (m' : Mem) (v : Comp (Val × Local)) (r : FastTLD × Option TextErr) : Prop :=
  ∃ i A O' o, v = .ok (.tuple [.obj i, .err (r.2.map Prod.snd)], ⟨A, O', S.deferred⟩) ∧ O'[i]? = some o ∧ ObjIs m' o r.1 ∧
    m'.root = m.root ∧ m.nodes.Sub m'.nodes ∧ Keeps S.objs O' i

theorem newHardcodedPSLL_eq (tx : IdnaTexts) (hard : Bytes) (e : Option Bytes) (n : SuffixListParams) : newHardcodedPSLL idna tx hard e n =
    .effect (.log (errText e ++ b! " Fallback to hardcoded Public Suffix List")) (trieConstructL idna tx hard n.includePrivateSuffix [] >>= fun r =>
      .ret (⟨[], r.1, n.includePrivateSuffix⟩, r.2)) := rfl

/-- psl.go:103-107 -/
theorem impl_newHardcodedPSL (hB : Big w B) (e : Option Bytes) (n : SuffixListParams) (m : Mem) (A : Arrays) (O D)
    (hh : ∀ incl, Short B f (rulesOf idna incl texts.hardcodedPSL)) (hl : ∀ p text t, ok (.sys (.readFile p (some text)) t) → ∀ incl, Short B f (rulesOf idna incl text)) :
    Impl ok (FastMade m ⟨A, O, D⟩) m (callSys round CT (f + 5) .newHardcodedPSL [.err e, .listParams n] ⟨A, O, D⟩)
      (newHardcodedPSLL idna texts.toIdnaTexts texts.hardcodedPSL e n) := by
  rw [callSys_text (F := Source.newHardcodedPSL_func) (f := f + 4) rfl rfl _ rfl, newHardcodedPSLL_eq]
  have hpr : printedAll [.err e, .str (b! "Fallback to hardcoded Public Suffix List")] = some (errText e ++ b! " Fallback to hardcoded Public Suffix List") := rfl
  simp -implicitDefEqProofs [endX, Source.newHardcodedPSL_func, Func.start, Func.args, Source.newHardcodedPSL_1, callSys_Println _ _ _ hpr, effx_effect_app, Source.newHardcodedPSL_2]
  refine .effect (Impl.bind (impl_trieConstruct f hB n.includePrivateSuffix [] m A O [] (fun p text t h => hl p text t h _) (hh _)) fun m1 v r h => ?_)
  obtain ⟨p, A1, rfl, ht, hr, hsub⟩ := h
  simp -implicitDefEqProofs [EffX.next, Source.newHardcodedPSL_3, effx_newObj_app, Func.finishM, Func.finish, Func.result, effx_deferred_app,
    effx_setDeferred_app, effx_ok_app]
  exact .ret ⟨O.length, A1, O ++ [⟨[], p, n.includePrivateSuffix⟩], ⟨[], p, n.includePrivateSuffix⟩, rfl, by simp, ⟨rfl, rfl, ht⟩, hr, hsub, .append _ _⟩

/-- The results of Update, and what else is true then. -/
def Updated (m : Mem) (i : Nat) (S : Local) (m' : Mem) (v : Comp (Val × Local)) (r : FastTLD × Option TextErr) : Prop :=
  ∃ A o, v = .ok (.err (r.2.map Prod.snd), ⟨A, S.objs.set i o, S.deferred⟩) ∧ ObjIs m' o r.1 ∧ m'.root = m.root ∧ m.nodes.Sub m'.nodes

theorem updateL_eq (tx : IdnaTexts) (hard : Bytes) (F : FastTLD) : F.updateL idna tx hard = .call .tempDir fun d _ =>
    if F.cacheFilePath ≠ d ++ defaultPSLFileName then .ret (F, some (.noOp, b! "No-op. Only default Public Suffix list file can be updated"))
    else .call (.openWrite (d ++ defaultPSLFileName)) fun b t => match b with
      | none => .ret (F, some (.openFile, t))
      | some h => Fasttld.updateL h publicSuffixListSources >>= fun r =>
        if r then trieConstructL idna tx hard F.includePrivateSuffix (d ++ defaultPSLFileName) >>= fun r => .effect (.closeFile h) (match r.2 with
          | none => .ret ({ F with tldTrie := r.1, cacheFilePath := d ++ defaultPSLFileName }, none)
          | some e => .ret (F, some e))
        else .effect (.closeFile h) (.ret (F, some (.allMirrors, noMirror))) := by
  show LProg.call _ _ = _
  refine congrArg (LProg.call _) (funext fun d => funext fun _ => ?_)
  show (if _ then _ else _) = (if _ then _ else _)
  split
  · rfl
  · show LProg.call _ _ = _
    refine congrArg (LProg.call _) (funext fun b => funext fun t => ?_)
    cases b with
    | none => rfl
    | some h =>
      show LProg.bind (Fasttld.updateL h publicSuffixListSources) _ = LProg.bind _ _
      refine congrArg (LProg.bind _) (funext fun r => ?_)
      cases r with
      | false => rfl
      | true =>
        show LProg.bind _ _ = LProg.bind _ _
        refine congrArg (LProg.bind _) (funext fun r => ?_)
        obtain ⟨t, e⟩ := r
        cases e <;> rfl

theorem table_fileName : table .defaultPSLFileName = .str defaultPSLFileName := rfl
theorem table_sources : table .publicSuffixListSources = .strs publicSuffixListSources := rfl
theorem table_maxAge : table .pslMaxAgeHours = .float 72 := rfl
theorem storeX_trie0 (n i r vs) : storeX (.field 0 n .tldTrie) (.ptr r) (.obj i :: vs) = (EffX.getObj i).bind fun o =>
    (EffX.setObj i { o with tldTrie := r }).bind fun _ => EffX.ok (.obj i :: vs) := rfl
theorem storeX_path0 (n i r vs) : storeX (.field 0 n .cacheFilePath) (.str r) (.obj i :: vs) = (EffX.getObj i).bind fun o =>
    (EffX.setObj i { o with cacheFilePath := r }).bind fun _ => EffX.ok (.obj i :: vs) := rfl
theorem storeX_trie1 (n i r v vs) : storeX (.field 1 n .tldTrie) (.ptr r) (v :: .obj i :: vs) = (EffX.getObj i).bind fun o =>
    (EffX.setObj i { o with tldTrie := r }).bind fun _ => EffX.ok (v :: .obj i :: vs) := rfl
theorem storeX_path1 (n i r v vs) : storeX (.field 1 n .cacheFilePath) (.str r) (v :: .obj i :: vs) = (EffX.getObj i).bind fun o =>
    (EffX.setObj i { o with cacheFilePath := r }).bind fun _ => EffX.ok (v :: .obj i :: vs) := rfl
theorem finish_Update (e) : Source.Update_func.finishM (.ret [.err e]) = .ok (.err e) := rfl
theorem openFlags (hB : Big w B) (h : 65 < B) : binOp w .bitOr (.num .int 64) (.num .int 1) = .ok (.num .int 65) := by
  have : NumTy.wrap w .int 65 = 65 := wrap_int hB (by omega) h
  show Except.ok (Val.num _ _) = _
  exact congrArg _ (congrArg _ this)

/-- psl.go:192-213 -/
theorem impl_Update (hB : Big w B) (h65 : 65 < B) (m : Mem) (A : Arrays) (O D) (i : Nat) (o : Obj) (F : FastTLD) (ho : O[i]? = some o) (hF : ObjIs m o F)
    (hh : ∀ incl, Short B f (rulesOf idna incl texts.hardcodedPSL)) (hl : ∀ p text t, ok (.sys (.readFile p (some text)) t) → ∀ incl, Short B f (rulesOf idna incl text)) :
    Impl ok (Updated m i ⟨A, O, D⟩) m (callSys round CT (f + 5) .Update [.obj i] ⟨A, O, D⟩) (F.updateL idna texts.toIdnaTexts texts.hardcodedPSL) := by
  rw [callSys_text (F := Source.Update_func) (f := f + 4) rfl rfl _ rfl, updateL_eq]
  have hset : O.set i o = O := by
    obtain ⟨h, rfl⟩ := List.getElem?_eq_some_iff.1 ho
    exact List.set_getElem_self h
  have hi : i < O.length := (List.getElem?_eq_some_iff.1 ho).1
  change Impl _ _ _ (endX CT (callSys round CT (f + 4)) (f + 4) Source.Update_func D (.seq Source.Update_1 <| .seq Source.Update_2 <| .seq Source.Update_3 <|
    .seq Source.Update_4 <| .seq Source.Update_5 <| .seq Source.Update_6 <| .seq Source.Update_7 <| .seq Source.Update_8 <| .seq Source.Update_9 <|
    .seq Source.Update_10 <| .skip) [.obj i] ⟨A, O, []⟩) _
  simp -implicitDefEqProofs [endX, Source.Update_1, Source.Update_2, effx_sys_app, table_fileName]
  refine .sys fun d _ _ => ?_
  simp -implicitDefEqProofs [Source.Update_3, effx_getObj_app ho, hF.path]
  by_cases hp : F.cacheFilePath = d ++ defaultPSLFileName
  · simp -implicitDefEqProofs [hp, Source.Update_4, effx_sys_app, openFlags hB h65]
    refine .sys fun b t _ => ?_
    cases b with
    | none =>
      simp -implicitDefEqProofs [openVal, Source.Update_5, finish_Update, effx_deferred_app, effx_setDeferred_app, effx_ok_app]
      exact .ret ⟨A, o, by rw [hset]; rfl, hF, rfl, fun _ _ h => h⟩
    | some h =>
      simp -implicitDefEqProofs [openVal, Source.Update_5, Source.Update_6, effx_deferred_app, effx_setDeferred_app, Source.Update_7, table_sources]
      rw [effx_bind_prog (run_update (f + 1) h publicSuffixListSources _)]
      refine Impl.ofL _ fun r => ?_
      cases r with
      | false =>
        simp -implicitDefEqProofs [finish_Update, effx_deferred_app, effx_setDeferred_app, effx_effect_app, effx_ok_app]
        exact .effect (.ret ⟨A, o, by rw [hset]; rfl, hF, rfl, fun _ _ h => h⟩)
      | true =>
        simp -implicitDefEqProofs [Source.Update_8, effx_getObj_app ho, hF.incl]
        refine Impl.bind (impl_trieConstruct f hB F.includePrivateSuffix (d ++ defaultPSLFileName) m A O _ (fun p text t h => hl p text t h _) (hh _)) fun m1 v r h => ?_
        obtain ⟨p, A1, rfl, ht, hr, hsub⟩ := h
        obtain ⟨t, e⟩ := r
        cases e with
        | none =>
          have hi2 : ∀ x : Obj, (O.set i x)[i]? = some x := by intro x; simp [hi]
          simp -implicitDefEqProofs [EffX.next, Source.Update_9, Source.Update_10, storeX_trie0, storeX_path0, effx_getObj_app ho, effx_getObj_app (hi2 _), effx_setObj_app,
            finish_Update, effx_deferred_app, effx_setDeferred_app, effx_effect_app, effx_ok_app]
          exact .effect (.ret ⟨A1, _, rfl, ⟨rfl, hF.incl, ht⟩, hr, hsub⟩)
        | some e =>
          simp -implicitDefEqProofs [EffX.next, Source.Update_9, Source.Update_10, finish_Update, effx_deferred_app, effx_setDeferred_app, effx_effect_app, effx_ok_app]
          exact .effect (.ret ⟨A1, o, by rw [hset]; rfl, ⟨hF.path, hF.incl, hF.trie.sub hsub⟩, hr, hsub⟩)
  · simp -implicitDefEqProofs [hp, finish_Update, effx_deferred_app, effx_setDeferred_app, effx_ok_app]
    exact .ret ⟨A, o, by rw [hset]; rfl, hF, rfl, fun _ _ h => h⟩

/-! ## New -/

theorem lbind_ret {α : Type} (p : LProg α) : (p >>= fun a => .ret a) = p := by
  show p.bind _ = p
  induction p with
  | ret a => rfl
  | call o k ih => exact congrArg (LProg.call o) (funext fun b => funext fun t => ih b t)
  | effect e k ih => exact congrArg (LProg.effect e) ih

theorem finishNewL_eq (tx : IdnaTexts) (hard : Bytes) (n : SuffixListParams) (F : FastTLD) : finishNewL idna tx hard n F =
    (trieConstructL idna tx hard n.includePrivateSuffix F.cacheFilePath >>= fun r => match r.2 with
      | some e => newHardcodedPSLL idna tx hard (some e.2) n
      | none => .ret ({ F with tldTrie := r.1 }, none)) := by
  show LProg.bind _ _ = LProg.bind _ _
  refine congrArg (LProg.bind _) (funext fun r => ?_)
  obtain ⟨t, e⟩ := r
  cases e <;> rfl

theorem newL_eq (tx : IdnaTexts) (hard : Bytes) (n : SuffixListParams) : newL idna tx hard n = (checkCacheFileL n.cacheFilePath >>= fun r =>
    if r.1 then finishNewL idna tx hard n ⟨n.cacheFilePath, .node false [], n.includePrivateSuffix⟩
    else .call .tempDir fun d _ => .call (.openDir d) fun b t => if b then checkCacheFileL (d ++ defaultPSLFileName) >>= fun r =>
        if !r.1 || r.2 > pslMaxAge then FastTLD.updateL idna tx hard ⟨d ++ defaultPSLFileName, .node false [], n.includePrivateSuffix⟩ >>= fun r =>
          match r.2 with
          | some _ => newHardcodedPSLL idna tx hard none n >>= fun r => .effect .closeDir (.ret r)
          | none => .effect .closeDir (.ret (r.1, none))
        else finishNewL idna tx hard n ⟨d ++ defaultPSLFileName, .node false [], n.includePrivateSuffix⟩ >>= fun r => .effect .closeDir (.ret r)
      else newHardcodedPSLL idna tx hard (some t) n) := by
  show LProg.bind _ _ = LProg.bind _ _
  refine congrArg (LProg.bind _) (funext fun r => ?_)
  obtain ⟨b, a⟩ := r
  cases b with
  | true => rfl
  | false =>
    show LProg.call _ _ = LProg.call _ _
    refine congrArg (LProg.call _) (funext fun d => funext fun _ => ?_)
    show LProg.call _ _ = LProg.call _ _
    refine congrArg (LProg.call _) (funext fun b => funext fun t => ?_)
    cases b with
    | false => rfl
    | true =>
      show LProg.bind (checkCacheFileL (d ++ defaultPSLFileName)) _ = LProg.bind _ _
      refine congrArg (LProg.bind _) (funext fun r => ?_)
      obtain ⟨v, a⟩ := r
      show (if (!v || decide (a > pslMaxAge)) = true then _ else _) = (if (!v || decide (a > pslMaxAge)) = true then _ else _)
      split
      · show LProg.bind _ _ = LProg.bind _ _
        refine congrArg (LProg.bind _) (funext fun r => ?_)
        obtain ⟨F, e⟩ := r
        cases e <;> rfl
      · rfl

/-- What the statements of New come to. -/
def NewMade (m : Mem) (O : List Obj) (D : List (Fn × List Val)) (m' : Mem) (v : Comp (Out × Local)) (r : FastTLD × Option TextErr) : Prop :=
  ∃ i A O' o, v = .ok (.ret [.obj i, .err (r.2.map Prod.snd)], ⟨A, O', D⟩) ∧ O'[i]? = some o ∧ ObjIs m' o r.1 ∧
    m'.root = m.root ∧ m.nodes.Sub m'.nodes ∧ Keeps O O' i

/-- fasttld.go:427-433 -/
def newEnd : Stmt := .seq Source.New_3 <| .seq Source.New_4 <| .seq Source.New_5 <| .seq Source.New_6 <| .skip

theorem impl_newEnd (hB : Big w B) (n : SuffixListParams) (m : Mem) (A : Arrays) (O0 O D) (i : Nat) (o : Obj) (F : FastTLD) (ho : O[i]? = some o) (hk : Keeps O0 O i)
    (hp : o.cacheFilePath = F.cacheFilePath) (hi : o.includePrivateSuffix = F.includePrivateSuffix)
    (hh : ∀ incl, Short B f (rulesOf idna incl texts.hardcodedPSL)) (hl : ∀ p text t, ok (.sys (.readFile p (some text)) t) → ∀ incl, Short B f (rulesOf idna incl text)) :
    Impl ok (NewMade m O0 D) m (execX CT (callSys round CT (f + 5)) (f + 5) newEnd [.listParams n, .obj i] ⟨A, O, D⟩)
      (finishNewL idna texts.toIdnaTexts texts.hardcodedPSL n F) := by
  rw [finishNewL_eq]
  simp -implicitDefEqProofs [newEnd, Source.New_3, effx_getObj_app ho, hp]
  refine Impl.bind (impl_trieConstruct (f + 1) hB n.includePrivateSuffix F.cacheFilePath m A O D (fun p text t h s hs => ?_) fun s hs => ?_) fun m1 v r h => ?_
  · have := hl p text t h _ s hs; omega
  · have := hh _ s hs; omega
  obtain ⟨p, A1, rfl, ht, hr, hsub⟩ := h
  obtain ⟨t, e⟩ := r
  cases e with
  | none =>
    have hlt : i < O.length := (List.getElem?_eq_some_iff.1 ho).1
    simp -implicitDefEqProofs [EffX.next, Source.New_4, Source.New_5, Source.New_6, storeX_trie1, effx_getObj_app ho, effx_setObj_app, effx_ok_app]
    exact .ret ⟨i, A1, _, { o with tldTrie := p }, rfl, by simp [hlt], ⟨hp, hi, ht⟩, hr, hsub, hk.set _⟩
  | some e =>
    simp -implicitDefEqProofs [EffX.next, Source.New_4]
    rw [← lbind_ret (newHardcodedPSLL _ _ _ _ _)]
    refine Impl.bind (impl_newHardcodedPSL f hB (some e.2) n m1 A1 O D hh hl) fun m2 v r h => ?_
    obtain ⟨j, A2, O2, o2, rfl, h1, h2, h3, h4, h5⟩ := h
    have hlt : i < O.length := (List.getElem?_eq_some_iff.1 ho).1
    simp -implicitDefEqProofs [EffX.next, effx_ok_app]
    exact .ret ⟨j, A2, O2, o2, rfl, h1, h2, h3.trans hr, fun _ _ h => h4 _ _ (hsub _ _ h), hk.trans h5 (by have := hk.1; omega)⟩

theorem finish_New (i e) : Source.New_func.finishM (.ret [.obj i, .err e]) = .ok (.tuple [.obj i, .err e]) := rfl

theorem either_pos.{u} {P Q : Prop} [Decidable P] [Decidable Q] {α : Sort u} (h : P ∨ Q) (a b : α) : (if P then a else if Q then a else b) = a := by
  rcases h with h | h
  · rw [if_pos h]
  · rw [if_pos h, ite_self]

theorem either_neg.{u} {P Q : Prop} [Decidable P] [Decidable Q] {α : Sort u} (h : ¬(P ∨ Q)) (a b : α) : (if P then a else if Q then a else b) = b := by
  rw [if_neg fun h' => h (.inl h'), if_neg fun h' => h (.inr h')]

/-- fasttld.go:403-434 -/
theorem impl_New (hB : Big w B) (h65 : 65 < B) (hr : Spec.IsRounding round) (n : SuffixListParams) (m : Mem) (A : Arrays) (O D)
    (hh : ∀ incl, Short B f (rulesOf idna incl texts.hardcodedPSL)) (hl : ∀ p text t, ok (.sys (.readFile p (some text)) t) → ∀ incl, Short B f (rulesOf idna incl text)) :
    Impl ok (FastMade m ⟨A, O, D⟩) m (callSys round CT (f + 6) .New [.listParams n] ⟨A, O, D⟩) (newL idna texts.toIdnaTexts texts.hardcodedPSL n) := by
  rw [callSys_text (F := Source.New_func) (f := f + 5) rfl rfl _ rfl, newL_eq]
  change Impl _ _ _ (endX CT (callSys round CT (f + 5)) (f + 5) Source.New_func D (.seq Source.New_1 <| .seq Source.New_2 <| newEnd) [.listParams n] ⟨A, O, []⟩) _
  simp -implicitDefEqProofs [endX, Source.New_1, effx_ask_app, effx_newObj_app]
  refine .mem (fun hm => ?_) fun root m1 hd => ?_
  · obtain ⟨N, hN⟩ := hm
    exact ⟨N, _, hN N (Nat.le_refl _), rfl⟩
  obtain ⟨hroot, rfl⟩ := hd
  have hsub0 : m.nodes.Sub (m.nodes.put root ⟨false, []⟩) := sub_put hroot
  have htrie : TrieAt { m with nodes := m.nodes.put root ⟨false, []⟩ } root (.node false []) := by
    have hruns : Fasttld.Runs (buildTrieH []) m root { m with nodes := m.nodes.put root ⟨false, []⟩ } := by
      rw [buildTrieH_eq]
      exact .call ⟨hroot, rfl⟩ (.call (o := .scan root) (b := []) ⟨⟨false, []⟩, put_same _ _ _, List.Perm.refl _, rfl⟩ (.ret _ _))
    exact ⟨[], (Props.C51_build [] hruns).1, rfl⟩
  have ho : ∀ x : Obj, (O ++ [x])[O.length]? = some x := by intro x; simp
  have hkeep : ∀ x : Obj, Keeps O (O ++ [x]) O.length := fun x => .append _ _
  have hlen : ∀ x : Obj, O.length ≤ (O ++ [x]).length := by intro x; simp
  have hset : ∀ x y : Obj, (O ++ [x]).set O.length y = O ++ [y] := by intro x y; simp
  generalize m.nodes.put root ⟨false, []⟩ = nodes1 at hsub0 htrie ⊢
  simp -implicitDefEqProofs [Source.New_2, effx_getObj_app (ho _)]
  rw [effx_bind_prog (run_checkCacheFile (f + 2) hr _ _)]
  refine Impl.ofL _ fun r => ?_
  obtain ⟨valid, age⟩ := r
  cases valid with
  | true =>
    simp -implicitDefEqProofs
    rw [← lbind_ret (finishNewL _ _ _ _ _)]
    refine Impl.bind (impl_newEnd f hB n _ A O _ [] O.length _ _ (ho _) (hkeep _) rfl rfl hh hl) fun m2 v r h => ?_
    obtain ⟨j, A2, O2, o2, rfl, h1, h2, h3, h4, h5⟩ := h
    simp -implicitDefEqProofs [EffX.next, finish_New, effx_deferred_app, effx_setDeferred_app, effx_ok_app]
    exact .ret ⟨j, A2, O2, o2, rfl, h1, h2, h3, fun _ _ h => h4 _ _ (hsub0 _ _ h), h5⟩
  | false =>
    simp -implicitDefEqProofs [effx_sys_app, table_fileName]
    refine .sys fun d _ _ => .sys fun b t _ => ?_
    cases b with
    | false =>
      simp -implicitDefEqProofs [folderVal]
      rw [← lbind_ret (newHardcodedPSLL _ _ _ _ _)]
      refine Impl.bind (impl_newHardcodedPSL f hB (some t) n _ A _ _ hh hl) fun m2 v r h => ?_
      obtain ⟨j, A2, O2, o2, rfl, h1, h2, h3, h4, h5⟩ := h
      simp -implicitDefEqProofs [EffX.next, finish_New, effx_deferred_app, effx_setDeferred_app, effx_ok_app]
      exact .ret ⟨j, A2, O2, o2, rfl, h1, h2, h3, fun _ _ h => h4 _ _ (hsub0 _ _ h), (hkeep _).trans h5 (hlen _)⟩
    | true =>
      simp -implicitDefEqProofs [folderVal, effx_deferred_app, effx_setDeferred_app, storeX_path1, effx_getObj_app (ho _), effx_setObj_app, hset]
      rw [effx_bind_prog (run_checkCacheFile (f + 2) hr _ _)]
      refine Impl.ofL _ fun r => ?_
      obtain ⟨valid, age⟩ := r
      have hage : Spec.hours round (Spec.saturate age) > 72 ↔ age > pslMaxAge := hours_iff hr age
      have hcond : (valid = false ∨ pslMaxAge < age) ↔ (valid = false ∨ 72 < Spec.hours round (Spec.saturate age)) := or_congr_right hage.symm
      by_cases hup : valid = false ∨ pslMaxAge < age
      · rw [if_pos hup]
        simp -implicitDefEqProofs [table_maxAge]
        rw [either_pos (hcond.1 hup)]
        refine Impl.bind (impl_Update f hB h65 _ A _ _ O.length ⟨d ++ defaultPSLFileName, root, n.includePrivateSuffix⟩
          ⟨d ++ defaultPSLFileName, .node false [], n.includePrivateSuffix⟩ (ho _) ⟨rfl, rfl, htrie⟩ hh hl) fun m2 v r h => ?_
        obtain ⟨A2, o2, rfl, hObj, hroot2, hsub2⟩ := h
        obtain ⟨F2, e⟩ := r
        cases e with
        | none =>
          simp -implicitDefEqProofs [EffX.next, hset, finish_New, effx_deferred_app, effx_setDeferred_app, effx_effect_app, effx_ok_app]
          exact .effect (.ret ⟨O.length, A2, _, o2, rfl, ho o2, hObj, hroot2, fun _ _ h => hsub2 _ _ (hsub0 _ _ h), hkeep _⟩)
        | some e =>
          simp -implicitDefEqProofs [EffX.next, hset, effx_deferred_app, effx_setDeferred_app, effx_effect_app, effx_ok_app]
          refine Impl.bind (impl_newHardcodedPSL f hB none n _ A2 _ _ hh hl) fun m3 v r h => ?_
          obtain ⟨j, A3, O3, o3, rfl, h1, h2, h3, h4, h5⟩ := h
          simp -implicitDefEqProofs [EffX.next, finish_New, effx_deferred_app, effx_setDeferred_app, effx_effect_app, effx_ok_app]
          exact .effect (.ret ⟨j, A3, O3, o3, rfl, h1, h2, h3.trans hroot2, fun _ _ h => h4 _ _ (hsub2 _ _ (hsub0 _ _ h)), (hkeep _).trans h5 (hlen _)⟩)
      · rw [if_neg hup]
        simp -implicitDefEqProofs [table_maxAge]
        rw [either_neg (mt hcond.2 hup)]
        refine Impl.bind (impl_newEnd f hB n _ A O _ [(.Close, [.folder])] O.length ⟨d ++ defaultPSLFileName, root, n.includePrivateSuffix⟩
          ⟨d ++ defaultPSLFileName, .node false [], n.includePrivateSuffix⟩ (ho _) (hkeep _) rfl rfl hh hl) fun m2 v r h => ?_
        obtain ⟨j, A2, O2, o2, rfl, h1, h2, h3, h4, h5⟩ := h
        simp -implicitDefEqProofs [EffX.next, finish_New, effx_deferred_app, effx_setDeferred_app, effx_effect_app, effx_ok_app]
        exact .effect (.ret ⟨j, A2, O2, o2, rfl, h1, h2, h3, fun _ _ h => h4 _ _ (hsub0 _ _ h), h5⟩)

end Fasttld.GoLang
