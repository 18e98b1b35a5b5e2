import Verif.Proofs.SourceSysImpl

/-!
# Running the text of trieConstruct with the operating system
-/

set_option linter.unusedSimpArgs false

namespace Fasttld.GoLang
open Fasttld

section
variable {α β : Type}

theorem effx_up_app (M : Eff α) (k : α → EffX β) (A O D) : (EffX.up M).bind k ⟨A, O, D⟩ = (MProg.toX (M A)).bind fun
    | .ok (a, A') => k a ⟨A', O, D⟩
    | .error t => .ret (.error t) := by
  simp only [EffX.bind, EffX.up, xbind_assoc]
  congr 1; funext r
  rcases r with t | ⟨a, A'⟩ <;> rfl

theorem eff_bind_ok (M : Eff α) : M.bind Eff.ok = M := by
  funext A
  show MProg.bind _ _ = _
  generalize M A = p
  induction p with
  | ret a => rcases a with t | ⟨a, A'⟩ <;> rfl
  | call o k ih => exact congrArg _ (funext ih)
end

theorem mbind_ret {α : Type} (p : MProg α) : p.bind .ret = p := by
  induction p with
  | ret a => rfl
  | call o k ih => exact congrArg _ (funext ih)

variable {round : Rat → Rat} {w : Nat} {idna : Idna} {texts : Lib} {isPrint : Nat → Bool} {B : Int} (f n : Nat)

local notation "CT" => tableCtx w idna texts isPrint

theorem up_range (x y z u v q : Val) (root : Ref) : ∀ (l : List (Nat × Bytes)),
    rangeOutX CT (callSys round CT (f + 1)) (f + 1) Source.trieConstruct_loop1 "_" "suffix" (l.map fun p => .pair (.num .int p.1) (.str p.2)) (buildEnv x y z u v q root) =
    EffX.up (rangeOutM CT (callMem CT (f + 1)) n Source.trieConstruct_loop1 "_" "suffix" (l.map fun p => .pair (.num .int p.1) (.str p.2)) (buildEnv x y z u v q root)) := by
  intro l
  induction l with
  | nil => rfl
  | cons p l ih =>
    simp only [List.map_cons, rangeOutX_cons, rangeOutM_cons]
    generalize rangeOutX _ _ _ _ _ _ (List.map _ _) = M at ih ⊢
    generalize rangeOutM _ _ _ _ _ _ (List.map _ _) = M' at ih ⊢
    simp -implicitDefEqProofs [Item.get, Source.trieConstruct_loop1, callSys_reverse, callSys_nestedDict]
    simp only [buildEnv] at ih
    simp only [ih]

theorem up_scan (x y z u v q : Val) (root : Ref) : ∀ (l : List (Bytes × Ref)),
    scanOutX CT (callSys round CT (f + 1)) (f + 1) Source.trieConstruct_loop2 l (buildEnv x y z u v q root) =
    EffX.up (scanOutM CT (callMem CT (f + 1)) n Source.trieConstruct_loop2 l (buildEnv x y z u v q root)) := by
  intro l
  induction l with
  | nil => rfl
  | cons p l ih =>
    simp only [scanOutX_cons, scanOutM_cons]
    generalize scanOutX _ _ _ _ l = M at ih ⊢
    generalize scanOutM _ _ _ _ l = M' at ih ⊢
    simp only [buildEnv] at ih
    simp -implicitDefEqProofs [Source.trieConstruct_loop2, callSys_Get, callMem_Get]
    refine congrArg (EffX.bind _) (funext fun r => ?_)
    cases r with
    | none => simp [ih]
    | some r => simp [ih, storeX]

/-- The pointer leads to the trie. -/
def TrieAt (m : Mem) (r : Ref) (t : Trie) : Prop := ∃ rules, Spec.Holds m.nodes r rules ∧ t = buildTrie rules

/-- The results of trieConstruct, and what else is true then. -/
def TrieMade (m : Mem) (S : Local) (m' : Mem) (v : Comp (Val × Local)) (r : Trie × Option TextErr) : Prop :=
  ∃ p A, v = .ok (.tuple [.ptr p, .err (r.2.map Prod.snd)], { S with arrays := A }) ∧ TrieAt m' p r.1 ∧ m'.root = m.root ∧ m.nodes.Sub m'.nodes

/-- fasttld.go:125-138 -/
def trieRest : Stmt := .seq Source.trieConstruct_9 <| .seq Source.trieConstruct_10 <| .seq Source.trieConstruct_11 <| .skip

variable {ok : LEvent → Prop}

/-- fasttld.go:125-138 for the new node `root`. -/
theorem impl_rest (hB : Big w B) (x y z u v : Val) (l : List Bytes) (root : Ref) (m : Mem) (A : Arrays) (O D)
    (hl : ∀ s ∈ l, (splitByte 46 s).length < B ∧ (splitByte 46 s).length + 1 ≤ f) (hroot : m.nodes root = none) :
    Impl ok (TrieMade m ⟨A, O, D⟩) { m with nodes := m.nodes.put root ⟨false, []⟩ }
      (endX CT (callSys round CT (f + 2)) (f + 2) Source.trieConstruct_func D trieRest (buildEnv x y z u v (.strs l) root) ⟨A, O, []⟩)
      (.ret (buildTrie l, none)) := by
  have hwp := buildTrieH_wp l (O := fun _ => none) (fun _ => rfl)
  rw [buildTrieH_eq] at hwp
  have hwp := hwp root rfl
  dsimp only at hwp
  have hs : (Nodes.put (fun _ => none) root ⟨false, []⟩).Sub (m.nodes.put root ⟨false, []⟩) := by
    intro r nd h
    by_cases hr : r = root
    · subst hr; rwa [put_same] at h ⊢
    · rw [put_other _ _ hr] at h; cases h
  have h1 := up_range (round := round) (w := w) (idna := idna) (texts := texts) (isPrint := isPrint) (f + 1) 0 x y z u v (.strs l) root (enumStrs 0 l)
  rw [trieRest, endX_seq]
  simp only [Source.trieConstruct_9, execX_range, evalX, buildEnv, getVar_succ, getVar_zero, effx_lift_ok, effx_ok_bind, rangeOverM_strs, effx_up_ok]
  simp only [buildEnv] at h1
  rw [h1, effx_up_app]
  have hsim := loop_insertAll (idna := idna) (texts := texts) (isPrint := isPrint) (K := Eff.ok) (R := fun a (_ : Unit) => ∃ A', a = .ok (.norm (buildEnv x y z u v (.strs l) root), A'))
    (g := .ret) f 0 hB x y z u v (.strs l) root (fun A => .ret ⟨A, rfl⟩) l 0 A hl
  rw [eff_bind_ok, mbind_ret] at hsim
  refine Impl.ofSim hsim (wp_split hwp) hs fun a b m1 O1 ha hr1 hp1 hs1 => ?_
  obtain ⟨A1, rfl⟩ := ha
  change Impl _ _ m1 (endX CT (callSys round CT (f + 2)) (f + 2) Source.trieConstruct_func D (.seq Source.trieConstruct_10 <| .seq Source.trieConstruct_11 <| .skip)
    (buildEnv x y z u v (.strs l) root) ⟨A1, O, []⟩) _
  have hk : Source.trieConstruct_loop2.keeps 7 = true := by decide +kernel
  rw [endX_seq, Source.trieConstruct_10, execX_scan]
  simp only [buildEnv, evalX, getVar_succ, getVar_zero, effx_lift_ok, effx_ok_bind, getFieldX_matches, List.length_cons, List.length_nil, hk, if_true, effx_bind_assoc, effx_ask_app]
  refine .mem (fun hm => MOp.safe_can hp1 hs1 hm) fun es m2 hd => ?_
  rcases MOp.safe_step hp1 hs1 hd with ⟨_, hf, -⟩ | ⟨O2, h2, -, hs2, -⟩
  · exact hf.elim
  have h3 := up_scan (round := round) (w := w) (idna := idna) (texts := texts) (isPrint := isPrint) (f + 1) 0 x y z u v (.strs l) root es
  simp only [buildEnv] at h3
  rw [h3, effx_up_app]
  have hsim2 := loop_markAll (w := w) (idna := idna) (texts := texts) (isPrint := isPrint) (K := Eff.ok) (R := fun a (_ : Unit) => a = .ok (.norm (buildEnv x y z u v (.strs l) root), A1))
    (g := .ret) (f + 1) 0 x y z u v (.strs l) root A1 (.ret rfl) es
  rw [eff_bind_ok, mbind_ret] at hsim2
  refine Impl.ofSim hsim2 (wp_split h2) hs2 fun a b m3 O3 ha hr3 hp3 hs3 => ?_
  subst ha
  have hruns : Fasttld.Runs (buildTrieH l) m root m3 := by
    rw [buildTrieH_eq]
    exact .call ⟨hroot, rfl⟩ (runs_join hr1 (.call hd (runs_join hr3 (.ret _ _))))
  obtain ⟨c1, -, c3, c4⟩ := Props.C51_build l hruns
  exact .ret ⟨root, A1, rfl, ⟨l, c1, rfl⟩, c3, c4⟩

theorem lbind_assoc {α β γ : Type} (p : LProg α) (f : α → LProg β) (g : β → LProg γ) : (p.bind f).bind g = p.bind fun a => (f a).bind g := by
  induction p with
  | ret a => rfl
  | call o k ih => exact congrArg (LProg.call o) (funext fun b => funext fun t => ih b t)
  | effect e k ih => exact congrArg (LProg.effect e) ih

/-- fasttld.go:113-138 -/
def trieAfter : Stmt := .seq Source.trieConstruct_6 <| .seq Source.trieConstruct_7 <| .seq Source.trieConstruct_8 <| trieRest

theorem impl_after (hB : Big w B) (incl : Bool) (path text : Bytes) (root : Ref) (m : Mem) (A A' : Arrays) (O D)
    (hl : ∀ s ∈ rulesOf idna incl text, (splitByte 46 s).length < B ∧ (splitByte 46 s).length + 1 ≤ f) (hroot : m.nodes root = none) :
    Impl ok (TrieMade m ⟨A', O, D⟩) { m with nodes := m.nodes.put root ⟨false, []⟩ }
      (endX CT (callSys round CT (f + 2)) (f + 2) Source.trieConstruct_func D trieAfter
        [.bool incl, .str path, .emptyMap, .ptr root, .suffixes (parsePSL idna text), .err none] ⟨A, O, []⟩)
      (.ret (buildTrie (rulesOf idna incl text), none)) := by
  rw [trieAfter, endX_skip (vs' := [.bool incl, .str path, .emptyMap, .ptr root, .suffixes (parsePSL idna text), .err none])
    (h := by simp -implicitDefEqProofs [Source.trieConstruct_6])]
  rw [endX_skip (vs' := [.bool incl, .str path, .emptyMap, .ptr root, .suffixes (parsePSL idna text), .err none, .strs []]) (h := rfl)]
  rw [endX_skip (vs' := [.bool incl, .str path, .emptyMap, .ptr root, .suffixes (parsePSL idna text), .err none, .strs (rulesOf idna incl text)])
    (h := by cases incl <;> simp -implicitDefEqProofs [Source.trieConstruct_8, rulesOf])]
  exact impl_rest f hB _ _ _ _ _ _ root m A O D hl hroot

theorem trieConstructL_hard (incl : Bool) (tx : IdnaTexts) (hard : Bytes) : trieConstructL idna tx hard incl [] =
    (logAll (parseLog idna tx hard) >>= fun _ => .ret (buildTrie (rulesOf idna incl hard), none)) := by
  show LProg.bind (LProg.bind _ _) _ = _
  rw [lbind_assoc]
  rfl

theorem trieConstructL_file (incl : Bool) (tx : IdnaTexts) (hard path : Bytes) (hp : path ≠ []) : trieConstructL idna tx hard incl path =
    .call (.readFile path) fun b t => match b with
      | none => .effect (.log t) (.effect (.log t) (.ret (.node false [], some (.readFile, t))))
      | some text => logAll (parseLog idna tx text) >>= fun _ => .ret (buildTrie (rulesOf idna incl text), none) := by
  unfold trieConstructL
  rw [if_pos hp]
  show LProg.call _ _ = _
  refine congrArg (LProg.call _) (funext fun b => funext fun t => ?_)
  cases b with
  | none => rfl
  | some text =>
    show LProg.bind (LProg.bind (logAll (parseLog idna tx text)) _) _ = _
    rw [lbind_assoc]
    rfl

/-- fasttld.go:101-139 -/
theorem impl_trieConstruct (hB : Big w B) (incl : Bool) (path : Bytes) (m : Mem) (A : Arrays) (O D)
    (hl : ∀ p text t, ok (.sys (.readFile p (some text)) t) → ∀ s ∈ rulesOf idna incl text, (splitByte 46 s).length < B ∧ (splitByte 46 s).length + 1 ≤ f + 1)
    (hh : ∀ s ∈ rulesOf idna incl texts.hardcodedPSL, (splitByte 46 s).length < B ∧ (splitByte 46 s).length + 1 ≤ f + 1) :
    Impl ok (TrieMade m ⟨A, O, D⟩) m (callSys round CT (f + 4) .trieConstruct [.bool incl, .str path] ⟨A, O, D⟩)
      (trieConstructL idna texts.toIdnaTexts texts.hardcodedPSL incl path) := by
  rw [callSys_text (F := Source.trieConstruct_func) (f := f + 3) rfl rfl _ rfl]
  change Impl _ _ _ (endX CT (callSys round CT (f + 3)) (f + 3) Source.trieConstruct_func D (.seq Source.trieConstruct_1 <| .seq Source.trieConstruct_2 <|
    .seq Source.trieConstruct_3 <| .seq Source.trieConstruct_4 <| .seq Source.trieConstruct_5 trieAfter) [.bool incl, .str path] ⟨A, O, []⟩) _
  rw [endX_skip (vs' := [.bool incl, .str path, .emptyMap]) (h := rfl), endX_seq]
  simp -implicitDefEqProofs only [Source.trieConstruct_2, execX_define, rhsX, evalsX, evalX, getVar_succ, getVar_zero, effx_lift_ok, effx_ok_bind, effx_bind_assoc, effx_ask_app]
  refine .mem (fun hm => ?_) fun root m1 hd => ?_
  · obtain ⟨N, hN⟩ := hm
    exact ⟨N, _, hN N (Nat.le_refl _), rfl⟩
  obtain ⟨hroot, rfl⟩ := hd
  change Impl _ _ _ (endX CT (callSys round CT (f + 3)) (f + 3) Source.trieConstruct_func D (.seq Source.trieConstruct_3 <| .seq Source.trieConstruct_4 <|
    .seq Source.trieConstruct_5 trieAfter) [.bool incl, .str path, .emptyMap, .ptr root] ⟨A, O, []⟩) _
  rw [endX_skip (vs' := [.bool incl, .str path, .emptyMap, .ptr root, .suffixes ⟨[], [], []⟩]) (h := rfl)]
  rw [endX_skip (vs' := [.bool incl, .str path, .emptyMap, .ptr root, .suffixes ⟨[], [], []⟩, .err none]) (h := rfl), endX_seq]
  by_cases hp : path = []
  · subst hp
    rw [trieConstructL_hard]
    simp -implicitDefEqProofs [Source.trieConstruct_5, run_getHardcoded_sys]
    refine Impl.ofL _ fun _ => ?_
    exact impl_after (f + 1) hB incl [] texts.hardcodedPSL root m _ A O D hh hroot
  · rw [trieConstructL_file _ _ _ _ hp]
    simp -implicitDefEqProofs [Source.trieConstruct_5, hp, run_getPublic_sys]
    refine .sys fun b t hok => ?_
    cases b with
    | some text =>
      refine Impl.ofL _ fun _ => ?_
      exact impl_after (f + 1) hB incl path text root m _ A O D (hl _ _ _ hok) hroot
    | none =>
      refine .effect ?_
      simp -implicitDefEqProofs [trieAfter, Source.trieConstruct_6, effx_effect_app]
      refine .effect (.ret ?_)
      have hruns : Fasttld.Runs (buildTrieH []) m root { m with nodes := m.nodes.put root ⟨false, []⟩ } := by
        rw [buildTrieH_eq]
        exact .call ⟨hroot, rfl⟩ (.call (o := .scan root) (b := []) ⟨⟨false, []⟩, put_same _ _ _, List.Perm.refl _, rfl⟩ (.ret _ _))
      obtain ⟨c1, -, c3, c4⟩ := Props.C51_build [] hruns
      exact ⟨root, A, rfl, ⟨[], c1, rfl⟩, c3, c4⟩

end Fasttld.GoLang
