import Verif.Proofs.SourceMem
import Verif.Proofs.Build

/-!
# Running the text of nestedDict and trieConstruct
-/

set_option linter.unusedSimpArgs false

namespace Fasttld.GoLang
open Fasttld

variable {w : Nat} {idna : Idna} {texts : Lib} {isPrint : Nat → Bool} {B : Int}

section
variable (f n : Nat)

local notation "CT" => tableCtx w idna texts isPrint

/-- The loop of nestedDict over the keys from number `i` on, and what comes after it. -/
theorem loop_nestedDict (a : Nat) (l : List Bytes) (A : Arrays) (hA : A[a]? = some l) {R : Comp (Val × Arrays) → Unit → Prop}
    {K : Out → Eff Val} (hK : ∀ d : Ref, Sim R (K (.norm [.ptr d, .array a]) A) (MOp.setEnd d).ask)
    (hN : ∃ k, K (.norm [.err none, .array a]) A = .call .nil k) :
    ∀ (keys : List Bytes) (i : Nat) (dic : Ref), l.drop i = keys →
    Sim R (((rangeOutM CT (callMem CT (f + 1)) n Source.nestedDict_loop1 "_" "key" ((List.range' i keys.length).map (Item.elem a))
      [.ptr dic, .array a]).bind K) A) (nestedDictH dic keys) := by
  intro keys
  induction keys with
  | nil =>
    intro i dic _
    simp [nestedDictH]
    exact hK dic
  | cons key keys ih =>
    intro i dic hd
    have hget : l[i]? = some key := by
      have := congrArg List.head? hd
      simpa [List.head?_drop] using this
    have hd' : l.drop (i + 1) = keys := by
      have := congrArg List.tail hd
      simpa [List.tail_drop] using this
    have hi : i < l.length := (List.getElem?_eq_some_iff.1 hget).1
    have h2 : ∀ (d : Ref), Sim R (((rangeOutM CT (callMem CT (f + 1)) n Source.nestedDict_loop1 "_" "key"
        ((List.range' (i + 1) keys.length).map (Item.elem a)) [.ptr d, .array a]).bind K) A) (nestedDictH d keys) := fun d => ih (i + 1) d hd'
    have h3 : ∃ k, ((rangeOutM CT (callMem CT (f + 1)) n Source.nestedDict_loop1 "_" "key"
        ((List.range' (i + 1) keys.length).map (Item.elem a)) [.err none, .array a]).bind K) A = .call .nil k := by
      cases keys with
      | nil => simpa using hN
      | cons k2 keys =>
        have hget2 : l[i + 1]? = some k2 := by
          have := congrArg List.head? hd'
          simpa [List.head?_drop] using this
        simp only [List.length_cons, List.range'_succ, List.map_cons, rangeOutM_cons]
        generalize rangeOutM _ _ _ _ _ _ (List.map _ _) = L
        have hpos : 0 ≤ (i : Int) + 1 := by omega
        simp [hpos, Item.get, eff_elems_bind_app hA, indexVal, hget2, Source.nestedDict_loop1]
        exact ⟨_, rfl⟩
    simp only [List.length_cons, List.range'_succ, List.map_cons, rangeOutM_cons]
    generalize rangeOutM _ _ _ _ _ _ (List.map _ _) = L at h2 h3 ⊢
    simp [Item.get, eff_elems_bind_app hA, indexVal, hget, Source.nestedDict_loop1, callMem_Get]
    have e : nestedDictH dic (key :: keys) = .call (.get dic key) fun
        | some _ => .call (.get dic key) fun
          | some d => nestedDictH d keys
          | none => MOp.nil.ask
        | none => .call .alloc fun m => .call (.set dic key m) fun _ => .call (.get dic key) fun
          | some d => nestedDictH d keys
          | none => MOp.nil.ask := by
      show MProg.bind (ensureH dic key) _ = _
      simp only [ensureH, MOp.ask, bind, MProg.bind]
      congr 1; funext x
      cases x <;> rfl
    have h4 : Sim R (((Eff.ask (.get dic key)).bind fun x => (L [typedAs (.ptr dic) ((x.map Val.ptr).getD (.err none)), .array a]).bind K) A)
        (.call (.get dic key) fun
          | some d => nestedDictH d keys
          | none => MOp.nil.ask) := by
      rw [eff_ask_bind_app]
      refine .call _ fun x => ?_
      cases x with
      | some d => simpa using h2 d
      | none =>
        obtain ⟨k, hk⟩ := h3
        simp [hk]
        exact .nil _ _
    rw [e, eff_ask_bind_app]
    refine .call _ fun x => ?_
    cases x with
    | some d => simpa [callMem_Get] using h4
    | none =>
      simp [callMem_Get]
      rw [eff_ask_bind_app]
      refine .call _ fun m => ?_
      rw [eff_ask_bind_app]
      refine .call _ fun _ => ?_
      simpa using h4

/-- fasttld.go:85-96 -/
theorem run_nestedDict (a : Nat) (l : List Bytes) (A : Arrays) (hA : A[a]? = some l) (dic : Ref) :
    Sim (fun v _ => v = .ok (.tuple [], A)) (callMem CT (f + 2) .nestedDict [.ptr dic, .array a] A) (nestedDictH dic l) := by
  show Sim _ (Func.runM CT (callMem CT (f + 1)) (f + 1) Source.nestedDict_func [.ptr dic, .array a] A) _
  simp [Func.runM, Source.nestedDict_func, Func.start, Func.args, Source.nestedDict_1, rangeOverM, eff_elems_bind_app hA, List.range_eq_range']
  refine loop_nestedDict f (f + 1) a l A hA (fun d => ?_) ?_ l 0 dic rfl
  · simp [Source.nestedDict_2]
    rw [eff_ask_bind_app]
    exact .call _ fun _ => .ret rfl
  · exact ⟨_, rfl⟩
/-- The variables of trieConstruct when the trie is built. -/
@[simp] def buildEnv (x y z u v l : Val) (root : Ref) : Vars := [x, y, z, .ptr root, u, v, l]

theorem insertAllH_cons (root : Ref) (s : Bytes) (l : List Bytes) :
    insertAllH root (s :: l) = (nestedDictH root (reverse (splitByte 46 s))).bind fun _ => insertAllH root l := rfl

/-- fasttld.go:125-129 -/
theorem loop_insertAll (hB : Big w B) (x y z u v q : Val) (root : Ref) {α δ : Type} {R : Comp (δ × Arrays) → α → Prop} {K : Out → Eff δ}
    {g : Unit → MProg α} (hK : ∀ A, Sim R (K (.norm (buildEnv x y z u v q root)) A) (g ())) :
    ∀ (l : List Bytes) (i : Nat) (A : Arrays), (∀ s ∈ l, (splitByte 46 s).length < B ∧ (splitByte 46 s).length + 1 ≤ f) →
    Sim R (((rangeOutM CT (callMem CT (f + 2)) n Source.trieConstruct_loop1 "_" "suffix"
      ((enumStrs i l).map fun p => .pair (.num .int p.1) (.str p.2)) (buildEnv x y z u v q root)).bind K) A)
      ((insertAllH root l).bind g) := by
  intro l
  induction l with
  | nil => intro i A _; exact hK A
  | cons s l ih =>
    intro i A hl
    have hs := hl s (by simp)
    have h2 := fun A => ih (i + 1) A (fun s hs => hl s (by simp [hs]))
    rw [insertAllH_cons, mbind_assoc]
    simp only [enumStrs, List.map_cons, rangeOutM_cons]
    generalize rangeOutM _ _ _ _ _ _ (List.map _ _) = L at h2 ⊢
    simp [Item.get, Source.trieConstruct_loop1, eff_newArray_bind_app]
    have hget : (A ++ [splitByte 46 s])[A.length]? = some (splitByte 46 s) := by simp
    have hrev := run_reverse (idna := idna) (texts := texts) (isPrint := isPrint) hB f A.length (splitByte 46 s) (A ++ [splitByte 46 s]) hget hs.1 hs.2
    rw [eff_bind_app hrev]
    refine Sim.bind (run_nestedDict f A.length (reverse (splitByte 46 s)) _ (by simp) root) fun a b h => ?_
    subst h
    simpa [Eff.next] using h2 _

theorem markAllH_cons (k : Bytes) (value : Ref) (l : List (Bytes × Ref)) : markAllH ((k, value) :: l) = .call (.get value [42]) fun x =>
    if x.isSome then .call (.setEnd value) fun _ => markAllH l else markAllH l := by
  show MProg.call _ _ = _
  congr 1; funext x
  cases x <;> rfl

/-- fasttld.go:131-136 -/
theorem loop_markAll (x y z u v q : Val) (root : Ref) {α δ : Type} {R : Comp (δ × Arrays) → α → Prop} {K : Out → Eff δ}
    {g : Unit → MProg α} (A : Arrays) (hK : Sim R (K (.norm (buildEnv x y z u v q root)) A) (g ())) :
    ∀ (l : List (Bytes × Ref)),
    Sim R (((scanOutM CT (callMem CT (f + 1)) n Source.trieConstruct_loop2 l (buildEnv x y z u v q root)).bind K) A)
      ((markAllH l).bind g) := by
  intro l
  induction l with
  | nil => exact hK
  | cons e l ih =>
    obtain ⟨k, value⟩ := e
    rw [markAllH_cons, scanOutM_cons]
    generalize scanOutM _ _ _ _ l = L at ih ⊢
    simp [Source.trieConstruct_loop2, callMem_Get]
    rw [eff_ask_bind_app]
    refine .call _ fun r => ?_
    cases r with
    | none => simpa using ih
    | some r =>
      simp
      rw [eff_ask_bind_app]
      refine .call _ fun _ => ?_
      simpa using ih

theorem buildTrieH_eq (l : List Bytes) : buildTrieH l = .call .alloc fun root => (insertAllH root l).bind fun _ => .call (.scan root) fun es =>
    (markAllH es).bind fun _ => .ret root := rfl

@[simp] theorem rangeOverM_strs (l : List Bytes) : rangeOverM (.strs l) = Eff.ok ((enumStrs 0 l).map fun p => .pair (.num .int p.1) (.str p.2)) := by
  simp only [rangeOverM, rangeOver, enumStrs_map]
  simp [Function.comp_def]

theorem callMem_list (k : Nat) (path : Bytes) : callMem CT (k + 1) .getPublicSuffixList [.str path] =
    Eff.lift (call CT Source.program (k + 1) .getPublicSuffixList [.str path]) := rfl
theorem callMem_builtin_list (k : Nat) : callMem CT (k + 1) .getHardcodedPublicSuffixList [] =
    Eff.lift (call CT Source.program (k + 1) .getHardcodedPublicSuffixList []) := rfl

/-- The end of trieConstruct, from a state. -/
def endBuild (c : Ctx) (cm : Fn → List Val → Eff Val) (n : Nat) (s : Stmt) (vs : Vars) : Eff Val :=
  (execM c cm n s vs).bind fun o => Eff.lift (Source.trieConstruct_func.finishM o)

theorem endBuild_seq (c : Ctx) (cm n a b vs) : endBuild c cm n (.seq a b) vs = (execM c cm n a vs).bind fun o => 
    (Out.andThenM (fun vs => execM c cm n b vs) o).bind fun o => Eff.lift (Source.trieConstruct_func.finishM o) := by
  simp [endBuild]

theorem endBuild_skip (c : Ctx) (cm n a b vs vs') (h : execM c cm n a vs = Eff.ok (.norm vs')) : endBuild c cm n (.seq a b) vs = endBuild c cm n b vs' := by
  simp [endBuild_seq, h]; rfl

theorem callMem_trieConstruct (k : Nat) (incl : Bool) (path : Bytes) : callMem CT (k + 1) .trieConstruct [.bool incl, .str path] =
    endBuild CT (callMem CT k) k Source.trieConstruct_func.body [.bool incl, .str path] := rfl

theorem exec_list (incl : Bool) (path text : Bytes) (ht : listText texts path = .ok text) (root : Ref) (x : Val) :
    execM CT (callMem CT (f + 3)) n Source.trieConstruct_5 [.bool incl, .str path, x, .ptr root, .suffixes ⟨[], [], []⟩, .err none] =
    Eff.ok (.norm [.bool incl, .str path, x, .ptr root, .suffixes (parsePSL idna text), .err none]) := by
  have h1 := run_getPublicSuffixList (c := CT) f path
  have h2 := run_getHardcodedPublicSuffixList (c := CT) f
  by_cases hp : path = []
  · subst hp
    simp [listText] at ht
    simp [Source.trieConstruct_5, callMem_builtin_list, h2, ht]
  · simp [listText, hp] at ht
    have h3 : (CT).texts.readFile path = .ok text := ht
    rw [h3] at h1
    simp [Source.trieConstruct_5, callMem_list, h1, hp]

theorem exec_alloc (x y : Val) (cm : Fn → List Val → Eff Val) {β : Type} (k : Out → Eff β) (A : Arrays) :
    (execM CT cm n Source.trieConstruct_2 [x, y, .emptyMap]).bind k A = .call .alloc fun root => k (.norm [x, y, .emptyMap, .ptr root]) A := by
  simp [Source.trieConstruct_2]
  rfl

theorem exec_scan (x y z u v q : Val) (root : Ref) (cm : Fn → List Val → Eff Val) {β : Type} (k : Out → Eff β) (A : Arrays) :
    (execM CT cm n Source.trieConstruct_10 (buildEnv x y z u v q root)).bind k A = .call (.scan root) fun es =>
      ((scanOutM CT cm n Source.trieConstruct_loop2 es (buildEnv x y z u v q root)).bind k) A := by
  have h : Source.trieConstruct_loop2.keeps 7 = true := by decide +kernel
  simp [Source.trieConstruct_10, execM_scan, h]
  rw [eff_ask_bind_app]

theorem exec_noError (x y z u : Val) (root : Ref) (cm : Fn → List Val → Eff Val) :
    execM CT cm n Source.trieConstruct_6 [x, y, z, .ptr root, u, .err none] = Eff.ok (.norm [x, y, z, .ptr root, u, .err none]) := by
  simp [Source.trieConstruct_6]

theorem exec_choose (incl : Bool) (p : Suffixes) (x y z : Val) (root : Ref) (cm : Fn → List Val → Eff Val) :
    execM CT cm n Source.trieConstruct_8 [.bool incl, x, y, .ptr root, .suffixes p, z, .strs []] =
    Eff.ok (.norm [.bool incl, x, y, .ptr root, .suffixes p, z, .strs (if incl then p.allSuffixes else p.publicSuffixes)]) := by
  cases incl <;> simp [Source.trieConstruct_8]

/-- fasttld.go:101-139 for a list that is read. -/
theorem run_trieConstruct (hB : Big w B) (incl : Bool) (path text : Bytes) (A : Arrays) (ht : listText texts path = .ok text)
    (hl : ∀ s ∈ rulesOf idna incl text, (splitByte 46 s).length < B ∧ (splitByte 46 s).length + 1 ≤ f + 1) :
    Sim Built (callMem CT (f + 4) .trieConstruct [.bool incl, .str path] A) (buildTrieH (rulesOf idna incl text)) := by
  rw [callMem_trieConstruct, buildTrieH_eq, Source.trieConstruct_func]
  rw [endBuild_skip (vs' := [.bool incl, .str path, .emptyMap]) (h := rfl), endBuild_seq]
  rw [exec_alloc]
  refine .call _ fun root => ?_
  change Sim _ (endBuild _ _ _ _ _ A) _
  rw [endBuild_skip (vs' := [.bool incl, .str path, .emptyMap, .ptr root, .suffixes ⟨[], [], []⟩]) (h := rfl)]
  rw [endBuild_skip (vs' := [.bool incl, .str path, .emptyMap, .ptr root, .suffixes ⟨[], [], []⟩, .err none]) (h := rfl)]
  rw [endBuild_skip (h := exec_list f _ incl path text ht root _)]
  rw [endBuild_skip (h := exec_noError _ _ _ _ _ root _)]
  rw [endBuild_skip (vs' := [.bool incl, .str path, .emptyMap, .ptr root, .suffixes (parsePSL idna text), .err none, .strs []]) (h := rfl)]
  rw [endBuild_skip (h := exec_choose _ incl _ _ _ _ root _), endBuild_seq]
  show Sim _ _ ((insertAllH root (if incl then _ else _)).bind _)
  simp only [Source.trieConstruct_9, execM_range, evalM, getVar_succ, getVar_zero, eff_lift_ok, eff_ok_bind, rangeOverM_strs]
  refine loop_insertAll (f + 1) _ hB _ _ _ _ _ _ root ?_ _ _ _ hl
  intro A'
  rw [andThenM_norm]
  change Sim _ (endBuild _ _ _ _ _ A') _
  rw [endBuild_seq, exec_scan]
  refine .call _ fun es => ?_
  refine loop_markAll (f + 2) _ _ _ _ _ _ _ root A' ?_ es
  exact .ret ⟨_, rfl⟩

theorem exec_listError (incl : Bool) (path e : Bytes) (ht : listText texts path = .error e) (root : Ref) (x : Val) :
    execM CT (callMem CT (f + 3)) n Source.trieConstruct_5 [.bool incl, .str path, x, .ptr root, .suffixes ⟨[], [], []⟩, .err none] =
    Eff.ok (.norm [.bool incl, .str path, x, .ptr root, .suffixes ⟨[], [], []⟩, .err (some e)]) := by
  have h1 := run_getPublicSuffixList (c := CT) f path
  by_cases hp : path = []
  · simp [listText, hp] at ht
  · simp [listText, hp] at ht
    have h3 : (CT).texts.readFile path = .error e := ht
    rw [h3] at h1
    simp [Source.trieConstruct_5, callMem_list, h1, hp]

/-- fasttld.go:101-117 for a list that cannot be read. -/
theorem run_trieConstruct_error (incl : Bool) (path : Bytes) (e : Bytes) (A : Arrays) (ht : listText texts path = .error e) :
    callMem CT (f + 4) .trieConstruct [.bool incl, .str path] A =
      .call .alloc fun r => .ret (.ok (.tuple [.ptr r, .err (some e)], A)) := by
  rw [callMem_trieConstruct, Source.trieConstruct_func]
  rw [endBuild_skip (vs' := [.bool incl, .str path, .emptyMap]) (h := rfl), endBuild_seq]
  rw [exec_alloc]
  congr 1; funext root
  change endBuild _ _ _ _ _ A = _
  rw [endBuild_skip (vs' := [.bool incl, .str path, .emptyMap, .ptr root, .suffixes ⟨[], [], []⟩]) (h := rfl)]
  rw [endBuild_skip (vs' := [.bool incl, .str path, .emptyMap, .ptr root, .suffixes ⟨[], [], []⟩, .err none]) (h := rfl)]
  rw [endBuild_skip (h := exec_listError f _ incl path e ht root _), endBuild_seq]
  have h6 : ∀ x y z u : Val, execM CT (callMem CT (f + 3)) (f + 3) Source.trieConstruct_6 [x, y, z, .ptr root, u, .err (some e)] =
      Eff.ok (.ret [.ptr root, .err (some e)]) := by
    intro x y z u
    simp [Source.trieConstruct_6]
  rw [h6]
  rfl
end

end Fasttld.GoLang
