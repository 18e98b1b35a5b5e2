import Verif.Model.GoMem
import Verif.Proofs.SourcePsl
import Verif.Proofs.Reverse
import Verif.Spec.Accesses

/-!
# Running the text with memory: the basis, and reverse
-/

set_option linter.unusedSimpArgs false

namespace Fasttld.GoLang
open Fasttld

/-! ## The same accesses -/

section
variable {α β γ δ : Type}

theorem Sim.bind {R : α → β → Prop} {S : γ → δ → Prop} {p : MProg α} {q : MProg β} (h : Sim R p q) {k : α → MProg γ} {l : β → MProg δ}
    (hk : ∀ a b, R a b → Sim S (k a) (l b)) : Sim S (p.bind k) (q.bind l) := by
  induction h with
  | ret h => exact hk _ _ h
  | call o _ ih => exact .call o ih
  | nil k l => exact .nil _ _

theorem Sim.symm {R : α → β → Prop} {p : MProg α} {q : MProg β} (h : Sim R p q) : Sim (fun b a => R a b) q p := by
  induction h with
  | ret h => exact .ret h
  | call o _ ih => exact .call o ih
  | nil k l => exact .nil _ _

theorem Sim.mono {R S : α → β → Prop} {p : MProg α} {q : MProg β} (h : Sim R p q) (hs : ∀ a b, R a b → S a b) : Sim S p q := by
  induction h with
  | ret h => exact .ret (hs _ _ h)
  | call o _ ih => exact .call o ih
  | nil k l => exact .nil _ _

theorem Sim.runs {R : α → β → Prop} {p : MProg α} {q : MProg β} (h : Sim R p q) {m m' : Mem} {a : α} (hr : Fasttld.Runs p m a m') :
    ∃ b, R a b ∧ Fasttld.Runs q m b m' := by
  induction h generalizing m with
  | ret h => cases hr; exact ⟨_, h, .ret _ _⟩
  | call o _ ih =>
    cases hr with
    | call hd hr => obtain ⟨b, h1, h2⟩ := ih _ hr; exact ⟨b, h1, .call hd h2⟩
  | nil k l =>
    cases hr with
    | call hd hr => exact hd.elim

theorem mbind_assoc (p : MProg α) (f : α → MProg β) (g : β → MProg γ) : (p.bind f).bind g = p.bind fun a => (f a).bind g := by
  induction p with
  | ret a => rfl
  | call o k ih => simp only [MProg.bind]; congr 1; funext b; exact ih b

/-! ## Computation rules -/

@[simp] theorem eff_ok_bind (a : α) (k : α → Eff β) : (Eff.ok a).bind k = k a := rfl
@[simp] theorem eff_lift_ok (a : α) : Eff.lift (.ok a) = Eff.ok a := rfl
@[simp] theorem eff_lift_error_bind (t : Trap) (k : α → Eff β) : (Eff.lift (.error t)).bind k = Eff.lift (.error t) := rfl
@[simp] theorem eff_nil_bind (k : α → Eff β) : (Eff.nil : Eff α).bind k = Eff.nil := rfl
@[simp] theorem eff_bind_assoc (m : Eff α) (f : α → Eff β) (g : β → Eff γ) : (m.bind f).bind g = m.bind fun a => (f a).bind g := by
  funext A
  simp only [Eff.bind, mbind_assoc]
  congr 1; funext r
  cases r <;> rfl
theorem eff_lift_bind (x : Comp α) (k : α → Comp β) : Eff.lift (x.bind k) = (Eff.lift x).bind fun a => Eff.lift (k a) := by
  cases x <;> rfl
@[simp] theorem condM_bool (b : Bool) (x y : Eff α) : Val.condM (.bool b) x y = if b then x else y := by cases b <;> rfl
@[simp] theorem eff_bind_ite (p : Prop) [Decidable p] (x y : Eff α) (k : α → Eff β) :
    Eff.bind (if p then x else y) k = if p then x.bind k else y.bind k := by split <;> rfl
@[simp] theorem eff_ite_app (p : Prop) [Decidable p] (x y : Eff α) (A : Arrays) : (if p then x else y : Eff α) A = if p then x A else y A := by
  split <;> rfl
theorem eff_bind_app {m : Eff α} {A A' : Arrays} {v : α} (h : m A = .ret (.ok (v, A'))) (k : α → Eff β) : m.bind k A = k v A' := by
  simp only [Eff.bind, h]; rfl
theorem eff_ok_app (a : α) (A) : Eff.ok a A = .ret (.ok (a, A)) := rfl
theorem eff_ask_bind_app (o : MOp β) (k : β → Eff α) (A) : (Eff.ask o).bind k A = .call o fun b => k b A := rfl
theorem eff_elems_bind_app {a : Nat} {l : List Bytes} {A : Arrays} (h : A[a]? = some l) (k : List Bytes → Eff α) :
    (Eff.elems a).bind k A = k l A := by
  simp only [Eff.bind, Eff.elems, h]; rfl
theorem eff_setElems_bind_app (a : Nat) (l : List Bytes) (A : Arrays) (k : Unit → Eff α) :
    (Eff.setElems a l).bind k A = k () (A.set a l) := rfl
theorem eff_newArray_bind_app (l : List Bytes) (A : Arrays) (k : Nat → Eff α) :
    (Eff.newArray l).bind k A = k A.length (A ++ [l]) := rfl
end

@[simp] theorem andThenM_norm (k) (vs) : Out.andThenM k (.norm vs) = k vs := rfl
@[simp] theorem andThenM_brk (k) (vs) : Out.andThenM k (.brk vs) = Eff.ok (.brk vs) := rfl
@[simp] theorem andThenM_cont (k) (vs) : Out.andThenM k (.cont vs) = Eff.ok (.cont vs) := rfl
@[simp] theorem andThenM_ret (k) (vs) : Out.andThenM k (.ret vs) = Eff.ok (.ret vs) := rfl
@[simp] theorem onlyM_norm (k) (vs) : Out.onlyM k (.norm vs) = k vs := rfl
@[simp] theorem iterateM_norm (k) (vs) : Out.iterateM k (.norm vs) = k vs := rfl
@[simp] theorem iterateM_cont (k) (vs) : Out.iterateM k (.cont vs) = k vs := rfl
@[simp] theorem iterateM_brk (k) (vs) : Out.iterateM k (.brk vs) = Eff.ok (.norm vs) := rfl
@[simp] theorem iterateM_ret (k) (vs) : Out.iterateM k (.ret vs) = Eff.ok (.ret vs) := rfl
@[simp] theorem goOn_true (k vs) : Out.goOn k vs (.ret [.bool true]) = k vs := rfl
@[simp] theorem typedAs_ptr (v) (r) : typedAs v (.ptr r) = .ptr r := by cases v <;> rfl
@[simp] theorem typedAs_strs (v) (r) : typedAs v (.strs r) = .strs r := by cases v <;> rfl
@[simp] theorem typed_ptr (r) : typed (.ptr r) = .ptr r := rfl
@[simp] theorem typed_array (r) : typed (.array r) = .array r := rfl
@[simp] theorem conv_ptr (t) (z) : TypeName.conv t (.ptr z) = .ptr z := by cases t <;> rfl
@[simp] theorem conv_array (t) (z) : TypeName.conv t (.array z) = .array z := by cases t <;> rfl
@[simp] theorem conv_ext (t) : TypeName.conv t .ext = .ext := by cases t <;> rfl
@[simp] theorem spread_ptr (z) : spread [.ptr z] = [.ptr z] := rfl
@[simp] theorem spread_array (z) : spread [.array z] = [.array z] := rfl
@[simp] theorem zero_trieMap : TypeName.trieMap.zero = .emptyMap := rfl
@[simp] theorem zero_stringSlice : TypeName.stringSlice.zero = .strs [] := rfl

@[simp] theorem getFieldM_matches (r) : getFieldM (.ptr r) .matches = Eff.ok (.mapAt r) := rfl
@[simp] theorem getFieldM_end (r) : getFieldM (.ptr r) .end = (Eff.ask (.isEnd r)).bind fun b => Eff.ok (.bool b) := rfl
@[simp] theorem getFieldM_tldTrie : getFieldM .ext .tldTrie = (Eff.ask .loadRoot).bind fun r => Eff.ok (.ptr r) := rfl
@[simp] theorem getFieldM_nil (f) : getFieldM (.err none) f = Eff.nil := rfl
@[simp] theorem getFieldM_suffixes (p f) : getFieldM (.suffixes p) f = Eff.lift (getField (.suffixes p) f) := by cases f <;> rfl
@[simp] theorem indexM_array (a t i) : indexM (.array a) (.num t i) = (Eff.elems a).bind fun l => Eff.lift (indexVal (.strs l) (.num .int i)) := rfl
@[simp] theorem storeField_end (r) : storeField (.ptr r) .end (.bool true) = Eff.ask (.setEnd r) := rfl
@[simp] theorem storeField_nil (f v) : storeField (.err none) f v = Eff.nil := by cases f <;> rfl
@[simp] theorem storeElem_array (a t i x) : storeElem (.array a) (.num t i) (.str x) = (Eff.elems a).bind fun l =>
    if 0 ≤ i ∧ i < l.length then Eff.setElems a (l.set i.toNat x) else Eff.lift (.error (.fault .indexRange)) := rfl

attribute [simp] evalM evalsM rhsM locOf locsOf store1 storeAll

section
variable {c : Ctx} {cm : Fn → List Val → Eff Val} {n : Nat}

/-- A loop, from a state between two rounds. -/
def loopOutM (c : Ctx) (cm : Fn → List Val → Eff Val) (n : Nat) (e : Expr) (post body : Stmt) (fuel : Nat) (vs : Vars) : Eff Out :=
  whileLoopM (evalM c cm e) (execM c cm n post) (fun vs => (execM c cm n body vs).bind fun o => Eff.ok (o.leave vs.length)) fuel vs

/-- A loop over values, from a state between two rounds. -/
def rangeOutM (c : Ctx) (cm : Fn → List Val → Eff Val) (n : Nat) (body : Stmt) (i v : String) (l : List Item) (vs : Vars) : Eff Out :=
  rangeLoopM (execM c cm n body) i v l vs

/-- `Scan`, from a state between two calls. -/
def scanOutM (c : Ctx) (cm : Fn → List Val → Eff Val) (n : Nat) (body : Stmt) (l : List (Bytes × Ref)) (vs : Vars) : Eff Out :=
  scanLoopM (execM c cm n body) l vs

theorem loopOutM_step (e post body fuel vs) : loopOutM c cm n e post body (fuel + 1) vs = (evalM c cm e vs).bind fun x =>
    x.condM (((execM c cm n body vs).bind fun o => Eff.ok (o.leave vs.length)).bind
      (Out.iterateM fun vs => (execM c cm n post vs).bind (Out.onlyM fun vs => loopOutM c cm n e post body fuel vs)))
      (Eff.ok (.norm vs)) := rfl

@[simp] theorem rangeOutM_nil (body i v vs) : rangeOutM c cm n body i v [] vs = Eff.ok (.norm vs) := rfl
theorem rangeOutM_cons (body i v x xs vs) : rangeOutM c cm n body i v (x :: xs) vs =
    x.get.bind fun p => (execM c cm n body (vs ++ bindings i v p.1 p.2)).bind fun o =>
      (o.leave vs.length).iterateM fun vs => rangeOutM c cm n body i v xs vs := rfl

@[simp] theorem scanOutM_nil (body vs) : scanOutM c cm n body [] vs = Eff.ok (.norm vs) := rfl
theorem scanOutM_cons (body x xs vs) : scanOutM c cm n body (x :: xs) vs =
    (execM c cm n body (vs ++ [.str x.1, .ptr x.2])).bind fun o => o.goOn (fun vs => scanOutM c cm n body xs vs) vs := rfl

@[simp] theorem execM_skip (vs) : execM c cm n .skip vs = Eff.ok (.norm vs) := rfl
@[simp] theorem execM_seq (a b vs) : execM c cm n (.seq a b) vs = (execM c cm n a vs).bind (Out.andThenM fun vs => execM c cm n b vs) := rfl
@[simp] theorem execM_assign (ls es vs) : execM c cm n (.assign ls es) vs =
    (locsOf c cm ls vs).bind fun ls => (rhsM c cm es vs).bind fun xs => (storeAll ls xs vs).bind fun vs => Eff.ok (.norm vs) := rfl
@[simp] theorem execM_define (ns es vs) : execM c cm n (.define ns es) vs =
    (rhsM c cm es vs).bind fun xs => Eff.lift ((defineAll ns xs vs).bind fun vs => .ok (.norm vs)) := rfl
@[simp] theorem execM_declare (ns t vs) : execM c cm n (.declare ns t) vs = Eff.ok (.norm (vs ++ ns.map fun _ => t.zero)) := rfl
@[simp] theorem execM_ite (init e a b vs) : execM c cm n (.ite init e a b) vs =
    (execM c cm n init vs).bind (Out.onlyM fun vs' => (evalM c cm e vs').bind fun x =>
      x.condM ((execM c cm n a vs').bind fun o => Eff.ok (o.leave vs.length)) ((execM c cm n b vs').bind fun o => Eff.ok (o.leave vs.length))) := rfl
@[simp] theorem execM_loop (init e post body vs) : execM c cm n (.loop init e post body) vs =
    (execM c cm n init vs).bind (Out.onlyM fun vs' => (loopOutM c cm n e post body n vs').bind fun o => Eff.ok (o.leave vs.length)) := rfl
@[simp] theorem execM_range (i v e body vs) : execM c cm n (.range i v e body) vs = (evalM c cm e vs).bind fun x => (rangeOverM x).bind fun l =>
    rangeOutM c cm n body i v l vs := rfl
@[simp] theorem execM_brk (vs) : execM c cm n .brk vs = Eff.ok (.brk vs) := rfl
@[simp] theorem execM_cont (vs) : execM c cm n .cont vs = Eff.ok (.cont vs) := rfl
@[simp] theorem execM_ret (es vs) : execM c cm n (.ret es) vs = (rhsM c cm es vs).bind fun xs => Eff.ok (.ret xs) := rfl
@[simp] theorem execM_expr (e vs) : execM c cm n (.expr e) vs = (evalM c cm e vs).bind fun _ => Eff.ok (.norm vs) := rfl
theorem execM_scan (e k v body vs) : execM c cm n (.scan e k v body) vs = (evalM c cm e vs).bind fun x => match x with
      | .mapAt r =>
        if body.keeps vs.length then (Eff.ask (.scan r)).bind fun l => scanOutM c cm n body l vs else Eff.lift (.error .stuck)
      | _ => Eff.lift (.error .stuck) := rfl
end

section
variable {c : Ctx} (f : Nat)
@[simp] theorem callMem_len_str (s) : callMem c (f + 1) .len [.str s] = Eff.ok (.num .int s.length) := rfl
@[simp] theorem callMem_len_array (a) : callMem c (f + 1) .len [.array a] = (Eff.elems a).bind fun l => Eff.ok (.num .int l.length) := rfl
@[simp] theorem callMem_Split (s b) : callMem c (f + 1) .Split [.str s, .str [b]] = (Eff.newArray (splitByte b s)).bind fun a => Eff.ok (.array a) := rfl
theorem callMem_Get (r k) : callMem c (f + 1) .Get [.mapAt r, .str k] = (Eff.ask (.get r k)).bind fun x =>
    Eff.ok (.tuple [(x.map Val.ptr).getD (.err none), .bool x.isSome]) := by
  show (Eff.ask (.get r k)).bind _ = _
  congr 1; funext x
  cases x <;> rfl
@[simp] theorem callMem_Set (r k n) : callMem c (f + 1) .Set [.mapAt r, .str k, .ptr n] = (Eff.ask (.set r k n)).bind fun _ => Eff.ok (.tuple []) := rfl
@[simp] theorem callMem_Len (r) : callMem c (f + 1) .Len [.mapAt r] = (Eff.ask (.len r)).bind fun n => Eff.ok (.num .int n) := rfl
@[simp] theorem callMem_Println (l) : callMem c (f + 1) .Println l = Eff.ok (.tuple []) := rfl
end

/-! ## reverse -/

variable {w : Nat} {idna : Idna} {texts : Lib} {isPrint : Nat → Bool} {B : Int}

theorem set_same {α : Type} {l : List α} {a : Nat} {x : α} (h : l[a]? = some x) : l.set a x = l := by
  obtain ⟨h1, rfl⟩ := List.getElem?_eq_some_iff.1 h
  exact List.set_getElem_self h1

/-- One round changes two elements. -/
theorem exec_reverse_loop1 (f n : Nat) (a i j : Nat) (l : List Bytes) (A : Arrays) (hA : A[a]? = some l) (hi : i < l.length) (hj : j < l.length)
    {β : Type} (k : Out → Eff β) :
    ((execM (tableCtx w idna texts isPrint) (callMem (tableCtx w idna texts isPrint) (f + 1)) n Source.reverse_loop1
      [.array a, .num .int i, .num .int j]).bind k) A =
    k (.norm [.array a, .num .int i, .num .int j]) (A.set a ((l.set i (l.getD j [])).set j (l.getD i []))) := by
  have ha : a < A.length := (List.getElem?_eq_some_iff.1 hA).1
  simp [Source.reverse_loop1, eff_elems_bind_app hA, indexVal, hi, hj]
  rw [eff_setElems_bind_app, eff_elems_bind_app (l := l.set i l[j]) (by simp [ha])]
  simp [hj, eff_setElems_bind_app]

/-- The loop. -/
theorem loop_reverse (hB : Big w B) (f n : Nat) (a : Nat) : ∀ (m fuel i j : Nat) (l : List Bytes) (A : Arrays), A[a]? = some l → j < l.length →
    l.length < B → j ≤ i + m → m + 1 ≤ fuel → ∃ i' j' : Int, ∀ (β : Type) (k : Out → Eff β),
    ((loopOutM (tableCtx w idna texts isPrint) (callMem (tableCtx w idna texts isPrint) (f + 1)) n (.bin .lt (.var 1 "i") (.var 2 "j"))
      (.assign [.var 1 "i", .var 2 "j"] [.bin .add (.var 1 "i") (.intLit 1), .bin .sub (.var 2 "j") (.intLit 1)]) Source.reverse_loop1
      fuel [.array a, .num .int i, .num .int j]).bind k) A =
    k (.norm [.array a, .num .int i', .num .int j']) (A.set a (reverseLoop [] m l i j)) := by
  intro m
  induction m with
  | zero =>
    intro fuel i j l A hA hj hl hm hf
    obtain ⟨fuel, rfl⟩ : ∃ z, fuel = z + 1 := ⟨fuel - 1, by omega⟩
    have hA' : A.set a l = A := set_same hA
    refine ⟨i, j, fun β k => ?_⟩
    rw [loopOutM_step]
    have : ¬ i < j := by omega
    simp [reverseLoop, hA', this]
  | succ m ih =>
    intro fuel i j l A hA hj hl hm hf
    have ha : a < A.length := (List.getElem?_eq_some_iff.1 hA).1
    obtain ⟨fuel, rfl⟩ : ∃ z, fuel = z + 1 := ⟨fuel - 1, by omega⟩
    by_cases hij : i < j
    · obtain ⟨i', j', h⟩ := ih fuel (i + 1) (j - 1) ((l.set i (l.getD j [])).set j (l.getD i []))
        (A.set a ((l.set i (l.getD j [])).set j (l.getD i []))) (by simp [ha]) (by simp; omega) (by simpa using hl) (by omega) (by omega)
      refine ⟨i', j', fun β k => ?_⟩
      have hh := h β k
      have e1 : ((j - 1 : Nat) : Int) = (j : Int) - 1 := by omega
      have e2 : ((i + 1 : Nat) : Int) = (i : Int) + 1 := by omega
      rw [e1, e2] at hh
      have w1 : NumTy.int.wrap w ((i : Int) + 1) = i + 1 := wrap_int hB (by omega) (by omega)
      have w2 : NumTy.int.wrap w ((j : Int) - 1) = j - 1 := wrap_int hB (by omega) (by omega)
      rw [loopOutM_step]
      simp only [evalM, getVar_succ, getVar_zero, eff_lift_ok, eff_ok_bind, binOp_lt, compare_ii, condM_bool, eff_bind_assoc]
      have hd : decide ((i : Int) < j) = true := by simpa using hij
      rw [hd, if_pos rfl]
      rw [eff_bind_assoc, exec_reverse_loop1 f n a i j l A hA (by omega) hj]
      rw [reverseLoop, if_pos hij]
      simpa [w1, w2] using hh
    · have hA' : A.set a l = A := set_same hA
      refine ⟨i, j, fun β k => ?_⟩
      rw [loopOutM_step]
      simp [reverseLoop, hA', hij]

/-- strings.go:216-220: the elements are reversed in place. -/
theorem run_reverse (hB : Big w B) (f : Nat) (a : Nat) (l : List Bytes) (A : Arrays) (hA : A[a]? = some l) (hl : l.length < B)
    (hf : l.length + 1 ≤ f) :
    callMem (tableCtx w idna texts isPrint) (f + 2) .reverse [.array a] A = .ret (.ok (.tuple [], A.set a (reverse l))) := by
  show Func.runM (tableCtx w idna texts isPrint) (callMem (tableCtx w idna texts isPrint) (f + 1)) (f + 1) Source.reverse_func [.array a] A = _
  cases l with
  | nil =>
    have hA' : A.set a [] = A := set_same hA
    have w2 : NumTy.int.wrap w (-1) = -1 := wrap_int hB (by simp at hl; omega) (by simp at hl; omega)
    simp [Func.runM, Source.reverse_func, Func.start, Func.args, Source.reverse_1, eff_elems_bind_app hA, loopOutM_step, w2, Func.finishM]
    simp [Eff.ok, reverse, reverseLoop, hA']
  | cons x l =>
    obtain ⟨i', j', h⟩ := loop_reverse (idna := idna) (texts := texts) (isPrint := isPrint) hB f (f + 1) a (l.length + 1) (f + 1) 0 l.length (x :: l) A hA
      (by simp) hl (by omega) (by simp at hf; omega)
    have w2 : NumTy.int.wrap w (l.length : Int) = l.length := wrap_int hB (by simp at hl; omega) (by simp at hl; omega)
    simp [Func.runM, Source.reverse_func, Func.start, Func.args, Source.reverse_1, eff_elems_bind_app hA, w2, Func.finishM]
    have h0 : ((0 : Nat) : Int) = 0 := rfl
    rw [h0] at h
    erw [h]
    simp [Eff.ok, reverse]

end Fasttld.GoLang
