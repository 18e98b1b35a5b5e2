import Verif.Model.GoSys
import Verif.Proofs.SourceTrie
import Verif.Proofs.Log

/-!
# Running the text with the operating system: the basis
-/

set_option linter.unusedSimpArgs false

namespace Fasttld.GoLang
open Fasttld

section
variable {α β γ δ : Type}

theorem xbind_assoc (p : XProg α) (f : α → XProg β) (g : β → XProg γ) : (p.bind f).bind g = p.bind fun a => (f a).bind g := by
  induction p with
  | ret a => rfl
  | mem o k ih => simp only [XProg.bind]; congr 1; funext b; exact ih b
  | sys o k ih => simp only [XProg.bind]; congr 1; funext b t; exact ih b t
  | effect e k ih => simp only [XProg.bind]; rw [ih]

/-- A program that only calls the operating system and logs. -/
def toX : LProg α → XProg α
  | .ret a => .ret a
  | .call o k => .sys o fun b t => toX (k b t)
  | .effect e k => .effect e (toX k)

theorem toX_bind (p : LProg α) (f : α → LProg β) : toX (p >>= f) = (toX p).bind fun a => toX (f a) := by
  show toX (p.bind f) = _
  induction p with
  | ret a => rfl
  | call o k ih => simp only [LProg.bind, toX, XProg.bind]; congr 1; funext b t; exact ih b t
  | effect e k ih => simp only [LProg.bind, toX, XProg.bind]; rw [ih]
@[simp] theorem toX_pure (a : α) : toX (pure a : LProg α) = .ret a := rfl
theorem toX_ask (o : Op β) (k : β × Bytes → XProg α) : (toX o.askL).bind k = .sys o fun b t => k (b, t) := rfl
theorem toX_effect (e : Effect) (k : Unit → XProg α) : (toX e.run).bind k = .effect e (k ()) := rfl

/-! ## Computation rules -/

@[simp] theorem effx_ok_bind (a : α) (k : α → EffX β) : (EffX.ok a).bind k = k a := rfl
@[simp] theorem effx_lift_ok (a : α) : EffX.lift (.ok a) = EffX.ok a := rfl
@[simp] theorem effx_bind_assoc (m : EffX α) (f : α → EffX β) (g : β → EffX γ) : (m.bind f).bind g = m.bind fun a => (f a).bind g := by
  funext A
  simp only [EffX.bind, xbind_assoc]
  congr 1; funext r
  cases r <;> rfl
theorem mtoX_bind (p : MProg α) (k : α → MProg β) : MProg.toX (p.bind k) = (MProg.toX p).bind fun a => MProg.toX (k a) := by
  induction p with
  | ret a => rfl
  | call o l ih => simp only [MProg.bind, MProg.toX, XProg.bind]; congr 1; funext b; exact ih b
@[simp] theorem effx_up_ok (a : α) : EffX.up (Eff.ok a) = EffX.ok a := rfl
@[simp] theorem effx_up_lift (x : Comp α) : EffX.up (Eff.lift x) = EffX.lift x := by cases x <;> rfl
@[simp] theorem effx_up_ask (o : MOp β) : EffX.up (Eff.ask o) = EffX.ask o := rfl
@[simp] theorem effx_up_bind (m : Eff α) (k : α → Eff β) : EffX.up (m.bind k) = (EffX.up m).bind fun a => EffX.up (k a) := by
  funext S
  simp only [EffX.up, EffX.bind, Eff.bind, mtoX_bind, xbind_assoc]
  congr 1; funext r
  cases r <;> rfl
@[simp] theorem condX_bool (b : Bool) (x y : EffX α) : Val.condX (.bool b) x y = if b then x else y := by cases b <;> rfl
@[simp] theorem effx_bind_ite (p : Prop) [Decidable p] (x y : EffX α) (k : α → EffX β) :
    EffX.bind (if p then x else y) k = if p then x.bind k else y.bind k := by split <;> rfl
@[simp] theorem effx_ite_app (p : Prop) [Decidable p] (x y : EffX α) (S : Local) : (if p then x else y : EffX α) S = if p then x S else y S := by
  split <;> rfl
theorem effx_ok_app (a : α) (S) : EffX.ok a S = .ret (.ok (a, S)) := rfl
theorem effx_bind_app {m : EffX α} {S S' : Local} {v : α} (h : m S = .ret (.ok (v, S'))) (k : α → EffX β) : m.bind k S = k v S' := by
  simp only [EffX.bind, h]; rfl
theorem effx_bind_prog {m : EffX α} {S S' : Local} {p : XProg γ} {v : γ → α} (h : m S = p.bind fun r => .ret (.ok (v r, S'))) (k : α → EffX β) :
    m.bind k S = p.bind fun r => k (v r) S' := by
  simp only [EffX.bind, h, xbind_assoc]; rfl
theorem effx_ask_app (o : MOp β) (k : β → EffX α) (S) : (EffX.ask o).bind k S = .mem o fun b => k b S := rfl
theorem effx_sys_app (o : Op β) (k : β × Bytes → EffX α) (S) : (EffX.sys o).bind k S = .sys o fun b t => k (b, t) S := rfl
theorem effx_effect_app (e : Effect) (k : Unit → EffX α) (S) : (EffX.effect e).bind k S = .effect e (k () S) := rfl
theorem effx_newObj_app (o : Obj) (k : Nat → EffX α) (A O D) : (EffX.newObj o).bind k ⟨A, O, D⟩ = k O.length ⟨A, O ++ [o], D⟩ := rfl
theorem effx_getObj_app {i : Nat} {o : Obj} {A O D} (h : O[i]? = some o) (k : Obj → EffX α) : (EffX.getObj i).bind k ⟨A, O, D⟩ = k o ⟨A, O, D⟩ := by
  simp only [EffX.bind, EffX.getObj, h]; rfl
theorem effx_setObj_app (i : Nat) (o : Obj) (A O D) (k : Unit → EffX α) : (EffX.setObj i o).bind k ⟨A, O, D⟩ = k () ⟨A, O.set i o, D⟩ := rfl
theorem effx_deferred_app (k : List (Fn × List Val) → EffX α) (A O D) : EffX.deferred.bind k ⟨A, O, D⟩ = k D ⟨A, O, D⟩ := rfl
theorem effx_setDeferred_app (l) (k : Unit → EffX α) (A O D) : (EffX.setDeferred l).bind k ⟨A, O, D⟩ = k () ⟨A, O, l⟩ := rfl
theorem effx_elems_app {a : Nat} {l : List Bytes} {A : Arrays} {O D} (h : A[a]? = some l) (k : List Bytes → EffX α) :
    (EffX.up (Eff.elems a)).bind k ⟨A, O, D⟩ = k l ⟨A, O, D⟩ := by
  simp only [EffX.bind, EffX.up, Eff.elems, h]; rfl
theorem effx_newArray_app (l : List Bytes) (A : Arrays) (O D) (k : Nat → EffX α) :
    (EffX.up (Eff.newArray l)).bind k ⟨A, O, D⟩ = k A.length ⟨A ++ [l], O, D⟩ := rfl
end

@[simp] theorem andThenX_norm (k) (vs) : Out.andThenX k (.norm vs) = k vs := rfl
@[simp] theorem andThenX_brk (k) (vs) : Out.andThenX k (.brk vs) = EffX.ok (.brk vs) := rfl
@[simp] theorem andThenX_cont (k) (vs) : Out.andThenX k (.cont vs) = EffX.ok (.cont vs) := rfl
@[simp] theorem andThenX_ret (k) (vs) : Out.andThenX k (.ret vs) = EffX.ok (.ret vs) := rfl
@[simp] theorem onlyX_norm (k) (vs) : Out.onlyX k (.norm vs) = k vs := rfl
@[simp] theorem iterateX_norm (k) (vs) : Out.iterateX k (.norm vs) = k vs := rfl
@[simp] theorem iterateX_cont (k) (vs) : Out.iterateX k (.cont vs) = k vs := rfl
@[simp] theorem iterateX_brk (k) (vs) : Out.iterateX k (.brk vs) = EffX.ok (.norm vs) := rfl
@[simp] theorem iterateX_ret (k) (vs) : Out.iterateX k (.ret vs) = EffX.ok (.ret vs) := rfl
@[simp] theorem goOnX_true (k vs) : Out.goOnX k vs (.ret [.bool true]) = k vs := rfl

@[simp] theorem typed_response (a b c d) : typed (.response a b c d) = .response a b c d := rfl
@[simp] theorem typed_fileInfo (i) : typed (.fileInfo i) = .fileInfo i := rfl
@[simp] theorem typed_file (i) : typed (.file i) = .file i := rfl
@[simp] theorem typed_folder : typed .folder = .folder := rfl
@[simp] theorem typed_osFs : typed .osFs = .osFs := rfl
@[simp] theorem typed_obj (i) : typed (.obj i) = .obj i := rfl
@[simp] theorem typed_float (i) : typed (.float i) = .float i := rfl
@[simp] theorem typedAs_bytes (v) (b) : typedAs v (.bytes b) = .bytes b := by cases v <;> rfl
@[simp] theorem typedAs_float (v) (b) : typedAs v (.float b) = .float b := by cases v <;> rfl
@[simp] theorem conv_fileInfo (t) (z) : TypeName.conv t (.fileInfo z) = .fileInfo z := by cases t <;> rfl
@[simp] theorem conv_file (t) (z) : TypeName.conv t (.file z) = .file z := by cases t <;> rfl
@[simp] theorem conv_obj (t) (z) : TypeName.conv t (.obj z) = .obj z := by cases t <;> rfl
@[simp] theorem conv_strs (t) (z) : TypeName.conv t (.strs z) = .strs z := by cases t <;> rfl
@[simp] theorem conv_float (t) (z) : TypeName.conv t (.float z) = .float z := by cases t <;> rfl
@[simp] theorem conv_listParams (t) (z) : TypeName.conv t (.listParams z) = .listParams z := by cases t <;> rfl
@[simp] theorem zero_float : TypeName.float64.zero = .float 0 := rfl
@[simp] theorem zero_byteSlice : TypeName.byteSlice.zero = .bytes [] := rfl
@[simp] theorem spread_obj (z) : spread [.obj z] = [.obj z] := rfl
@[simp] theorem spread_float (z) : spread [.float z] = [.float z] := rfl
@[simp] theorem spread_osFs : spread [.osFs] = [.osFs] := rfl

@[simp] theorem getFieldX_cacheFilePath (i) : getFieldX (.obj i) .cacheFilePath = (EffX.getObj i).bind fun o => EffX.ok (.str o.cacheFilePath) := rfl
@[simp] theorem getFieldX_tldTrie (i) : getFieldX (.obj i) .tldTrie = (EffX.getObj i).bind fun o => EffX.ok (.ptr o.tldTrie) := rfl
@[simp] theorem getFieldX_incl (i) : getFieldX (.obj i) .includePrivateSuffix = (EffX.getObj i).bind fun o => EffX.ok (.bool o.includePrivateSuffix) := rfl
@[simp] theorem getFieldX_CacheFilePath (n) : getFieldX (.listParams n) .CacheFilePath = EffX.ok (.str n.cacheFilePath) := rfl
@[simp] theorem getFieldX_IncludePrivateSuffix (n) : getFieldX (.listParams n) .IncludePrivateSuffix = EffX.ok (.bool n.includePrivateSuffix) := rfl
@[simp] theorem getFieldX_StatusCode (a b c d) : getFieldX (.response a b c d) .StatusCode = EffX.ok (.num .int a) := rfl
@[simp] theorem getFieldX_Body (a b c d) : getFieldX (.response a b c d) .Body = EffX.ok (.body b c d) := rfl
@[simp] theorem getFieldX_suffixes (p f) : getFieldX (.suffixes p) f = EffX.lift (getField (.suffixes p) f) := by cases f <;> rfl
@[simp] theorem getFieldX_matches (r) : getFieldX (.ptr r) .matches = EffX.ok (.mapAt r) := rfl

@[simp] theorem binOpX_num (w op) (t u : NumTy) (x y : Int) : binOpX w op (.num t x) (.num u y) = binOp w op (.num t x) (.num u y) := by cases op <;> rfl
@[simp] theorem binOpX_str (w op) (x y : Bytes) : binOpX w op (.str x) (.str y) = binOp w op (.str x) (.str y) := by cases op <;> rfl
@[simp] theorem binOpX_err (w op) (x y) : binOpX w op (.err x) (.err y) = binOp w op (.err x) (.err y) := by cases op <;> rfl
@[simp] theorem binOpX_float (w) (x y : Rat) : binOpX w .gt (.float x) (.float y) = .ok (.bool (decide (x > y))) := rfl

@[simp] theorem storeX_blank (v vs) : storeX .blank v vs = EffX.ok vs := rfl
@[simp] theorem storeX_var (n name v vs) : storeX (.var n name) v vs = EffX.lift (assign1 (.var n name) v vs) := rfl

attribute [simp] evalX evalsX rhsX storesX redefineAll Known.val

section
variable {c : Ctx} {cx : Fn → List Val → EffX Val} {n : Nat}

/-- A loop over values, from a state between two rounds. -/
def rangeOutX (c : Ctx) (cx : Fn → List Val → EffX Val) (n : Nat) (body : Stmt) (i v : String) (l : List Item) (vs : Vars) : EffX Out :=
  rangeLoopX (execX c cx n body) i v l vs

/-- `Scan`, from a state between two calls. -/
def scanOutX (c : Ctx) (cx : Fn → List Val → EffX Val) (n : Nat) (body : Stmt) (l : List (Bytes × Ref)) (vs : Vars) : EffX Out :=
  scanLoopX (execX c cx n body) l vs

@[simp] theorem rangeOutX_nil (body i v vs) : rangeOutX c cx n body i v [] vs = EffX.ok (.norm vs) := rfl
theorem rangeOutX_cons (body i v x xs vs) : rangeOutX c cx n body i v (x :: xs) vs =
    (EffX.up x.get).bind fun p => (execX c cx n body (vs ++ bindings i v p.1 p.2)).bind fun o =>
      (o.leave vs.length).iterateX fun vs => rangeOutX c cx n body i v xs vs := rfl
@[simp] theorem scanOutX_nil (body vs) : scanOutX c cx n body [] vs = EffX.ok (.norm vs) := rfl
theorem scanOutX_cons (body x xs vs) : scanOutX c cx n body (x :: xs) vs =
    (execX c cx n body (vs ++ [.str x.1, .ptr x.2])).bind fun o => o.goOnX (fun vs => scanOutX c cx n body xs vs) vs := rfl

@[simp] theorem execX_skip (vs) : execX c cx n .skip vs = EffX.ok (.norm vs) := rfl
@[simp] theorem execX_seq (a b vs) : execX c cx n (.seq a b) vs = (execX c cx n a vs).bind (Out.andThenX fun vs => execX c cx n b vs) := rfl
@[simp] theorem execX_assign (ls es vs) : execX c cx n (.assign ls es) vs =
    (rhsX c cx es vs).bind fun xs => (storesX ls xs vs).bind fun vs => EffX.ok (.norm vs) := rfl
@[simp] theorem execX_define (ns es vs) : execX c cx n (.define ns es) vs =
    (rhsX c cx es vs).bind fun xs => EffX.lift ((defineAll ns xs vs).bind fun vs => .ok (.norm vs)) := rfl
@[simp] theorem execX_redefine (ns olds es vs) : execX c cx n (.redefine ns olds es) vs =
    (rhsX c cx es vs).bind fun xs => EffX.lift ((redefineAll ns olds xs vs).bind fun vs => .ok (.norm vs)) := rfl
@[simp] theorem execX_declare (ns t vs) : execX c cx n (.declare ns t) vs = EffX.ok (.norm (vs ++ ns.map fun _ => t.zero)) := rfl
@[simp] theorem execX_ite (init e a b vs) : execX c cx n (.ite init e a b) vs =
    (execX c cx n init vs).bind (Out.onlyX fun vs' => (evalX c cx e vs').bind fun x =>
      x.condX ((execX c cx n a vs').bind fun o => EffX.ok (o.leave vs.length)) ((execX c cx n b vs').bind fun o => EffX.ok (o.leave vs.length))) := rfl
@[simp] theorem execX_range (i v e body vs) : execX c cx n (.range i v e body) vs = (evalX c cx e vs).bind fun x => (EffX.up (rangeOverM x)).bind fun l =>
    rangeOutX c cx n body i v l vs := rfl
@[simp] theorem execX_brk (vs) : execX c cx n .brk vs = EffX.ok (.brk vs) := rfl
@[simp] theorem execX_cont (vs) : execX c cx n .cont vs = EffX.ok (.cont vs) := rfl
@[simp] theorem execX_ret (es vs) : execX c cx n (.ret es) vs = (rhsX c cx es vs).bind fun xs => EffX.ok (.ret xs) := rfl
@[simp] theorem execX_expr (e vs) : execX c cx n (.expr e) vs = (evalX c cx e vs).bind fun _ => EffX.ok (.norm vs) := rfl
@[simp] theorem execX_defer (f args vs) : execX c cx n (.defer f args) vs = (evalsX c cx args vs).bind fun xs => EffX.deferred.bind fun l =>
    (EffX.setDeferred ((f, xs) :: l)).bind fun _ => EffX.ok (.norm vs) := rfl
theorem execX_scan (e k v body vs) : execX c cx n (.scan e k v body) vs = (evalX c cx e vs).bind fun x => match x with
      | .mapAt r =>
        if body.keeps vs.length then (EffX.ask (.scan r)).bind fun l => scanOutX c cx n body l vs else EffX.lift (.error .stuck)
      | _ => EffX.lift (.error .stuck) := rfl

@[simp] theorem runDeferred_nil : runDeferred cx [] = EffX.ok () := rfl
@[simp] theorem runDeferred_cons (f xs l) : runDeferred cx ((f, xs) :: l) = (cx f xs).bind fun _ => runDeferred cx l := rfl

/-- The end of a function, from a state. -/
def endX (c : Ctx) (cx : Fn → List Val → EffX Val) (n : Nat) (f : Func) (D : List (Fn × List Val)) (s : Stmt) (vs : Vars) : EffX Val :=
  (execX c cx n s vs).bind fun o => (EffX.lift (f.finishM o)).bind fun v => EffX.deferred.bind fun l =>
    (runDeferred cx l).bind fun _ => (EffX.setDeferred D).bind fun _ => EffX.ok v

theorem runX_eq (f : Func) (xs : List Val) (h : xs.length = (f.recv.toList ++ f.params).length) (A O D) :
    f.runX c cx n xs ⟨A, O, D⟩ = endX c cx n f D f.body (f.start xs) ⟨A, O, []⟩ := by
  simp only [Func.runX, h, if_true]
  rfl

theorem endX_seq (f : Func) (D a b vs) : endX c cx n f D (.seq a b) vs = (execX c cx n a vs).bind fun o =>
    (Out.andThenX (fun vs => execX c cx n b vs) o).bind fun o => (EffX.lift (f.finishM o)).bind fun v => EffX.deferred.bind fun l =>
    (runDeferred cx l).bind fun _ => (EffX.setDeferred D).bind fun _ => EffX.ok v := by
  simp [endX]

theorem endX_skip (f : Func) (D a b vs vs') (h : execX c cx n a vs = EffX.ok (.norm vs')) : endX c cx n f D (.seq a b) vs = endX c cx n f D b vs' := by
  simp [endX_seq, h]; rfl
end

section
variable {round : Rat → Rat} {c : Ctx} (f : Nat)

theorem callSys_text {fn : Fn} {F : Func} (h : fn.asks = true) (hp : Source.program fn = some F) (xs : List Val)
    (hx : xs.length = (F.recv.toList ++ F.params).length) (A O D) :
    callSys round c (f + 1) fn xs ⟨A, O, D⟩ = endX c (callSys round c f) f F D F.body (F.start xs) ⟨A, O, []⟩ := by
  rw [callSys, if_pos h, hp]
  exact runX_eq F xs hx A O D

@[simp] theorem callSys_len (s) : callSys round c (f + 1) .len [.str s] = EffX.ok (.num .int s.length) := rfl
@[simp] theorem callSys_TrimSpace (s) : callSys round c (f + 1) .TrimSpace [.str s] = EffX.ok (.str (trimSpace s)) := rfl
@[simp] theorem callSys_HasPrefix (s p) : callSys round c (f + 1) .HasPrefix [.str s, .str p] = EffX.ok (.bool (p.isPrefixOf s)) := rfl
@[simp] theorem callSys_append (l s) : callSys round c (f + 1) .append [.strs l, .str s] = EffX.ok (.strs (l ++ [s])) := rfl
@[simp] theorem callSys_toStr (s) : callSys round c (f + 1) .toStr [.bytes s] = EffX.ok (.str s) := rfl
@[simp] theorem callSys_errorsNew (s) : callSys round c (f + 1) .errorsNew [.str s] = EffX.ok (.err (some s)) := rfl
@[simp] theorem callSys_ToASCII (s) : callSys round c (f + 1) .ToASCII [.str s] = EffX.lift (builtin c .ToASCII [.str s]) := by
  show EffX.up (Eff.lift _) = _
  simp
@[simp] theorem callSys_validPSLDelimiters (s) : callSys round c (f + 2) .validPSLDelimiters [.bytes s] = EffX.ok (.bool (validPSLDelimiters s)) := by
  show EffX.up (Eff.lift (call c Source.program (f + 2) .validPSLDelimiters [.bytes s])) = _
  simp [run_validPSLDelimiters]
@[simp] theorem callSys_Split (s b) : callSys round c (f + 1) .Split [.str s, .str [b]] = (EffX.up (Eff.newArray (splitByte b s))).bind fun a => EffX.ok (.array a) := by
  show EffX.up ((Eff.newArray (splitByte b s)).bind fun a => Eff.ok (Val.array a)) = _
  simp
theorem callSys_Get (r k) : callSys round c (f + 1) .Get [.mapAt r, .str k] = (EffX.ask (.get r k)).bind fun x =>
    EffX.ok (.tuple [(x.map Val.ptr).getD (.err none), .bool x.isSome]) := by
  show EffX.up (callMem c (f + 1) .Get [.mapAt r, .str k]) = _
  simp [callMem_Get]
theorem callSys_reverse (a) : callSys round c (f + 1) .reverse [.array a] = EffX.up (callMem c (f + 1) .reverse [.array a]) := rfl
theorem callSys_nestedDict (r a) : callSys round c (f + 1) .nestedDict [.ptr r, .array a] = EffX.up (callMem c (f + 1) .nestedDict [.ptr r, .array a]) := rfl
theorem callSys_Println (xs) (s) (h : printedAll xs = some s) : callSys round c (f + 1) .Println xs =
    (EffX.effect (.log s)).bind fun _ => EffX.ok (.tuple []) := by
  have e : callSys round c (f + 1) .Println xs = match printedAll xs with
      | some s => (EffX.effect (.log s)).bind fun _ => EffX.ok (.tuple [])
      | none => EffX.lift (.error .stuck) := rfl
  rw [e, h]
@[simp] theorem callSys_Println_err (t) : callSys round c (f + 1) .Println [.err (some t)] = (EffX.effect (.log t)).bind fun _ => EffX.ok (.tuple []) := rfl
@[simp] theorem callSys_Println_str (t) : callSys round c (f + 1) .Println [.str t] = (EffX.effect (.log t)).bind fun _ => EffX.ok (.tuple []) := rfl
@[simp] theorem callSys_ReadFile (p) : callSys round c (f + 1) .ReadFile [.str p] = (EffX.sys (.readFile p)).bind fun r => EffX.ok (readVal r) := rfl
@[simp] theorem callSys_httpGet (p) : callSys round c (f + 1) .httpGet [.str p] = (EffX.sys (.httpGet p)).bind fun r => EffX.ok (httpVal r) := rfl
@[simp] theorem callSys_ReadAll (b k t) : callSys round c (f + 1) .ReadAll [.body b k t] = EffX.ok (.tuple [.bytes b, errOf k t]) := rfl
@[simp] theorem callSys_Sprint (n : Nat) : callSys round c (f + 1) .Sprint [.num .int n] = EffX.ok (.str (decimalText n)) := by
  have e : callSys round c (f + 1) .Sprint [.num .int n] = if 0 ≤ (n : Int) then EffX.ok (.str (decimalText (n : Int).toNat)) else EffX.lift (.error .stuck) := rfl
  rw [e, if_pos (by omega)]; rfl
@[simp] theorem callSys_Abs (p) : callSys round c (f + 1) .Abs [.str p] = (EffX.sys (.abs p)).bind fun r => EffX.ok (.tuple [.str r.1.1, errOf r.1.2 r.2]) := rfl
@[simp] theorem callSys_Stat (p) : callSys round c (f + 1) .Stat [.str p] = (EffX.sys (.stat p)).bind fun r => EffX.ok (statVal r) := rfl
@[simp] theorem callSys_OpenFile (p) : callSys round c (f + 1) .OpenFile [.str p, .num .int 65, .num .const 420] =
    (EffX.sys (.openWrite p)).bind fun r => EffX.ok (openVal r) := rfl
@[simp] theorem callSys_GetTempDir : callSys round c (f + 1) .GetTempDir [.osFs, .str []] = (EffX.sys .tempDir).bind fun r => EffX.ok (.str r.1) := rfl
@[simp] theorem callSys_Open (p) : callSys round c (f + 1) .Open [.osFs, .str p] = (EffX.sys (.openDir p)).bind fun r => EffX.ok (folderVal r) := rfl
@[simp] theorem callSys_Now : callSys round c (f + 1) .Now [] = (EffX.sys .now).bind fun r => EffX.ok (.time r.1) := rfl
@[simp] theorem callSys_Sub (a b) : callSys round c (f + 1) .Sub [.time a, .time b] = EffX.ok (.duration (timeSub a b)) := rfl
@[simp] theorem callSys_ModTime (i) : callSys round c (f + 1) .ModTime [.fileInfo i] = EffX.ok (.time i.modTime) := rfl
@[simp] theorem callSys_Hours (d) : callSys round c (f + 1) .Hours [.duration d] = EffX.ok (.float (durationHours round d)) := rfl
@[simp] theorem callSys_IsDir (i) : callSys round c (f + 1) .IsDir [.fileInfo i] = EffX.ok (.bool i.isDir) := rfl
@[simp] theorem callSys_Seek (h) : callSys round c (f + 1) .Seek [.file h, .num .const 0, .num .const 0] =
    (EffX.sys (.seek h)).bind fun r => EffX.ok (.tuple [.num .int 0, errOf r.1 r.2]) := rfl
@[simp] theorem callSys_Write (h b) : callSys round c (f + 1) .Write [.file h, .bytes b] =
    (EffX.sys (.write h b)).bind fun r => EffX.ok (.tuple [.num .int 0, errOf r.1 r.2]) := rfl
@[simp] theorem callSys_Close_file (h) : callSys round c (f + 1) .Close [.file h] = (EffX.effect (.closeFile h)).bind fun _ => EffX.ok (.err none) := rfl
@[simp] theorem callSys_Close_folder : callSys round c (f + 1) .Close [.folder] = (EffX.effect .closeDir).bind fun _ => EffX.ok (.err none) := rfl
@[simp] theorem callSys_Close_body (a b d) : callSys round c (f + 1) .Close [.body a b d] = (EffX.effect .closeBody).bind fun _ => EffX.ok (.err none) := rfl
end

@[simp] theorem errOf_eq (b t) : errOf b t = .err (if b then none else some t) := rfl

end Fasttld.GoLang
