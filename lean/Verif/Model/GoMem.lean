import Verif.Model.GoProgram

/-!
# The text, with memory

The meaning of Model/GoLang.lean for functions that change what pointers and slices point to: reverse (strings.go:216-220),
nestedDict and trieConstruct (fasttld.go:85-139); and for Extract when the trie is in memory (fasttld.go:142-400).  What runs
is a program of accesses to shared memory (Model/Memory.lean), so it is known what other goroutines can see.

* a pointer to a node of the trie is a `Ref`; `p.end`, `p.matches.Get(k)` and so on are accesses to memory; `&trie{…}` makes a
  new node; a nil pointer has no node: the access `nil`, which is a panic;
* a slice of strings that `strings.Split` has made is an array that can be changed; the arrays belong to one goroutine,
  because nothing in shared memory can point to them;
* a slice that is a field of `suffixes` is a value; changing an element of it has no meaning, so it is seen that nothing does;
* in an assignment the operands on the left are evaluated first, then the expressions on the right, then it is assigned from
  left to right (Assignment statements);
* `range` over a slice takes the length first and the elements one by one (For statements with range clause);
* `Scan` calls the function for the entries of the map in any order, until it returns false.

The functions without pointers are run as in Model/GoLang.lean.
-/

namespace Fasttld.GoLang
open Fasttld

/-- The arrays of strings that were made, in this order. -/
abbrev Arrays := List (List Bytes)

/-- Computations that access memory. -/
def Eff (α : Type) := Arrays → MProg (Comp (α × Arrays))

section
variable {α β : Type}

/-- A value. -/
def Eff.ok (a : α) : Eff α := fun A => .ret (.ok (a, A))

/-- A computation that accesses nothing. -/
def Eff.lift (x : Comp α) : Eff α := fun A => .ret (x.map fun a => (a, A))

/-- After a computation has ended. -/
def Eff.next (k : α → Eff β) : Comp (α × Arrays) → MProg (Comp (β × Arrays))
  | .ok (a, A) => k a A
  | .error t => .ret (.error t)

/-- One after the other. -/
def Eff.bind (m : Eff α) (k : α → Eff β) : Eff β := fun A => (m A).bind (Eff.next k)

/-- An access. -/
def Eff.ask (o : MOp β) : Eff β := fun A => .call o fun b => .ret (.ok (b, A))

/-- An access through a nil pointer. -/
def Eff.nil : Eff α := fun _ => .call .nil fun _ => .ret (.error .stuck)

/-- The elements of an array. -/
def Eff.elems (a : Nat) : Eff (List Bytes) := fun A =>
  match A[a]? with
  | some l => .ret (.ok (l, A))
  | none => .ret (.error .stuck)

/-- A new array. -/
def Eff.newArray (l : List Bytes) : Eff Nat := fun A => .ret (.ok (A.length, A ++ [l]))

/-- All elements of an array replaced. -/
def Eff.setElems (a : Nat) (l : List Bytes) : Eff Unit := fun A => .ret (.ok ((), A.set a l))

/-- `if x { a } else { b }` -/
def Val.condM (x : Val) (a b : Eff α) : Eff α :=
  match x with
  | .bool true => a
  | .bool false => b
  | _ => Eff.lift (.error .stuck)
end

/-! ## Operations -/

/-- `e.f` -/
def getFieldM (v : Val) (f : Field) : Eff Val :=
  match v, f with
  | .ptr r, .matches => Eff.ok (.mapAt r)
  | .ptr r, .end => (Eff.ask (.isEnd r)).bind fun b => Eff.ok (.bool b)
  | .ext, .tldTrie => (Eff.ask .loadRoot).bind fun r => Eff.ok (.ptr r)
  | .err none, _ => Eff.nil
  | v, f => Eff.lift (getField v f)

/-- `s[i]` -/
def indexM (s i : Val) : Eff Val :=
  match s, i with
  | .array a, .num _ i => (Eff.elems a).bind fun l => Eff.lift (indexVal (.strs l) (.num .int i))
  | s, i => Eff.lift (indexVal s i)

/-- Functions of the language and of other packages; `callFn` for everything that does not access memory. -/
def builtinM (callFn : Fn → List Val → Comp Val) (fn : Fn) (xs : List Val) : Eff Val :=
  match fn, xs with
  | .len, [.array a] => (Eff.elems a).bind fun l => Eff.ok (.num .int l.length)
  | .Split, [.str s, .str [b]] => (Eff.newArray (splitByte b s)).bind fun a => Eff.ok (.array a)
  | .Get, [.mapAt r, .str k] => (Eff.ask (.get r k)).bind fun
      | some n => Eff.ok (.tuple [.ptr n, .bool true])
      | none => Eff.ok (.tuple [.err none, .bool false])
  | .Set, [.mapAt r, .str k, .ptr n] => (Eff.ask (.set r k n)).bind fun _ => Eff.ok (.tuple [])
  | .Len, [.mapAt r] => (Eff.ask (.len r)).bind fun n => Eff.ok (.num .int n)
  | fn, xs => Eff.lift (callFn fn xs)

/-! ## Expressions and statements -/

variable (c : Ctx) (callM : Fn → List Val → Eff Val)

mutual
/-- The value of an expression; compare `eval`. -/
def evalM : Expr → Vars → Eff Val
  | .var n _, vs => Eff.lift (getVar vs n)
  | .glob g, _ => Eff.ok (c.glob g)
  | .intLit n, _ => Eff.ok (.num .const n)
  | .charLit n, _ => Eff.ok (.num .const n)
  | .strLit s, _ => Eff.ok (.str s)
  | .boolLit b, _ => Eff.ok (.bool b)
  | .nil, _ => Eff.ok (.err none)
  | .paren e, vs => evalM e vs
  | .not e, vs => (evalM e vs).bind fun x => Eff.lift (Val.not x)
  | .neg e, vs => (evalM e vs).bind fun x => Eff.lift (Val.neg c.w x)
  | .bin .and a b, vs => (evalM a vs).bind fun v => v.condM (evalM b vs) (Eff.ok (.bool false))
  | .bin .or a b, vs => (evalM a vs).bind fun v => v.condM (Eff.ok (.bool true)) (evalM b vs)
  | .bin op a b, vs => (evalM a vs).bind fun x => (evalM b vs).bind fun y => Eff.lift (binOp c.w op x y)
  | .index s i, vs => (evalM s vs).bind fun x => (evalM i vs).bind fun y => indexM x y
  | .slice s lo hi, vs => (evalM s vs).bind fun x => (evalM lo vs).bind fun y => (evalM hi vs).bind fun z => Eff.lift (sliceVal x y z)
  | .sliceFrom s lo, vs => (evalM s vs).bind fun x => (evalM lo vs).bind fun y => (Eff.lift (lenVal x)).bind fun z =>
      Eff.lift (sliceVal x y z)
  | .field e f, vs => (evalM e vs).bind fun v => getFieldM v f
  | .zeroResult, _ => Eff.ok (.result {})
  | .runeSelf, _ => Eff.ok (.num .const 128)
  | .hardcodedPSL, _ => Eff.ok (.str c.texts.hardcodedPSL)
  | .newTrie e, vs => (evalM e vs).bind fun
      | .emptyMap => (Eff.ask .alloc).bind fun r => Eff.ok (.ptr r)
      | _ => Eff.lift (.error .stuck)
  | .zeroTrie, _ | .newFastTLD _ _ _, _ | .newOsFs, _ | .known _, _ | .attributes _, _ | .spreadArg _, _ | .inPackage _, _
  | .newListParams _, _ | .newParams _ _ _, _ => Eff.lift (.error .stuck)
  | .call f args, vs => (evalsM args vs).bind fun xs => callM f xs

/-- The values of several expressions, from left to right. -/
def evalsM : List Expr → Vars → Eff (List Val)
  | [], _ => Eff.ok []
  | e :: es, vs => (evalM e vs).bind fun x => (evalsM es vs).bind fun xs => Eff.ok (x :: xs)
end

/-- The values on the right of an assignment. -/
def rhsM (es : List Expr) (vs : Vars) : Eff (List Val) :=
  (evalsM c callM es vs).bind fun xs => Eff.ok (spread xs)

/-- Where a value is stored. -/
inductive Loc
  | blank
  | var (place : Nat)
  | field (place : Nat) (f : Field)
  /-- the field of what a pointer points to -/
  | deref (p : Val) (f : Field)
  | elem (s i : Val)

/-- The place that a left-hand side means. -/
def locOf (l : Lhs) (vs : Vars) : Eff Loc :=
  match l with
  | .blank => Eff.ok .blank
  | .var n _ => Eff.ok (.var n)
  | .field n _ f =>
    match vs[n]? with
    | some (.ptr r) => Eff.ok (.deref (.ptr r) f)
    | some .ext => Eff.ok (.deref .ext f)
    | some (.err none) => Eff.ok (.deref (.err none) f)
    | _ => Eff.ok (.field n f)
  | .index n _ i => (Eff.lift (getVar vs n)).bind fun s => (evalM c callM i vs).bind fun i => Eff.ok (.elem s i)

/-- Several. -/
def locsOf : List Lhs → Vars → Eff (List Loc)
  | [], _ => Eff.ok []
  | l :: ls, vs => (locOf c callM l vs).bind fun x => (locsOf ls vs).bind fun xs => Eff.ok (x :: xs)

/-- `*p.f = v` -/
def storeField (p : Val) (f : Field) (v : Val) : Eff Unit :=
  match p, f, v with
  | .ptr r, .end, .bool true => Eff.ask (.setEnd r)
  | .ext, .tldTrie, .ptr r => Eff.ask (.storeRoot r)
  | .err none, _, _ => Eff.nil
  | _, _, _ => Eff.lift (.error .stuck)

/-- `s[i] = v` -/
def storeElem (s i v : Val) : Eff Unit :=
  match s, i, v with
  | .array a, .num _ i, .str x => (Eff.elems a).bind fun l =>
    if 0 ≤ i ∧ i < l.length then Eff.setElems a (l.set i.toNat x) else Eff.lift (.error (.fault .indexRange))
  | _, _, _ => Eff.lift (.error .stuck)

/-- One assignment. -/
def store1 (l : Loc) (v : Val) (vs : Vars) : Eff Vars :=
  match l with
  | .blank => Eff.ok vs
  | .var n => Eff.lift (assign1 (.var n "") v vs)
  | .field n f => Eff.lift (assign1 (.field n "" f) v vs)
  | .deref p f => (storeField p f v).bind fun _ => Eff.ok vs
  | .elem s i => (storeElem s i v).bind fun _ => Eff.ok vs

/-- Several. -/
def storeAll : List Loc → List Val → Vars → Eff Vars
  | [], [], vs => Eff.ok vs
  | l :: ls, x :: xs, vs => (store1 l x vs).bind fun vs => storeAll ls xs vs
  | _, _, _ => Eff.lift (.error .stuck)

/-- What comes after a statement; compare `Out.andThen`, `Out.only`, `Out.iterate`. -/
def Out.andThenM (k : Vars → Eff Out) : Out → Eff Out
  | .norm vs => k vs
  | o => Eff.ok o

/-- What comes after the first part of `if` and `for`. -/
def Out.onlyM (k : Vars → Eff Out) : Out → Eff Out
  | .norm vs => k vs
  | _ => Eff.lift (.error .stuck)

/-- What comes after the body of a loop. -/
def Out.iterateM (k : Vars → Eff Out) : Out → Eff Out
  | .norm vs | .cont vs => k vs
  | .brk vs => Eff.ok (.norm vs)
  | .ret xs => Eff.ok (.ret xs)

/-- `for` with a condition and a statement after each round. -/
def whileLoopM (cond : Vars → Eff Val) (post body : Vars → Eff Out) : (fuel : Nat) → Vars → Eff Out
  | 0, _ => Eff.lift (.error (.fault .outOfFuel))
  | fuel + 1, vs => (cond vs).bind fun x =>
    x.condM ((body vs).bind (Out.iterateM fun vs => (post vs).bind (Out.onlyM fun vs => whileLoopM cond post body fuel vs)))
      (Eff.ok (.norm vs))

/-- What one round of `range` gets: a pair, or an element of an array, which is looked up when it is its turn. -/
inductive Item
  | pair (x y : Val)
  | elem (a i : Nat)

/-- The two values of a round. -/
def Item.get : Item → Eff (Val × Val)
  | .pair x y => Eff.ok (x, y)
  | .elem a i => (indexM (.array a) (.num .int i)).bind fun v => Eff.ok (.num .int i, v)

/-- What `range` goes through. -/
def rangeOverM : Val → Eff (List Item)
  | .array a => (Eff.elems a).bind fun l => Eff.ok ((List.range l.length).map (Item.elem a))
  | v => (Eff.lift (rangeOver v)).bind fun l => Eff.ok (l.map fun p => .pair p.1 p.2)

/-- `for i, v := range` -/
def rangeLoopM (body : Vars → Eff Out) (i v : String) : List Item → Vars → Eff Out
  | [], vs => Eff.ok (.norm vs)
  | x :: xs, vs => x.get.bind fun p => (body (vs ++ bindings i v p.1 p.2)).bind fun o =>
    (o.leave vs.length).iterateM fun vs => rangeLoopM body i v xs vs

/-- The function that `Scan` calls returns whether to go on. -/
def Out.goOn (k : Vars → Eff Out) (vs : Vars) : Out → Eff Out
  | .ret [.bool true] => k vs
  | .ret [.bool false] => Eff.ok (.norm vs)
  | _ => Eff.lift (.error .stuck)

/-- Whether a variable below the place `n` stays as it is. -/
def Lhs.keeps (n : Nat) : Lhs → Bool
  | .blank | .index _ _ _ => true
  | .var p _ | .field p _ _ => n ≤ p

/-- Whether the variables below the place `n` stay as they are. -/
def Stmt.keeps (n : Nat) : Stmt → Bool
  | .seq a b => a.keeps n && b.keeps n
  | .ite i _ a b => i.keeps n && a.keeps n && b.keeps n
  | .block s | .range _ _ _ s | .scan _ _ _ s => s.keeps n
  | .loop a _ b s => a.keeps n && b.keeps n && s.keeps n
  | .switch _ s | .dflt s => s.keeps n
  | .case _ a b => a.keeps n && b.keeps n
  | .assign ls _ => ls.all (Lhs.keeps n)
  | .assignOp _ l _ => l.keeps n
  | .assignIndexOp _ p _ _ _ | .setMethod p _ _ | .incr p _ => n ≤ p
  | .redefine _ olds _ => olds.all fun o => o.all fun p => n ≤ p
  | _ => true

/-- `Scan` over these entries.  The function does not change variables outside of it. -/
def scanLoopM (body : Vars → Eff Out) : List (Bytes × Ref) → Vars → Eff Out
  | [], vs => Eff.ok (.norm vs)
  | x :: xs, vs => (body (vs ++ [.str x.1, .ptr x.2])).bind fun o => o.goOn (fun vs => scanLoopM body xs vs) vs

/-- The meaning of a statement; compare `exec`. -/
def execM (fuel : Nat) : Stmt → Vars → Eff Out
  | .skip, vs => Eff.ok (.norm vs)
  | .seq a b, vs => (execM fuel a vs).bind (Out.andThenM fun vs => execM fuel b vs)
  | .block s, vs => (execM fuel s vs).bind fun o => Eff.ok (o.leave vs.length)
  | .assign ls es, vs => (locsOf c callM ls vs).bind fun ls => (rhsM c callM es vs).bind fun xs => (storeAll ls xs vs).bind fun vs =>
      Eff.ok (.norm vs)
  | .assignOp op l e, vs => (Eff.lift (lhsVal l vs)).bind fun x => (evalM c callM e vs).bind fun y =>
      Eff.lift ((binOp c.w op x y).bind fun z => (assign1 l z vs).bind fun vs => .ok (.norm vs))
  | .assignIndexOp op n _ i e, vs => (Eff.lift (getVar vs n)).bind fun a => (evalM c callM i vs).bind fun i =>
      (Eff.lift (indexVal a i)).bind fun x => (evalM c callM e vs).bind fun y =>
      Eff.lift ((binOp c.w op x y).bind fun z => (setIndex a i z).bind fun a => .ok (.norm (vs.set n a)))
  | .setMethod n _ e, vs => (Eff.lift (getVar vs n)).bind fun a => (evalM c callM e vs).bind fun x =>
      Eff.lift ((addRune a x).bind fun a => .ok (.norm (vs.set n a)))
  | .incr n name, vs => Eff.lift ((lhsVal (.var n name) vs).bind fun x => (binOp c.w .add x (.num .const 1)).bind fun z =>
      (assign1 (.var n name) z vs).bind fun vs => .ok (.norm vs))
  | .define ns es, vs => (rhsM c callM es vs).bind fun xs => Eff.lift ((defineAll ns xs vs).bind fun vs => .ok (.norm vs))
  | .declare ns t, vs => Eff.ok (.norm (vs ++ ns.map fun _ => t.zero))
  | .declareGroup l, vs => Eff.ok (.norm (vs ++ l.map fun p => p.2.zero))
  | .ite init e a b, vs => (execM fuel init vs).bind (Out.onlyM fun vs' => (evalM c callM e vs').bind fun x =>
      x.condM ((execM fuel a vs').bind fun o => Eff.ok (o.leave vs.length)) ((execM fuel b vs').bind fun o => Eff.ok (o.leave vs.length)))
  | .loop init e post body, vs => (execM fuel init vs).bind (Out.onlyM fun vs' =>
      (whileLoopM (evalM c callM e) (execM fuel post)
        (fun vs => (execM fuel body vs).bind fun o => Eff.ok (o.leave vs.length)) fuel vs').bind fun o => Eff.ok (o.leave vs.length))
  | .range i v e body, vs => (evalM c callM e vs).bind fun x => (rangeOverM x).bind fun l =>
      rangeLoopM (execM fuel body) i v l vs
  | .brk, vs => Eff.ok (.brk vs)
  | .cont, vs => Eff.ok (.cont vs)
  | .ret es, vs => (rhsM c callM es vs).bind fun xs => Eff.ok (.ret xs)
  | .retNamed ns _, vs => Eff.ok (.ret (ns.map fun n => vs.getD n (.err none)))
  | .expr e, vs => (evalM c callM e vs).bind fun _ => Eff.ok (.norm vs)
  | .scan e _ _ body, vs => (evalM c callM e vs).bind fun
      | .mapAt r =>
        if body.keeps vs.length then (Eff.ask (.scan r)).bind fun l => scanLoopM (execM fuel body) l vs else Eff.lift (.error .stuck)
      | _ => Eff.lift (.error .stuck)
  | .redefine _ _ _, _ | .defer _ _, _ | .declareInit _ _, _ | .switch _ _, _ | .case _ _ _, _ | .dflt _, _ =>
    Eff.lift (.error .stuck)

/-! ## Functions -/

/-- The end of a call; a function without results need not return. -/
def Func.finishM (f : Func) : Out → Comp Val
  | .norm _ => if f.results.length = 0 then .ok (.tuple []) else .error .stuck
  | o => f.finish o

/-- A call of a function with text. -/
def Func.runM (fuel : Nat) (f : Func) (xs : List Val) : Eff Val :=
  if xs.length = (f.recv.toList ++ f.params).length then
    (execM c callM fuel f.body (f.start xs)).bind fun o => Eff.lift (f.finishM o)
  else Eff.lift (.error .stuck)

/-- The functions that access memory. -/
def Fn.accesses : Fn → Bool
  | .reverse | .nestedDict | .trieConstruct | .Extract => true
  | _ => false

/-- A call. -/
def callMem (c : Ctx) : (fuel : Nat) → Fn → List Val → Eff Val
  | 0, _, _ => Eff.lift (.error (.fault .outOfFuel))
  | fuel + 1, fn, xs =>
    if fn.accesses then
      match Source.program fn with
      | some f => f.runM c (callMem c fuel) fuel xs
      | none => Eff.lift (.error .stuck)
    else builtinM (call c Source.program (fuel + 1)) fn xs

/-- The text of a function, called in a goroutine that has made no arrays. -/
def runText (c : Ctx) (fuel : Nat) (fn : Fn) (xs : List Val) : MProg (Comp (Val × Arrays)) := callMem c fuel fn xs []

end Fasttld.GoLang
