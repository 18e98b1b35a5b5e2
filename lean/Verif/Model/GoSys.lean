import Verif.Model.GoMem

/-!
# The text, with the operating system

The meaning of Model/GoLang.lean for New (fasttld.go:403-434), Update and the other functions of psl.go, and for Extract
(fasttld.go:142-400) on what New returns: calls to the operating system, logging, `defer`.  What runs is a program of accesses to memory (Model/Memory.lean), calls to the operating system
(Model/System.lean) and effects (Model/Log.lean).

* the calls of package os and so on are those of Model/System.lean; an answer that is an error comes with its text;
* `log.Println` is an effect: the arguments with spaces between them;
* `&FastTLD{…}` makes a new structure; the structures belong to one goroutine until New returns;
* `defer` evaluates the arguments at once; the call is made when the function ends, after the results are known, the last one
  first (Defer statements); a panic ends the run, so deferred calls after a panic are not seen;
* `:=` may have on its left variables of the same block, which it assigns (Short variable declarations);
* `switch` evaluates its expression once and runs the first case whose value is equal to it, else the default (Switch
  statements); the `int` behind a HostType is its number in the declaration;
* `color.New(…).Print(…)` is an effect: the attributes and the text; a slice with `...` is passed as the arguments;
* the difference of two times is the nearest `int64`, `Hours` a `float64` (package time).

The functions that need nothing of this are run as in Model/GoMem.lean.
-/

namespace Fasttld.GoLang
open Fasttld

/-- `time.Time.Sub`: the difference in nanoseconds, or the nearest `int64`. -/
def timeSub (a b : Int) : Int :=
  if a - b < -9223372036854775808 then -9223372036854775808
  else if 9223372036854775807 < a - b then 9223372036854775807 else a - b

/-- `time.Duration.Hours`: `float64(d/Hour) + float64(d%Hour)/(60*60*1e9)`; `round` makes a number a `float64`. -/
def durationHours (round : Rat → Rat) (d : Int) : Rat :=
  round (round ((d.tdiv 3600000000000 : Int) : Rat) + round (round ((d.tmod 3600000000000 : Int) : Rat) / 3600000000000))

/-- `FastTLD` (fasttld.go:29-33), in memory. -/
structure Obj where
  cacheFilePath : Bytes
  tldTrie : Ref
  includePrivateSuffix : Bool
  deriving DecidableEq, Repr

/-- What belongs to one goroutine: arrays, structures `FastTLD`, the calls that are deferred in the function that runs. -/
structure Local where
  arrays : Arrays
  objs : List Obj
  deferred : List (Fn × List Val)

/-- Programs that access memory, call the operating system, and log. -/
inductive XProg (α : Type) : Type 1
  | ret (a : α) : XProg α
  | mem {β : Type} (o : MOp β) (k : β → XProg α) : XProg α
  | sys {β : Type} (o : Op β) (k : β → Bytes → XProg α) : XProg α
  | effect (e : Effect) (k : XProg α) : XProg α

section
variable {α β γ : Type}

/-- Sequencing. -/
def XProg.bind : XProg α → (α → XProg γ) → XProg γ
  | .ret a, f => f a
  | .mem o k, f => .mem o fun b => (k b).bind f
  | .sys o k, f => .sys o fun b t => (k b t).bind f
  | .effect e k, f => .effect e (k.bind f)

/-- A program that only accesses memory. -/
def MProg.toX : MProg α → XProg α
  | .ret a => .ret a
  | .call o k => .mem o fun b => toX (k b)

/-- `p` may do `evs` and return `a`, and changes the memory from `m` to `m'`. -/
inductive XRun : XProg α → Mem → List LEvent → α → Mem → Prop
  | ret (a : α) (m : Mem) : XRun (.ret a) m [] a m
  | mem {β : Type} {o : MOp β} {k : β → XProg α} {b : β} {m m' m'' : Mem} {evs : List LEvent} {a : α}
      (hd : o.Does m b m') (h : XRun (k b) m' evs a m'') : XRun (.mem o k) m evs a m''
  | sys {β : Type} {o : Op β} {k : β → Bytes → XProg α} {b : β} {t : Bytes} {m m' : Mem} {evs : List LEvent} {a : α}
      (h : XRun (k b t) m evs a m') : XRun (.sys o k) m (.sys (o.event b) t :: evs) a m'
  | effect {e : Effect} {k : XProg α} {m m' : Mem} {evs : List LEvent} {a : α} (h : XRun k m evs a m') :
      XRun (.effect e k) m (.effect e :: evs) a m'

/-- Computations. -/
def EffX (α : Type) := Local → XProg (Comp (α × Local))

/-- A value. -/
def EffX.ok (a : α) : EffX α := fun S => .ret (.ok (a, S))

/-- A computation that does nothing. -/
def EffX.lift (x : Comp α) : EffX α := fun S => .ret (x.map fun a => (a, S))

/-- A computation that only accesses memory. -/
def EffX.up (m : Eff α) : EffX α := fun S => (MProg.toX (m S.arrays)).bind fun
  | .ok (a, A) => .ret (.ok (a, { S with arrays := A }))
  | .error t => .ret (.error t)

/-- After a computation has ended. -/
def EffX.next (k : α → EffX β) : Comp (α × Local) → XProg (Comp (β × Local))
  | .ok (a, S) => k a S
  | .error t => .ret (.error t)

/-- One after the other. -/
def EffX.bind (m : EffX α) (k : α → EffX β) : EffX β := fun S => (m S).bind (EffX.next k)

/-- An access to memory. -/
def EffX.ask (o : MOp β) : EffX β := fun S => .mem o fun b => .ret (.ok (b, S))

/-- A call to the operating system: the answer, and the text of the error if it is one. -/
def EffX.sys (o : Op β) : EffX (β × Bytes) := fun S => .sys o fun b t => .ret (.ok ((b, t), S))

/-- An effect. -/
def EffX.effect (e : Effect) : EffX Unit := fun S => .effect e (.ret (.ok ((), S)))

/-- A new structure. -/
def EffX.newObj (o : Obj) : EffX Nat := fun S => .ret (.ok (S.objs.length, { S with objs := S.objs ++ [o] }))

/-- A structure. -/
def EffX.getObj (i : Nat) : EffX Obj := fun S =>
  match S.objs[i]? with
  | some o => .ret (.ok (o, S))
  | none => .ret (.error .stuck)

/-- A structure replaced. -/
def EffX.setObj (i : Nat) (o : Obj) : EffX Unit := fun S => .ret (.ok ((), { S with objs := S.objs.set i o }))

/-- The calls that are deferred. -/
def EffX.deferred : EffX (List (Fn × List Val)) := fun S => .ret (.ok (S.deferred, S))

/-- Other calls are deferred. -/
def EffX.setDeferred (l : List (Fn × List Val)) : EffX Unit := fun S => .ret (.ok ((), { S with deferred := l }))

/-- `if x { a } else { b }` -/
def Val.condX (x : Val) (a b : EffX α) : EffX α :=
  match x with
  | .bool true => a
  | .bool false => b
  | _ => EffX.lift (.error .stuck)
end

/-! ## Operations -/

/-- `e.f` -/
def getFieldX (v : Val) (f : Field) : EffX Val :=
  match v, f with
  | .obj i, .cacheFilePath => (EffX.getObj i).bind fun o => EffX.ok (.str o.cacheFilePath)
  | .obj i, .tldTrie => (EffX.getObj i).bind fun o => EffX.ok (.ptr o.tldTrie)
  | .obj i, .includePrivateSuffix => (EffX.getObj i).bind fun o => EffX.ok (.bool o.includePrivateSuffix)
  | .listParams n, .CacheFilePath => EffX.ok (.str n.cacheFilePath)
  | .listParams n, .IncludePrivateSuffix => EffX.ok (.bool n.includePrivateSuffix)
  | .response code _ _ _, .StatusCode => EffX.ok (.num .int code)
  | .response _ b complete t, .Body => EffX.ok (.body b complete t)
  | .result r, .Scheme => EffX.ok (.str r.scheme)
  | .result r, .UserInfo => EffX.ok (.str r.userInfo)
  | .result r, .SubDomain => EffX.ok (.str r.subDomain)
  | .result r, .Suffix => EffX.ok (.str r.suffix)
  | .result r, .RegisteredDomain => EffX.ok (.str r.registeredDomain)
  | .result r, .Port => EffX.ok (.str r.port)
  | .result r, .Path => EffX.ok (.str r.path)
  | v, f => EffX.up (getFieldM v f)

/-- The number of a HostType (fasttld.go:36-49). -/
def hostTypeNumber : HostType → Int
  | .none => 0
  | .hostName => 1
  | .iPv4 => 2
  | .iPv6 => 3

/-- Comparing `float64`s, and a HostType with a number; everything else as before. -/
def binOpX (w : Nat) (op : BinOp) (x y : Val) : Comp Val :=
  match op, x, y with
  | .gt, .float a, .float b => .ok (.bool (decide (a > b)))
  | .ne, .hostType h, .num .const z => .ok (.bool (decide (hostTypeNumber h ≠ z)))
  | op, x, y => binOp w op x y

/-- What `Println` prints for one argument: a text, an error, a number (the constant `'|'` is one). -/
def printed : Val → Option Bytes
  | .str s => some s
  | .err e => some (errText e)
  | .num _ z => if 0 ≤ z then some (decimalText z.toNat) else none
  | _ => none

/-- What `Println` prints, without the line break: spaces between the arguments. -/
def printedAll : List Val → Option Bytes
  | [] => some []
  | [v] => printed v
  | v :: vs => (printed v).bind fun s => (printedAll vs).bind fun t => some (s ++ 32 :: t)

/-- An error or none: `ok` says that there is none. -/
def errOf (ok : Bool) (t : Bytes) : Val := .err (if ok then none else some t)

/-- What `ReadFile` returns. -/
def readVal : Option Bytes × Bytes → Val
  | (some b, _) => .tuple [.bytes b, .err none]
  | (none, t) => .tuple [.bytes [], .err (some t)]

/-- What `http.Get` returns.  The body is read later; the text is that of the error of reading it, or of no response. -/
def httpVal : Response × Bytes → Val
  | (.status code b complete, t) => .tuple [.response code b complete t, .err none]
  | (.failed, t) => .tuple [.err none, .err (some t)]

/-- What `Stat` returns. -/
def statVal : Option FileInfo × Bytes → Val
  | (some i, _) => .tuple [.fileInfo i, .err none]
  | (none, t) => .tuple [.err none, .err (some t)]

/-- What `OpenFile` returns. -/
def openVal : Option Nat × Bytes → Val
  | (some h, _) => .tuple [.file h, .err none]
  | (none, t) => .tuple [.err none, .err (some t)]

/-- What `Open` returns. -/
def folderVal : Bool × Bytes → Val
  | (true, _) => .tuple [.folder, .err none]
  | (false, t) => .tuple [.err none, .err (some t)]

/-- Attributes, if these are some. -/
def attrsOf : List Val → Option (List Attr)
  | [] => some []
  | .attr a :: vs => (attrsOf vs).bind fun l => some (a :: l)
  | _ :: _ => none

/-- Functions of other packages that log or call the operating system; `none` for others.  `Seek` and `Write` also give a
number, which is not used. -/
def builtinX (round : Rat → Rat) (fn : Fn) (xs : List Val) : Option (EffX Val) :=
  match fn, xs with
  | .Println, xs => some <| match printedAll xs with
      | some s => (EffX.effect (.log s)).bind fun _ => EffX.ok (.tuple [])
      | none => EffX.lift (.error .stuck)
  | .ReadFile, [.str p] => some <| (EffX.sys (.readFile p)).bind fun r => EffX.ok (readVal r)
  | .httpGet, [.str u] => some <| (EffX.sys (.httpGet u)).bind fun r => EffX.ok (httpVal r)
  | .ReadAll, [.body b complete t] => some <| EffX.ok (.tuple [.bytes b, errOf complete t])
  | .Sprint, [.num .int z] => some <| if 0 ≤ z then EffX.ok (.str (decimalText z.toNat)) else EffX.lift (.error .stuck)
  | .Abs, [.str p] => some <| (EffX.sys (.abs p)).bind fun r => EffX.ok (.tuple [.str r.1.1, errOf r.1.2 r.2])
  | .Stat, [.str p] => some <| (EffX.sys (.stat p)).bind fun r => EffX.ok (statVal r)
  -- `os.O_CREATE|os.O_WRONLY`, 0644
  | .OpenFile, [.str p, .num .int 65, .num .const 420] => some <| (EffX.sys (.openWrite p)).bind fun r => EffX.ok (openVal r)
  | .GetTempDir, [.osFs, .str []] => some <| (EffX.sys .tempDir).bind fun r => EffX.ok (.str r.1)
  | .Open, [.osFs, .str p] => some <| (EffX.sys (.openDir p)).bind fun r => EffX.ok (folderVal r)
  | .Now, [] => some <| (EffX.sys .now).bind fun r => EffX.ok (.time r.1)
  | .Sub, [.time a, .time b] => some <| EffX.ok (.duration (timeSub a b))
  | .ModTime, [.fileInfo i] => some <| EffX.ok (.time i.modTime)
  | .Hours, [.duration d] => some <| EffX.ok (.float (durationHours round d))
  | .IsDir, [.fileInfo i] => some <| EffX.ok (.bool i.isDir)
  | .Seek, [.file h, .num .const 0, .num .const 0] => some <| (EffX.sys (.seek h)).bind fun r =>
      EffX.ok (.tuple [.num .int 0, errOf r.1 r.2])
  | .Write, [.file h, .bytes b] => some <| (EffX.sys (.write h b)).bind fun r => EffX.ok (.tuple [.num .int 0, errOf r.1 r.2])
  | .Close, [.file h] => some <| (EffX.effect (.closeFile h)).bind fun _ => EffX.ok (.err none)
  | .Close, [.folder] => some <| (EffX.effect .closeDir).bind fun _ => EffX.ok (.err none)
  | .Close, [.body _ _ _] => some <| (EffX.effect .closeBody).bind fun _ => EffX.ok (.err none)
  -- the number of bytes and the error that `Print` and `Println` return are not used
  | .colorNew, [.attrs l] => some <| EffX.ok (.color l)   -- a slice with `...`
  | .colorNew, xs => some <| match attrsOf xs with
      | some l => EffX.ok (.color l)
      | none => EffX.lift (.error .stuck)
  | .Print, [.color l, .str s] => some <| (EffX.effect (.print ⟨l, s⟩)).bind fun _ => EffX.ok (.tuple [])
  | .colorPrintln, .color l :: xs => some <| match printedAll xs with
      | some s => (EffX.effect (.print ⟨l, s ++ [10]⟩)).bind fun _ => EffX.ok (.tuple [])
      | none => EffX.lift (.error .stuck)
  | _, _ => none

/-! ## Expressions and statements -/

/-- The values of constants of other packages; those of package os are of type `int`, here as on Linux. -/
def Known.val : Known → Val
  | .StatusOK => .num .const 200
  | .O_CREATE => .num .int 64
  | .O_WRONLY => .num .int 1
  | .attr a => .attr a

variable (c : Ctx) (callX : Fn → List Val → EffX Val)

mutual
/-- The value of an expression; compare `evalM`. -/
def evalX : Expr → Vars → EffX Val
  | .var n _, vs => EffX.lift (getVar vs n)
  | .glob g, _ => EffX.ok (c.glob g)
  | .intLit n, _ => EffX.ok (.num .const n)
  | .charLit n, _ => EffX.ok (.num .const n)
  | .strLit s, _ => EffX.ok (.str s)
  | .boolLit b, _ => EffX.ok (.bool b)
  | .nil, _ => EffX.ok (.err none)
  | .paren e, vs => evalX e vs
  | .not e, vs => (evalX e vs).bind fun x => EffX.lift (Val.not x)
  | .neg e, vs => (evalX e vs).bind fun x => EffX.lift (Val.neg c.w x)
  | .bin .and a b, vs => (evalX a vs).bind fun v => v.condX (evalX b vs) (EffX.ok (.bool false))
  | .bin .or a b, vs => (evalX a vs).bind fun v => v.condX (EffX.ok (.bool true)) (evalX b vs)
  | .bin op a b, vs => (evalX a vs).bind fun x => (evalX b vs).bind fun y => EffX.lift (binOpX c.w op x y)
  | .index s i, vs => (evalX s vs).bind fun x => (evalX i vs).bind fun y => EffX.up (indexM x y)
  | .slice s lo hi, vs => (evalX s vs).bind fun x => (evalX lo vs).bind fun y => (evalX hi vs).bind fun z => EffX.lift (sliceVal x y z)
  | .sliceFrom s lo, vs => (evalX s vs).bind fun x => (evalX lo vs).bind fun y => (EffX.lift (lenVal x)).bind fun z =>
      EffX.lift (sliceVal x y z)
  | .field e f, vs => (evalX e vs).bind fun v => getFieldX v f
  | .zeroResult, _ => EffX.ok (.result {})
  | .runeSelf, _ => EffX.ok (.num .const 128)
  | .hardcodedPSL, _ => EffX.ok (.str c.texts.hardcodedPSL)
  | .newTrie e, vs => (evalX e vs).bind fun
      | .emptyMap => (EffX.ask .alloc).bind fun r => EffX.ok (.ptr r)
      | _ => EffX.lift (.error .stuck)
  | .zeroTrie, _ => (EffX.ask .alloc).bind fun r => EffX.ok (.ptr r)
  | .newFastTLD a b d, vs => (evalX a vs).bind fun a => (evalX b vs).bind fun b => (evalX d vs).bind fun d =>
      match a, b, d with
      | .str path, .ptr r, .bool incl => (EffX.newObj ⟨path, r, incl⟩).bind fun i => EffX.ok (.obj i)
      | _, _, _ => EffX.lift (.error .stuck)
  | .newOsFs, _ => EffX.ok .osFs
  | .known k, _ => EffX.ok k.val
  | .attributes es, vs => (evalsX es vs).bind fun xs =>
      match attrsOf xs with
      | some l => EffX.ok (.attrs l)
      | none => EffX.lift (.error .stuck)
  | .spreadArg e, vs => (evalX e vs).bind fun
      | .attrs l => EffX.ok (.attrs l)
      | _ => EffX.lift (.error .stuck)
  | .inPackage e, vs => evalX e vs
  | .newListParams e, vs => (evalX e vs).bind fun
      | .bool b => EffX.ok (.listParams ⟨[], b⟩)
      | _ => EffX.lift (.error .stuck)
  | .newParams a b d, vs => (evalX a vs).bind fun a => (evalX b vs).bind fun b => (evalX d vs).bind fun d =>
      match a, b, d with
      | .str url, .bool i, .bool p => EffX.ok (.params ⟨url, i, p⟩)
      | _, _, _ => EffX.lift (.error .stuck)
  | .call f args, vs => (evalsX args vs).bind fun xs => callX f xs

/-- The values of several expressions, from left to right. -/
def evalsX : List Expr → Vars → EffX (List Val)
  | [], _ => EffX.ok []
  | e :: es, vs => (evalX e vs).bind fun x => (evalsX es vs).bind fun xs => EffX.ok (x :: xs)
end

/-- The values on the right of an assignment. -/
def rhsX (es : List Expr) (vs : Vars) : EffX (List Val) :=
  (evalsX c callX es vs).bind fun xs => EffX.ok (spread xs)

/-- One assignment to a variable, to a field of a variable or to a field of what a variable points to. -/
def storeX (l : Lhs) (v : Val) (vs : Vars) : EffX Vars :=
  match l with
  | .blank => EffX.ok vs
  | .var n name => EffX.lift (assign1 (.var n name) v vs)
  | .field n name f =>
    match vs[n]?, f, v with
    | some (.obj i), .cacheFilePath, .str s => (EffX.getObj i).bind fun o => (EffX.setObj i { o with cacheFilePath := s }).bind fun _ => EffX.ok vs
    | some (.obj i), .tldTrie, .ptr r => (EffX.getObj i).bind fun o => (EffX.setObj i { o with tldTrie := r }).bind fun _ => EffX.ok vs
    | some (.ptr r), f, v => (EffX.up (storeField (.ptr r) f v)).bind fun _ => EffX.ok vs
    | some .ext, f, v => (EffX.up (storeField .ext f v)).bind fun _ => EffX.ok vs
    | some (.err none), f, v => (EffX.up (storeField (.err none) f v)).bind fun _ => EffX.ok vs
    | _, _, _ => EffX.lift (assign1 (.field n name f) v vs)
  | .index _ _ _ => EffX.lift (.error .stuck)

/-- Several, from left to right. -/
def storesX : List Lhs → List Val → Vars → EffX Vars
  | [], [], vs => EffX.ok vs
  | l :: ls, x :: xs, vs => (storeX l x vs).bind fun vs => storesX ls xs vs
  | _, _, _ => EffX.lift (.error .stuck)

/-- New variables, and variables of the same block that are assigned. -/
def redefineAll : List String → List (Option Nat) → List Val → Vars → Comp Vars
  | [], [], [], vs => .ok vs
  | n :: ns, none :: os, x :: xs, vs => redefineAll ns os xs (if n = "_" then vs else vs ++ [typed x])
  | n :: ns, some p :: os, x :: xs, vs => (assign1 (.var p n) x vs).bind fun vs => redefineAll ns os xs vs
  | _, _, _, _ => .error .stuck

/-- What comes after a statement. -/
def Out.andThenX (k : Vars → EffX Out) : Out → EffX Out
  | .norm vs => k vs
  | o => EffX.ok o

/-- What comes after the first part of `if`. -/
def Out.onlyX (k : Vars → EffX Out) : Out → EffX Out
  | .norm vs => k vs
  | _ => EffX.lift (.error .stuck)

/-- What comes after the body of a loop. -/
def Out.iterateX (k : Vars → EffX Out) : Out → EffX Out
  | .norm vs | .cont vs => k vs
  | .brk vs => EffX.ok (.norm vs)
  | .ret xs => EffX.ok (.ret xs)

/-- `for i, v := range` -/
def rangeLoopX (body : Vars → EffX Out) (i v : String) : List Item → Vars → EffX Out
  | [], vs => EffX.ok (.norm vs)
  | x :: xs, vs => (EffX.up x.get).bind fun p => (body (vs ++ bindings i v p.1 p.2)).bind fun o =>
    (o.leave vs.length).iterateX fun vs => rangeLoopX body i v xs vs

/-- The function that `Scan` calls returns whether to go on. -/
def Out.goOnX (k : Vars → EffX Out) (vs : Vars) : Out → EffX Out
  | .ret [.bool true] => k vs
  | .ret [.bool false] => EffX.ok (.norm vs)
  | _ => EffX.lift (.error .stuck)

/-- `Scan` over these entries. -/
def scanLoopX (body : Vars → EffX Out) : List (Bytes × Ref) → Vars → EffX Out
  | [], vs => EffX.ok (.norm vs)
  | x :: xs, vs => (body (vs ++ [.str x.1, .ptr x.2])).bind fun o => o.goOnX (fun vs => scanLoopX body xs vs) vs

/-- `for ; cond; post { body }` -/
def whileLoopX (cond : Vars → EffX Val) (post body : Vars → EffX Out) : (fuel : Nat) → Vars → EffX Out
  | 0, _ => EffX.lift (.error (.fault .outOfFuel))
  | fuel + 1, vs => (cond vs).bind fun x =>
    x.condX ((body vs).bind (Out.iterateX fun vs => (post vs).bind (Out.onlyX fun vs => whileLoopX cond post body fuel vs)))
      (EffX.ok (.norm vs))

/-- The end of `switch`. -/
def Out.endSwitch : Out → Out
  | .brk vs => .norm vs
  | o => o

/-- Whether the value at the last place, that of `switch`, is equal to that of `case`. -/
def caseMatches (w : Nat) (vs : Vars) (y : Val) : Comp Val := (getVar vs (vs.length - 1)).bind fun x => binOpX w .eq x y

/-- The meaning of a statement; compare `execM`. -/
def execX (fuel : Nat) : Stmt → Vars → EffX Out
  | .skip, vs => EffX.ok (.norm vs)
  | .seq a b, vs => (execX fuel a vs).bind (Out.andThenX fun vs => execX fuel b vs)
  | .block s, vs => (execX fuel s vs).bind fun o => EffX.ok (o.leave vs.length)
  | .assign ls es, vs => (rhsX c callX es vs).bind fun xs => (storesX ls xs vs).bind fun vs => EffX.ok (.norm vs)
  | .define ns es, vs => (rhsX c callX es vs).bind fun xs => EffX.lift ((defineAll ns xs vs).bind fun vs => .ok (.norm vs))
  | .redefine ns olds es, vs => (rhsX c callX es vs).bind fun xs => EffX.lift ((redefineAll ns olds xs vs).bind fun vs => .ok (.norm vs))
  | .declare ns t, vs => EffX.ok (.norm (vs ++ ns.map fun _ => t.zero))
  | .ite init e a b, vs => (execX fuel init vs).bind (Out.onlyX fun vs' => (evalX c callX e vs').bind fun x =>
      x.condX ((execX fuel a vs').bind fun o => EffX.ok (o.leave vs.length)) ((execX fuel b vs').bind fun o => EffX.ok (o.leave vs.length)))
  | .assignOp op l e, vs => (EffX.lift (lhsVal l vs)).bind fun x => (evalX c callX e vs).bind fun y =>
      EffX.lift ((binOp c.w op x y).bind fun z => (assign1 l z vs).bind fun vs => .ok (.norm vs))
  | .incr n name, vs => EffX.lift ((lhsVal (.var n name) vs).bind fun x => (binOp c.w .add x (.num .const 1)).bind fun z =>
      (assign1 (.var n name) z vs).bind fun vs => .ok (.norm vs))
  | .declareGroup l, vs => EffX.ok (.norm (vs ++ l.map fun p => p.2.zero))
  | .loop init e post body, vs => (execX fuel init vs).bind (Out.onlyX fun vs' =>
      (whileLoopX (evalX c callX e) (execX fuel post)
        (fun vs => (execX fuel body vs).bind fun o => EffX.ok (o.leave vs.length)) fuel vs').bind fun o => EffX.ok (o.leave vs.length))
  | .range i v e body, vs => (evalX c callX e vs).bind fun x => (EffX.up (rangeOverM x)).bind fun l =>
      rangeLoopX (execX fuel body) i v l vs
  | .brk, vs => EffX.ok (.brk vs)
  | .cont, vs => EffX.ok (.cont vs)
  | .ret es, vs => (rhsX c callX es vs).bind fun xs => EffX.ok (.ret xs)
  | .expr e, vs => (evalX c callX e vs).bind fun _ => EffX.ok (.norm vs)
  | .scan e _ _ body, vs => (evalX c callX e vs).bind fun
      | .mapAt r =>
        if body.keeps vs.length then (EffX.ask (.scan r)).bind fun l => scanLoopX (execX fuel body) l vs else EffX.lift (.error .stuck)
      | _ => EffX.lift (.error .stuck)
  | .defer f args, vs => (evalsX c callX args vs).bind fun xs => EffX.deferred.bind fun l =>
      (EffX.setDeferred ((f, xs) :: l)).bind fun _ => EffX.ok (.norm vs)
  | .declareInit _ e, vs => (evalX c callX e vs).bind fun x => EffX.ok (.norm (vs ++ [typed x]))
  | .switch e cs, vs => (evalX c callX e vs).bind fun x => (execX fuel cs (vs ++ [typed x])).bind fun o =>
      EffX.ok ((o.leave vs.length).endSwitch)
  | .case e b r, vs => (evalX c callX e vs).bind fun y => (EffX.lift (caseMatches c.w vs y)).bind fun x =>
      x.condX ((execX fuel b vs).bind fun o => EffX.ok (o.leave vs.length)) (execX fuel r vs)
  | .dflt b, vs => (execX fuel b vs).bind fun o => EffX.ok (o.leave vs.length)
  | _, _ => EffX.lift (.error .stuck)

/-! ## Functions -/

/-- The deferred calls. -/
def runDeferred : List (Fn × List Val) → EffX Unit
  | [] => EffX.ok ()
  | (f, xs) :: l => (callX f xs).bind fun _ => runDeferred l

/-- A call of a function with text.  Whoever calls it has deferred other calls. -/
def Func.runX (fuel : Nat) (f : Func) (xs : List Val) : EffX Val :=
  if xs.length = (f.recv.toList ++ f.params).length then
    EffX.deferred.bind fun outer => (EffX.setDeferred []).bind fun _ =>
    (execX c callX fuel f.body (f.start xs)).bind fun o => (EffX.lift (f.finishM o)).bind fun v =>
    EffX.deferred.bind fun l => (runDeferred callX l).bind fun _ => (EffX.setDeferred outer).bind fun _ => EffX.ok v
  else EffX.lift (.error .stuck)

/-- The functions that log or call the operating system. -/
def Fn.asks : Fn → Bool
  | .processLine | .getPublicSuffixList | .getHardcodedPublicSuffixList | .trieConstruct
  | .formatAsPunycode | .Extract | .newHardcodedPSL | .downloadFile | .fileLastModifiedHours | .update | .checkCacheFile | .Update | .New
  | .PrintRes => true
  | _ => false

/-- A call. -/
def callSys (round : Rat → Rat) (c : Ctx) : (fuel : Nat) → Fn → List Val → EffX Val
  | 0, _, _ => EffX.lift (.error (.fault .outOfFuel))
  | fuel + 1, fn, xs =>
    if fn.asks then
      match Source.program fn with
      | some f => f.runX c (callSys round c fuel) fuel xs
      | none => EffX.lift (.error .stuck)
    else match builtinX round fn xs with
      | some r => r
      | none => EffX.up (callMem c (fuel + 1) fn xs)

end Fasttld.GoLang
