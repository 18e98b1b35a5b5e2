import Verif.Model.Extract

/-!
# The suffix trie in memory: fasttld.go:76-139, 278-338; psl.go:207-211

Model/Trie.lean has the trie as a value.  Here it is what it is in the code: nodes in memory that point to each other,
built in place by Update (or New) and read by any number of calls of Extract at the same time.

A program is a tree of accesses to memory shared by all goroutines.  Accesses of different goroutines interleave in any
order, each access is atomic and sees all earlier ones (sequential consistency; see DESIGN.md for what Go promises).
One access is one operation on a `hashmap.Map`, one load or store of a field `end`, one load or store of `f.tldTrie`.
-/

namespace Fasttld

/-- `*trie`, other than nil. -/
abbrev Ref := Nat

/-- fasttld.go:76-79 `type trie struct` in memory. -/
structure HNode where
  isEnd : Bool
  kids : List (Bytes × Ref)
  deriving DecidableEq, Repr

/-- `matches.Get(key)`. -/
def hget : List (Bytes × Ref) → Bytes → Option Ref
  | [], _ => none
  | (k, v) :: rest, key => if k = key then some v else hget rest key

/-- `matches.Set(key, value)`. -/
def hset : List (Bytes × Ref) → Bytes → Ref → List (Bytes × Ref)
  | [], key, v => [(key, v)]
  | (k, w) :: rest, key, v => if k = key then (k, v) :: rest else (k, w) :: hset rest key v

/-- The nodes in memory. -/
abbrev Nodes := Ref → Option HNode

/-- One node replaced. -/
def Nodes.put (m : Nodes) (r : Ref) (nd : HNode) : Nodes := fun x => if x = r then some nd else m x

/-- The memory: the nodes, and the field `tldTrie` of the extractor. -/
structure Mem where
  nodes : Nodes
  root : Ref

/-- Accesses to memory. -/
inductive MOp : Type → Type
  /-- load `f.tldTrie`, fasttld.go:278 -/
  | loadRoot : MOp Ref
  /-- store `f.tldTrie`, psl.go:209 -/
  | storeRoot (r : Ref) : MOp Unit
  /-- `&trie{matches: m}`, fasttld.go:90, 103 -/
  | alloc : MOp Ref
  /-- `r.matches.Get(key)`, fasttld.go:87, 92, 132, 309, 312, 320 -/
  | get (r : Ref) (key : Bytes) : MOp (Option Ref)
  /-- `r.matches.Set(key, v)`, fasttld.go:90 -/
  | set (r : Ref) (key : Bytes) (v : Ref) : MOp Unit
  /-- load `r.end`, fasttld.go:322 -/
  | isEnd (r : Ref) : MOp Bool
  /-- `r.end = true`, fasttld.go:95, 133 -/
  | setEnd (r : Ref) : MOp Unit
  /-- `r.matches.Len()`, fasttld.go:329 -/
  | len (r : Ref) : MOp Nat
  /-- access through a nil pointer, which is a panic -/
  | nil : MOp Unit
  /-- the entries that `r.matches.Scan` visits, in whatever order, fasttld.go:131 -/
  | scan (r : Ref) : MOp (List (Bytes × Ref))

/-- The access yields `b` and leaves the memory `m'`.  There is no such `b` if the pointer does not lead to a node. -/
def MOp.Does : {β : Type} → MOp β → Mem → β → Mem → Prop
  | _, .loadRoot, m, b, m' => b = m.root ∧ m' = m
  | _, .storeRoot r, m, _, m' => m' = { m with root := r }
  | _, .alloc, m, b, m' => m.nodes b = none ∧ m' = { m with nodes := m.nodes.put b ⟨false, []⟩ }
  | _, .get r key, m, b, m' => ∃ nd, m.nodes r = some nd ∧ b = hget nd.kids key ∧ m' = m
  | _, .set r key v, m, _, m' =>
    ∃ nd, m.nodes r = some nd ∧ m' = { m with nodes := m.nodes.put r ⟨nd.isEnd, hset nd.kids key v⟩ }
  | _, .isEnd r, m, b, m' => ∃ nd, m.nodes r = some nd ∧ b = nd.isEnd ∧ m' = m
  | _, .setEnd r, m, _, m' => ∃ nd, m.nodes r = some nd ∧ m' = { m with nodes := m.nodes.put r ⟨true, nd.kids⟩ }
  | _, .len r, m, b, m' => ∃ nd, m.nodes r = some nd ∧ b = nd.kids.length ∧ m' = m
  | _, .nil, _, _, _ => False
  | _, .scan r, m, b, m' => ∃ nd, m.nodes r = some nd ∧ b.Perm nd.kids ∧ m' = m

/-- Programs that access memory. -/
inductive MProg (α : Type) : Type 1
  | ret (a : α) : MProg α
  | call {β : Type} (o : MOp β) (k : β → MProg α) : MProg α

/-- Sequencing. -/
def MProg.bind {α γ : Type} : MProg α → (α → MProg γ) → MProg γ
  | .ret a, f => f a
  | .call o k, f => .call o (fun b => (k b).bind f)

instance : Monad MProg where
  pure := .ret
  bind := MProg.bind

/-- An access as a program. -/
def MOp.ask {β : Type} (o : MOp β) : MProg β := .call o .ret

/-! ## Building the trie -/

/-- fasttld.go:87-91: a node for `key` below `dic` is made if there is none. -/
def ensureH (dic : Ref) (key : Bytes) : MProg Unit := do
  match ← (MOp.get dic key).ask with
  | some _ => return ()
  | none =>
    let n ← MOp.alloc.ask
    (MOp.set dic key n).ask

/-- fasttld.go:85-96 `nestedDict`. -/
def nestedDictH (dic : Ref) : List Bytes → MProg Unit
  | [] => (MOp.setEnd dic).ask                                               -- :95
  | key :: keys => do
    ensureH dic key
    match ← (MOp.get dic key).ask with                                       -- :92
    | some dic => nestedDictH dic keys
    | none => MOp.nil.ask

/-- fasttld.go:125-129 -/
def insertAllH (root : Ref) : List Bytes → MProg Unit
  | [] => return ()
  | suffix :: rest => do
    nestedDictH root (reverse (splitByte 46 suffix))
    insertAllH root rest

/-- fasttld.go:131-136, the callback of Scan on the entries. -/
def markAllH : List (Bytes × Ref) → MProg Unit
  | [] => return ()
  | (_, value) :: rest => do
    match ← (MOp.get value (b! "*")).ask with
    | some _ =>
      (MOp.setEnd value).ask
      markAllH rest
    | none => markAllH rest

/-- fasttld.go:102-103, 125-138: the part of `trieConstruct` that builds the trie. -/
def buildTrieH (suffixList : List Bytes) : MProg Ref := do
  let root ← MOp.alloc.ask
  insertAllH root suffixList
  let entries ← (MOp.scan root).ask
  markAllH entries
  return root

/-! ## Reading the trie -/

/-- fasttld.go:322-326 -/
def endH (val : Ref) (w : Walk) : MProg Walk :=
  if !w.hasSuffix then do
    let e ← (MOp.isEnd val).ask
    return (if e then { w with suffixEndIdx := w.previousSepIdx, hasSuffix := true } else w)
  else return w

/-- fasttld.go:309-337; compare `walkLabel`. -/
def walkLabelH (netloc : Bytes) (node : Ref) (label : Bytes) (isLast : Bool) (w : Walk)
    (continue_ : Ref → Walk → MProg (M Walk)) : MProg (M Walk) := do
  match ← (MOp.get node (b! "*")).ask with
  | some _ =>
    match ← (MOp.get node (33 :: label)).ask with
    | some _ => return .ok { w with sepIdx := w.previousSepIdx }
    | none => return .ok w
  | none =>
    match ← (MOp.get node (unescapeOrEmpty label)).ask with
    | some val =>
      let w ← endH val { w with suffixStartIdx := w.sepIdx }
      let n ← (MOp.len val).ask
      if n = 0 then return .ok w
      else if isLast then return .ok w
      else continue_ val w
    | none => return (if w.previousSepIdx ≠ netloc.length then .ok { w with sepIdx := w.previousSepIdx } else .ok w)

/-- What an iteration of fasttld.go:288-338 does before it looks at the trie. -/
inductive Head
  | skip (w : Walk)
  | label (l : Bytes) (isLast : Bool) (w : Walk)

/-- fasttld.go:290-307; compare `walkLoop`. -/
def walkHead (netloc : Bytes) (u : ExtractResult) (hasLabels : Bool) (w : Walk) : M Head :=
  let previousSepIdx := w.sepIdx
  (liftGo (slice netloc 0 w.sepIdx)) >>= fun pre =>
  (liftGo (lastIndexAny pre labelSeparatorsRuneSet)) >>= fun sepIdx =>
  if sepIdx ≠ -1 then
    (liftGo (index netloc sepIdx)) >>= fun b =>
    (liftGo (slice netloc (sepIdx + sepSize b) previousSepIdx)) >>= fun label =>
    if label.length = 0 then
      if !hasLabels then
        .ok (.skip { w with previousSepIdx := previousSepIdx, sepIdx := sepIdx, suffixEndIdx := sepIdx })
      else fail u .consecutiveSeparators
    else .ok (.label label false { w with previousSepIdx := previousSepIdx, sepIdx := sepIdx })
  else
    (liftGo (slice netloc 0 previousSepIdx)) >>= fun label =>
    .ok (.label label true { w with previousSepIdx := previousSepIdx, sepIdx := sepIdx })

/-- fasttld.go:288-338; compare `walkLoop`. -/
def walkLoopH (netloc : Bytes) (u : ExtractResult) :
    (fuel : Nat) → (node : Ref) → (hasLabels : Bool) → Walk → MProg (M Walk)
  | 0, _, _, _ => return .error (.fault .outOfFuel)
  | fuel + 1, node, hasLabels, w =>
    match walkHead netloc u hasLabels w with
    | .error s => return .error s
    | .ok (.skip w) => walkLoopH netloc u fuel node hasLabels w
    | .ok (.label l false w) => walkLabelH netloc node l false w (fun node w => walkLoopH netloc u fuel node true w)
    | .ok (.label l true w) => walkLabelH netloc node l true w (fun _ w => return .ok w)

/-- fasttld.go:146-275, everything before the trie is needed: the return values, or host and parts so far. -/
def beforeHost (idna : Idna) (e : URLParams) : M ((ExtractResult × Option Err) ⊕ (Bytes × ExtractResult)) :=
  (liftGo (fastTrim e.url whitespaceRuneSet .trimBoth)) >>= fun netloc =>
  (liftGo (stageScheme netloc {})) >>= fun r =>
  (liftGo (stageUserInfo r.2 r.1)) >>= fun r =>
  match scanLoop r.2.length r.2 0 (-1) (-1) with
  | .err er => fail r.1 er
  | .done opening closing hostEnd =>
    let hostEnd := adjustHostEnd r.2.length closing hostEnd
    (stageIPv6 r.2 opening closing hostEnd r.1) >>= fun u =>
    (liftGo (stageSplit r.2 hostEnd)) >>= fun hs =>
    (stagePortPath hs.2 u) >>= fun u =>
    if u.hostType = .iPv6 then .ok (.inl (u, none))
    else (stageIdna idna e hs.1 u) >>= fun netloc => .ok (.inr (netloc, u))

/-- fasttld.go:340-399, everything after the trie was read. -/
def afterWalk (e : URLParams) (netloc : Bytes) (u : ExtractResult) (w : Walk) : M (ExtractResult × Option Err) :=
  (liftGo (stageIPv4 netloc w u)) >>= fun ip4 =>
  match ip4 with
  | some u4 => .ok (u4, none)
  | none =>
    (stageCheckChars netloc w u) >>= fun w =>
    (liftGo (stageNames netloc w u)) >>= fun r =>
    (liftGo (stageSubDomain e netloc r.2 r.1)) >>= fun u =>
    if u.domain.length = 0 then fail u .emptyDomain
    else .ok ({ u with hostType := .hostName }, none)

/-- The return values, or the panic. -/
def returned : M (ExtractResult × Option Err) → Go (ExtractResult × Option Err)
  | .ok r => .ok r
  | .error (.ret u er) => .ok (u, er)
  | .error (.fault f) => .error f

/-- fasttld.go:142-400 `Extract`, reading the trie from memory. -/
def extractH (idna : Idna) (e : URLParams) : MProg (Go (ExtractResult × Option Err)) :=
  match beforeHost idna e with
  | .error s => return returned (.error s)
  | .ok (.inl r) => return .ok r
  | .ok (.inr (netloc, u)) => do
    let node ← MOp.loadRoot.ask                                              -- :278
    let n : Int := netloc.length
    let w ← walkLoopH netloc u (netloc.length + 2) node false
      { hasSuffix := false, previousSepIdx := 0, sepIdx := n, suffixStartIdx := n, suffixEndIdx := n }
    return returned (w >>= afterWalk e netloc u)

/-! ## Goroutines -/

/-- What a goroutine comes back with. -/
inductive Outcome
  | extracted (r : Go (ExtractResult × Option Err))
  | updated

/-- What a goroutine is asked to do: a call of Extract, or an Update that has read a list with these suffixes
(psl.go:192-206 touch no memory that Extract uses). -/
inductive Job
  | extract (e : URLParams)
  | update (suffixList : List Bytes)
  deriving DecidableEq, Repr

/-- psl.go:207-211: the trie is built, then published. -/
def updateH (suffixList : List Bytes) : MProg Outcome := do
  let tldTrie ← buildTrieH suffixList
  (MOp.storeRoot tldTrie).ask
  return .updated

/-- The program of a goroutine. -/
def Job.prog (idna : Idna) : Job → MProg Outcome
  | .extract e => do
    let r ← extractH idna e
    return .extracted r
  | .update suffixList => updateH suffixList

/-- All goroutines and the memory they share. -/
structure Sys where
  mem : Mem
  threads : List (MProg Outcome)

/-- Goroutine `i` makes its next access. -/
inductive Step (i : Nat) : Sys → Sys → Prop
  | mk {s : Sys} {β : Type} {o : MOp β} {k : β → MProg Outcome} {b : β} {m' : Mem}
      (h : s.threads[i]? = some (.call o k)) (hd : o.Does s.mem b m') :
      Step i s ⟨m', s.threads.set i (k b)⟩

/-- Any number of accesses by any goroutines. -/
inductive Steps : Sys → Sys → Prop
  | refl (s : Sys) : Steps s s
  | tail {s s' s'' : Sys} {i : Nat} (h : Steps s s') (h' : Step i s' s'') : Steps s s''

/-- A program that runs alone, from start to end. -/
inductive Runs {α : Type} : MProg α → Mem → α → Mem → Prop
  | ret (a : α) (m : Mem) : Runs (.ret a) m a m
  | call {β : Type} {o : MOp β} {k : β → MProg α} {b : β} {a : α} {m m' m'' : Mem} (hd : o.Does m b m')
      (h : Runs (k b) m' a m'') : Runs (.call o k) m a m''

/-! ## Goroutines without synchronisation

Extract and Update do not synchronise, so the Go memory model does not promise that a goroutine that sees the pointer
stored by another one also sees what was stored behind the pointer before.  Here a load may return any value ever
stored in the place, except that a goroutine does not see values older than one it has stored itself. -/

/-- The values ever stored in a place, latest first, each with the goroutine that stored it. -/
abbrev Hist (α : Type) := List (α × Nat)

/-- The `c`-th latest value, if goroutine `i` has stored nothing later. -/
def Hist.load {α : Type} (h : Hist α) (i c : Nat) : Option α :=
  if (h.take c).all (fun e => e.2 != i) then (h[c]?).map Prod.fst else none

/-- Memory with the past of every place; `next` is where the next node goes. -/
structure WMem where
  nodes : Ref → Hist HNode
  root : Hist Ref
  next : Ref

/-- A store by goroutine `i`. -/
def WMem.store (m : WMem) (i : Nat) (r : Ref) (nd : HNode) : WMem :=
  { m with nodes := fun x => if x = r then (nd, i) :: m.nodes x else m.nodes x }

/-- The access of goroutine `i` when it sees the `c`-th latest value. -/
def MOp.weak (i c : Nat) : {β : Type} → MOp β → WMem → Option (β × WMem)
  | _, .loadRoot, m => (m.root.load i c).map fun r => (r, m)
  | _, .storeRoot r, m => some ((), { m with root := (r, i) :: m.root })
  | _, .alloc, m => some (m.next, { m.store i m.next ⟨false, []⟩ with next := m.next + 1 })
  | _, .get r key, m => ((m.nodes r).load i c).map fun nd => (hget nd.kids key, m)
  | _, .set r key v, m => ((m.nodes r).load i c).map fun nd => ((), m.store i r ⟨nd.isEnd, hset nd.kids key v⟩)
  | _, .isEnd r, m => ((m.nodes r).load i c).map fun nd => (nd.isEnd, m)
  | _, .setEnd r, m => ((m.nodes r).load i c).map fun nd => ((), m.store i r ⟨true, nd.kids⟩)
  | _, .len r, m => ((m.nodes r).load i c).map fun nd => (nd.kids.length, m)
  | _, .nil, _ => none
  | _, .scan r, m => ((m.nodes r).load i c).map fun nd => (nd.kids, m)

/-- All goroutines. -/
structure WSys where
  mem : WMem
  threads : List (MProg Outcome)

/-- One access by goroutine `i`. -/
def WSys.step (s : WSys) (i c : Nat) : Option WSys :=
  match s.threads[i]? with
  | some (.call o k) => (o.weak i c s.mem).map fun r => ⟨r.2, s.threads.set i (k r.1)⟩
  | _ => none

/-- A schedule: which goroutine, and which of the past values it sees. -/
def WSys.run (s : WSys) : List (Nat × Nat) → Option WSys
  | [] => some s
  | (i, c) :: rest => (s.step i c).bind fun s => s.run rest

/-- What goroutine `i` came back with. -/
def WSys.outcome (s : WSys) (i : Nat) : Option Outcome :=
  match s.threads[i]? with
  | some (.ret a) => some a
  | _ => none

end Fasttld
