import Verif.Model.Memory

/-!
# The suffix trie in memory, when the pointer to it synchronises

In Model/Memory.lean either every access sees all earlier ones (`Sys`), or a load may return any earlier value (`WSys`).
Here is what lies in between: release and acquire.  A goroutine has a view, that is, for every node how many of the stores
to it the goroutine knows of.  A load returns any value that is not older than these.  A goroutine that loads
`f.tldTrie` (fasttld.go:278) also knows all that was known to the one that stored it (psl.go:209).
The code has no such synchronisation in its text; it is what most processors provide, or what an atomic pointer would.
-/

namespace Fasttld

/-- How many of the stores to each node are known. -/
abbrev View := Ref → Nat

/-- All that is known from either of two views. -/
def View.join (v w : View) : View := fun x => max (v x) (w x)

/-- Now `n` stores to `r` are known. -/
def View.know (v : View) (r : Ref) (n : Nat) : View := fun x => if x = r then max (v x) n else v x

/-- Memory with all values ever stored in each place, latest first.  With each pointer goes the view of the goroutine that
stored it. -/
structure VMem where
  nodes : Ref → List HNode
  root : List (Ref × View)

/-- A store to node `r`. -/
def VMem.push (m : VMem) (r : Ref) (nd : HNode) : VMem :=
  { m with nodes := fun x => if x = r then nd :: m.nodes x else m.nodes x }

/-- With the view `v`, a load from node `r` may return `nd`. -/
def VMem.Sees (m : VMem) (v : View) (r : Ref) (nd : HNode) : Prop :=
  ∃ c, (m.nodes r)[c]? = some nd ∧ v r + c ≤ (m.nodes r).length

/-- The access of a goroutine with the view `v` may yield `b`, leave the memory `m'` and the view `v'`.
If `atomic` then loads of `f.tldTrie` return the latest pointer, else any pointer that was ever stored. -/
def MOp.DoesV (atomic : Bool) : {β : Type} → MOp β → VMem → View → β → VMem → View → Prop
  | _, .loadRoot, m, v, b, m', v' =>
    ∃ w, (b, w) ∈ m.root ∧ (atomic = true → m.root.head? = some (b, w)) ∧ m' = m ∧ v' = v.join w
  | _, .storeRoot r, m, v, _, m', v' => m' = { m with root := (r, v) :: m.root } ∧ v' = v
  | _, .alloc, m, v, b, m', v' => m.nodes b = [] ∧ m' = m.push b ⟨false, []⟩ ∧ v' = v.know b 1
  | _, .get r key, m, v, b, m', v' => ∃ nd, m.Sees v r nd ∧ b = hget nd.kids key ∧ m' = m ∧ v' = v
  | _, .set r key x, m, v, _, m', v' =>
    ∃ nd, m.Sees v r nd ∧ m' = m.push r ⟨nd.isEnd, hset nd.kids key x⟩ ∧ v' = v.know r ((m.nodes r).length + 1)
  | _, .isEnd r, m, v, b, m', v' => ∃ nd, m.Sees v r nd ∧ b = nd.isEnd ∧ m' = m ∧ v' = v
  | _, .setEnd r, m, v, _, m', v' =>
    ∃ nd, m.Sees v r nd ∧ m' = m.push r ⟨true, nd.kids⟩ ∧ v' = v.know r ((m.nodes r).length + 1)
  | _, .len r, m, v, b, m', v' => ∃ nd, m.Sees v r nd ∧ b = nd.kids.length ∧ m' = m ∧ v' = v
  | _, .nil, _, _, _, _, _ => False
  | _, .scan r, m, v, b, m', v' => ∃ nd, m.Sees v r nd ∧ b.Perm nd.kids ∧ m' = m ∧ v' = v

/-- All goroutines with their views, and the memory they share. -/
structure VSys where
  mem : VMem
  threads : List (MProg Outcome)
  views : Nat → View

/-- Goroutine `i` makes its next access. -/
inductive VStep (atomic : Bool) (i : Nat) : VSys → VSys → Prop
  | mk {s : VSys} {β : Type} {o : MOp β} {k : β → MProg Outcome} {b : β} {m' : VMem} {v' : View}
      (h : s.threads[i]? = some (.call o k)) (hd : o.DoesV atomic s.mem (s.views i) b m' v') :
      VStep atomic i s ⟨m', s.threads.set i (k b), fun j => if j = i then v' else s.views j⟩

/-- Any number of accesses by any goroutines. -/
inductive VSteps (atomic : Bool) : VSys → VSys → Prop
  | refl (s : VSys) : VSteps atomic s s
  | tail {s s' s'' : VSys} {i : Nat} (h : VSteps atomic s s') (h' : VStep atomic i s' s'') : VSteps atomic s s''

/-- The latest values. -/
def VMem.latest (m : VMem) : Nodes := fun r => (m.nodes r).head?

/-- The memory that holds the latest values (there always is a pointer). -/
def VMem.now (m : VMem) : Mem := ⟨m.latest, (m.root.head?.map Prod.fst).getD 0⟩

/-- The goroutines with the latest values. -/
def VSys.now (s : VSys) : Sys := ⟨s.mem.now, s.threads⟩

end Fasttld
