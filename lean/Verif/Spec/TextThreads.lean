import Verif.Spec.Accesses
import Verif.Spec.Memory

/-!
# Goroutines that run the text
-/

namespace Fasttld.GoLang
open Fasttld

/-- What a goroutine is asked to do: a call of Extract; an Update from the point where the list is in the file. -/
inductive TextJob
  | extract (e : URLParams)
  | update (incl : Bool) (path : Bytes)

/-- What comes after the call of trieConstruct, psl.go:206-211: without an error the trie is published. -/
def publish : Comp (Val × Arrays) → MProg (Comp (Val × Arrays))
  | .ok (.tuple [.ptr r, .err none], A) => .call (.storeRoot r) fun _ => .ret (.ok (.err none, A))
  | .ok (.tuple [.ptr _, .err (some e)], A) => .ret (.ok (.err (some e), A))
  | .ok _ => .ret (.error .stuck)
  | .error t => .ret (.error t)

/-- The program of a goroutine: the text of Extract or trieConstruct. -/
def TextJob.prog (c : Ctx) (fuel : Nat) : TextJob → MProg (Comp (Val × Arrays))
  | .extract e => runText c fuel .Extract [.ext, .params e]
  | .update incl path => (runText c fuel .trieConstruct [.bool incl, .str path]).bind publish

/-- All goroutines and the memory they share. -/
structure TextSys where
  mem : Mem
  threads : List (MProg (Comp (Val × Arrays)))

/-- Goroutine `i` makes its next access. -/
inductive TextStep (i : Nat) : TextSys → TextSys → Prop
  | mk {s : TextSys} {β : Type} {o : MOp β} {k : β → MProg (Comp (Val × Arrays))} {b : β} {m' : Mem}
      (h : s.threads[i]? = some (.call o k)) (hd : o.Does s.mem b m') :
      TextStep i s ⟨m', s.threads.set i (k b)⟩

/-- Any number of accesses by any goroutines. -/
inductive TextSteps : TextSys → TextSys → Prop
  | refl (s : TextSys) : TextSteps s s
  | tail {s s' s'' : TextSys} {i : Nat} (h : TextSteps s s') (h' : TextStep i s' s'') : TextSteps s s''

/-- All goroutines at their start, and `f.tldTrie` points to the structure for `rules0`. -/
structure TextStart (c : Ctx) (fuel : Nat) (jobs : List TextJob) (rules0 : List Bytes) (s : TextSys) : Prop where
  root : Spec.Holds s.mem.nodes s.mem.root rules0
  finite : ∃ N, ∀ r, N ≤ r → s.mem.nodes r = none
  threads : s.threads = jobs.map (TextJob.prog c fuel)

/-- The sizes that the text is right for, and that the lists can be read. -/
def TextJob.Fits (w : Nat) (idna : Idna) (texts : Lib) : TextJob → Prop
  | .extract e => (e.url.length : Int) + 4 < 2 ^ (w - 1) ∧
      ∀ v a : Bytes, v.length ≤ e.url.length → idna.lookupASCII v = some a → (a.length : Int) + 4 < 2 ^ (w - 1)
  | .update incl path => ∃ text, listText texts path = .ok text ∧ ∀ s ∈ rulesOf idna incl text, (s.length : Int) + 1 < 2 ^ (w - 1)

/-- Goroutine `j` is an Update that is done, and these are the rules of its list. -/
def TextSys.Updated (idna : Idna) (texts : Lib) (jobs : List TextJob) (s : TextSys) (j : Nat) (rules : List Bytes) : Prop :=
  ∃ incl path text A, jobs[j]? = some (.update incl path) ∧ listText texts path = .ok text ∧ rules = rulesOf idna incl text ∧
    s.threads[j]? = some (.ret (.ok (.err none, A)))

end Fasttld.GoLang
