import Verif.Proofs.SourceTrie
import Verif.Proofs.SourceRun
import Verif.Proofs.LoadWork
import Verif.Props.Memory
import Verif.Props.SourcePsl

/-!
# C81: building the trie, by the text

The text of reverse, nestedDict and trieConstruct (Model/Source.lean), run by the rules of the language with memory
(Model/GoMem.lean), makes the accesses of the model (Model/Memory.lean), and no others.  So what C51 says of the model holds
for the text.
-/

namespace Fasttld.Props
open Fasttld Fasttld.GoLang

variable {w : Nat} (hw : 32 ≤ w) (idna : Idna) (texts : Lib) (isPrint : Nat → Bool)

include hw

/-- C81: reverse, strings.go:216-220: the array of the slice has its elements in the opposite order, and nothing else changes. -/
theorem C81_reverse (arrays : Arrays) (a : Nat) (l : List Bytes) (ha : arrays[a]? = some l) (hl : (l.length : Int) < 2 ^ (w - 1)) :
    ∃ N, ∀ fuel, N ≤ fuel → callMem (sourceCtx w idna texts isPrint) fuel .reverse [.array a] arrays =
      .ret (.ok (.tuple [], arrays.set a l.reverse)) := by
  rw [sourceCtx_eq (big_of hw) (two31_le hw)]
  refine ⟨l.length + 3, fun fuel h => ?_⟩
  obtain ⟨f, rfl⟩ : ∃ m, fuel = m + 2 := ⟨fuel - 2, by omega⟩
  rw [run_reverse (big_of hw) f a l arrays ha hl (by omega), reverse_eq]

/-- C81: nestedDict, fasttld.go:85-96: the accesses of the model. -/
theorem C81_nestedDict (arrays : Arrays) (a : Nat) (l : List Bytes) (ha : arrays[a]? = some l) (dic : Ref) :
    ∃ N, ∀ fuel, N ≤ fuel → Sim (fun v _ => v = .ok (.tuple [], arrays))
      (callMem (sourceCtx w idna texts isPrint) fuel .nestedDict [.ptr dic, .array a] arrays) (nestedDictH dic l) := by
  rw [sourceCtx_eq (big_of hw) (two31_le hw)]
  refine ⟨2, fun fuel h => ?_⟩
  obtain ⟨f, rfl⟩ : ∃ m, fuel = m + 2 := ⟨fuel - 2, by omega⟩
  exact run_nestedDict f a l arrays ha dic

/-- C81: trieConstruct, fasttld.go:101-139: the accesses of the model for the rules of the text that is read, then a pointer to
the root and no error. -/
theorem C81_accesses (incl : Bool) (path text : Bytes) (ht : listText texts path = .ok text)
    (hl : ∀ s ∈ rulesOf idna incl text, (s.length : Int) + 1 < 2 ^ (w - 1)) :
    ∃ N, ∀ fuel, N ≤ fuel →
      Sim Built (runText (sourceCtx w idna texts isPrint) fuel .trieConstruct [.bool incl, .str path]) (buildTrieH (rulesOf idna incl text)) := by
  rw [sourceCtx_eq (big_of hw) (two31_le hw)]
  refine ⟨weight (rulesOf idna incl text) + 6, fun fuel h => ?_⟩
  obtain ⟨f, rfl⟩ : ∃ m, fuel = m + 4 := ⟨fuel - 4, by omega⟩
  refine GoLang.run_trieConstruct f (big_of hw) incl path text [] ht fun s hs => ?_
  have h1 : (splitByte 46 s).length ≤ s.length + 1 := weight_split 46 s ▸ length_le_weight _
  have h2 := hl s hs
  have h3 : ∀ l : List Bytes, s ∈ l → s.length + 1 ≤ weight l := by
    intro l
    induction l with
    | nil => simp
    | cons x l ih =>
      intro hx
      rcases List.mem_cons.1 hx with rfl | hx
      · simp [weight]
      · have := ih hx
        simp [weight]; omega
  have h4 := h3 _ hs
  exact ⟨by omega, by omega⟩

/-- C81: without the file, one empty node and the error. -/
theorem C81_error (incl : Bool) (path e : Bytes) (ht : listText texts path = .error e) :
    ∃ N, ∀ fuel, N ≤ fuel → runText (sourceCtx w idna texts isPrint) fuel .trieConstruct [.bool incl, .str path] =
      .call .alloc fun r => .ret (.ok (.tuple [.ptr r, .err (some e)], [])) := by
  rw [sourceCtx_eq (big_of hw) (two31_le hw)]
  refine ⟨4, fun fuel h => ?_⟩
  obtain ⟨f, rfl⟩ : ∃ m, fuel = m + 4 := ⟨fuel - 4, by omega⟩
  exact GoLang.run_trieConstruct_error f incl path e [] ht

/-- C81: in any memory, with any choice of the addresses of new nodes and of the order of Scan: the text ends without a
panic, with a pointer to the structure for the rules of the list; nothing that was in memory has changed. -/
theorem C81_build (incl : Bool) (path text : Bytes) (ht : listText texts path = .ok text)
    (hl : ∀ s ∈ rulesOf idna incl text, (s.length : Int) + 1 < 2 ^ (w - 1)) :
    ∃ N, ∀ fuel, N ≤ fuel → ∀ m : Mem,
      (∀ v m', Fasttld.Runs (runText (sourceCtx w idna texts isPrint) fuel .trieConstruct [.bool incl, .str path]) m v m' →
        ∃ r arrays, v = .ok (.tuple [.ptr r, .err none], arrays) ∧ Spec.Holds m'.nodes r (rulesOf idna incl text) ∧ m'.nodes.Unshared r ∧
          m'.root = m.root ∧ ∀ x nd, m.nodes x = some nd → m'.nodes x = some nd) ∧
      ((∃ N, ∀ r, N ≤ r → m.nodes r = none) → ∃ v m',
        Fasttld.Runs (runText (sourceCtx w idna texts isPrint) fuel .trieConstruct [.bool incl, .str path]) m v m') := by
  obtain ⟨N, h⟩ := C81_accesses hw idna texts isPrint incl path text ht hl
  refine ⟨N, fun fuel hf m => ⟨fun v m' hr => ?_, fun hm => ?_⟩⟩
  · obtain ⟨r, ⟨A, hv⟩, hr'⟩ := (h fuel hf).runs hr
    exact ⟨r, A, hv, C51_build _ hr'⟩
  · obtain ⟨r, m', h1, -⟩ := C51_build_ends (rulesOf idna incl text) m hm
    obtain ⟨v, -, h2⟩ := (h fuel hf).symm.runs h1
    exact ⟨v, m', h2⟩

omit hw

/-! ## Concrete cases: the text, run -/

/-- Running alone, with the addresses in order. -/
def runAlone {α : Type} : MProg α → WMem → Option (α × WMem)
  | .ret a, m => some (a, m)
  | .call o k, m => match o.weak 0 0 m with
    | some (b, m') => runAlone (k b) m'
    | none => none

/-- Memory with nothing in it but an empty root. -/
def freshMem : WMem := ⟨fun r => if r = 0 then [(⟨false, []⟩, 0)] else [], [(0, 0)], 1⟩

/-- The nodes that a path visits, with their marks. -/
def pathMarks (m : WMem) (r : Ref) : List Bytes → List Bool
  | [] => (m.nodes r).head?.toList.map fun nd => nd.1.isEnd
  | l :: p => match (m.nodes r).head? with
    | some nd => nd.1.isEnd :: ((hget nd.1.kids l).map fun x => pathMarks m x p).getD []
    | none => []

/-- Running trieConstruct: whether there is an error, how many nodes there are and what is on some paths. -/
def builtPaths (incl : Bool) (path : Bytes) (ps : List (List Bytes)) : Option (Bool × Nat × List (List Bool)) :=
  match runAlone (runText pslCtx 30 .trieConstruct [.bool incl, .str path]) freshMem with
  | some (.ok (.tuple [.ptr r, .err e], _), m) => some (e.isSome, m.next, ps.map (pathMarks m r))
  | _ => none

-- the file has *.ck and ü; ck is marked because of the wildcard below it
example : builtPaths false (b! "f") [[b! "ck", b! "*"], [b! "xn--tda"], [b! "ck", b! "a"]] =
    some (false, 6, [[false, true, true], [false, true], [false, true]]) := by decide +kernel
-- the built-in list, with and without the private section
example : builtPaths true [] [[b! "a"], [b! "b"]] = some (false, 4, [[false, true], [false, true]]) ∧
    builtPaths false [] [[b! "a"], [b! "b"]] = some (false, 3, [[false, true], [false]]) := by decide +kernel
-- no file
example : builtPaths true (b! "g") [[b! "a"]] = some (true, 2, [[false]]) := by decide +kernel
-- reverse
example : (match runAlone (callMem pslCtx 30 .reverse [.array 1] [[b! "x"], [b! "a", b! "b", b! "c"]]) freshMem with
    | some (.ok (.tuple [], A), _) => some A
    | _ => none) = some [[b! "x"], [b! "c", b! "b", b! "a"]] := by decide +kernel
-- nestedDict: the nodes on the path are there already, or are made; only the last one is marked
example : (match runAlone ((callMem pslCtx 30 .nestedDict [.ptr 0, .array 0] [[b! "uk", b! "co"]]).bind fun _ =>
      callMem pslCtx 30 .nestedDict [.ptr 0, .array 0] [[b! "uk"]]) freshMem with
    | some (.ok (.tuple [], _), m) => some (m.next, pathMarks m 0 [b! "uk", b! "co"])
    | _ => none) = some (3, [false, true, true]) := by decide +kernel

end Fasttld.Props
