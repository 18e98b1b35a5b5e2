import Verif.Model.Strings

/-!
# fasttld.go:74-139: the suffix trie

`hashmap.Map[string, *trie]` is modelled as an association list with at most the operations the code
uses: `Get`, `Set` (replace or add), `Len`, `Scan`.  Every node has exactly one parent pointer in the
code, so a tree value represents the heap structure and "mutate through the pointer" becomes
"rebuild the path".
-/

namespace Fasttld

/-- fasttld.go:76-79 `type trie struct { matches hashmap.Map[string, *trie]; end bool }`. -/
inductive Trie
  | node (isEnd : Bool) (kids : List (Bytes × Trie))

namespace Trie

/-- Field `end`. -/
def isEnd : Trie → Bool
  | .node e _ => e

/-- Field `matches`. -/
def kids : Trie → List (Bytes × Trie)
  | .node _ ks => ks

/-- `&trie{}`: fasttld.go:89-90, 102-103. -/
def empty : Trie := .node false []

/-- `matches.Get(key)`. -/
def lookup : List (Bytes × Trie) → Bytes → Option Trie
  | [], _ => none
  | (k, v) :: rest, key => if k = key then some v else lookup rest key

/-- `matches.Set(key, value)`. -/
def setKey : List (Bytes × Trie) → Bytes → Trie → List (Bytes × Trie)
  | [], key, v => [(key, v)]
  | (k, w) :: rest, key, v => if k = key then (k, v) :: rest else (k, w) :: setKey rest key v

/-- `node.matches.Get(key)`. -/
def get (t : Trie) (key : Bytes) : Option Trie := lookup t.kids key

end Trie

open Trie

/-- fasttld.go:85-96 `nestedDict`: follows `keys` from `dic`, creating missing nodes, and sets
`end = true` on the last one.  Returns the updated node. -/
def nestedDict (dic : Trie) : List Bytes → Trie
  | [] => .node true dic.kids                                                -- :95
  | key :: keys =>
    let child := match dic.get key with                                      -- :87-92
      | some c => c
      | none => Trie.empty
    .node dic.isEnd (setKey dic.kids key (nestedDict child keys))

/-- `strings.Split(s, string(sep))` for a one-byte separator (standard library). -/
def splitByte (sep : UInt8) : Bytes → List Bytes
  | [] => [[]]
  | c :: rest =>
    if c = sep then [] :: splitByte sep rest
    else match splitByte sep rest with
      | [] => [[c]]
      | w :: ws => (c :: w) :: ws

/-- Body of the loop fasttld.go:125-129. -/
def insertSuffix (t : Trie) (suffix : Bytes) : Trie :=
  nestedDict t (reverse (splitByte 46 suffix))

/-- The callback of fasttld.go:131-136 on one top-level entry. -/
def markWildcard (kv : Bytes × Trie) : Bytes × Trie :=
  match kv.2.get (b! "*") with
  | some _ => (kv.1, .node true kv.2.kids)
  | none => kv

/-- fasttld.go:125-138: build the trie of a suffix list and mark the top-level parents of wildcards. -/
def buildTrie (suffixList : List Bytes) : Trie :=
  let t := suffixList.foldl insertSuffix Trie.empty
  .node t.isEnd (t.kids.map markWildcard)

end Fasttld
