import Verif.Model.Work

/-!
# How much reading a list does: psl.go:30-100, fasttld.go:85-139

As in Model/Work.lean, the functions of Model/Psl.lean and Model/Trie.lean once more, with a count.  Counted are every iteration
of a loop; for `string(b)`, `strings.Split`, `strings.TrimSpace` and a comparison of two texts the length of the (first) text; two for
`strings.HasPrefix(line, "//")`; for `append` one for each element (what it takes on average, as the capacity doubles); for `Get` and `Set` one
and the length of the key; for `Scan` one for each entry.  Not counted: reading the file, and what `idna` does.
-/

namespace Fasttld
open Counted Trie

/-- psl.go:30-63 `processLine`. -/
def processLineC (idna : Idna) (rawLine : Bytes) (psl : Suffixes) (isPrivateSuffix : Bool) : Counted (Suffixes × Bool) :=
  step rawLine.length <|                                                         -- :31
  let line := trimSpace rawLine
  step line.length <|                                                            -- :32
  let isPrivateSuffix := if beginPrivate = line then true else isPrivateSuffix
  step 2 <|                                                                      -- :35
  if line.length = 0 ∨ (b! "//").isPrefixOf line then ret (psl, isPrivateSuffix)
  else match idna.toASCII line with
    | none => ret (psl, isPrivateSuffix)
    | some suffix =>
      let entries := if suffix ≠ line then [suffix, line] else [suffix]
      step (2 * line.length + 2 * entries.length) <|                             -- :45-62
      let psl :=
        if isPrivateSuffix then { psl with privateSuffixes := psl.privateSuffixes ++ entries }
        else { psl with publicSuffixes := psl.publicSuffixes ++ entries }
      ret ({ psl with allSuffixes := psl.allSuffixes ++ entries }, isPrivateSuffix)

/-- The loop of psl.go:80-82 and psl.go:96-98. -/
def processLinesC (idna : Idna) : List Bytes → Suffixes → Bool → Counted Suffixes
  | [], psl, _ => ret psl
  | line :: rest, psl, isPrivateSuffix => step 1 <|
    (processLineC idna line psl isPrivateSuffix).bind fun r => processLinesC idna rest r.1 r.2

/-- psl.go:72-84, once the file is read (`string(b)`, `strings.Split`), and psl.go:93-100. -/
def parsePSLC (idna : Idna) (text : Bytes) : Counted Suffixes :=
  step (2 * text.length) <| processLinesC idna (splitByte 10 text) ⟨[], [], []⟩ false

/-- fasttld.go:85-96 `nestedDict`: `Get`, `Set` if there was none, `Get`. -/
def nestedDictC (dic : Trie) : List Bytes → Counted Trie
  | [] => ret (.node true dic.kids)
  | key :: keys => step 1 <|
    (getC dic key).bind fun c =>
    match c with
    | some child =>
      step (1 + key.length) <|
      (nestedDictC child keys).bind fun v => ret (.node dic.isEnd (setKey dic.kids key v))
    | none =>
      step (2 * (1 + key.length)) <|
      (nestedDictC Trie.empty keys).bind fun v => ret (.node dic.isEnd (setKey dic.kids key v))

/-- The loop of fasttld.go:125-129. -/
def insertAllC : List Bytes → Trie → Counted Trie
  | [], t => ret t
  | suffix :: rest, t => step 1 <|
    step suffix.length <|                                                        -- :126
    let sp := splitByte 46 suffix
    step sp.length <|                                                            -- :127
    (nestedDictC t (reverse sp)).bind fun t => insertAllC rest t

/-- fasttld.go:125-138. -/
def buildTrieC (suffixList : List Bytes) : Counted Trie :=
  (insertAllC suffixList Trie.empty).bind fun t =>
  step (t.kids.length * (1 + (1 + (b! "*").length))) <|                          -- :131-136
  ret (.node t.isEnd (t.kids.map markWildcard))

/-- fasttld.go:101-139 `trieConstruct` once the list text is available. -/
def trieOfTextC (idna : Idna) (includePrivateSuffix : Bool) (text : Bytes) : Counted Trie :=
  (parsePSLC idna text).bind fun lists =>
  buildTrieC (if includePrivateSuffix then lists.allSuffixes else lists.publicSuffixes)

mutual
/-- The number of nodes. -/
def Trie.size : Trie → Nat
  | .node _ ks => 1 + sizeKids ks
/-- The number of nodes below. -/
def Trie.sizeKids : List (Bytes × Trie) → Nat
  | [] => 0
  | (_, t) :: ks => t.size + sizeKids ks
end

end Fasttld
