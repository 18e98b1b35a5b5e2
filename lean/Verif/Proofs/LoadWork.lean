import Verif.Model.LoadWork
import Verif.Proofs.Work
import Verif.Proofs.Trie

/-!
# Reading a list with a count: the same result, and bounds
-/

set_option linter.unusedSimpArgs false

namespace Fasttld
open Counted Trie Spec

theorem processLineC_val (idna : Idna) (l : Bytes) (p : Suffixes) (b : Bool) :
    (processLineC idna l p b).val = processLine idna l p b := by
  unfold processLineC processLine
  simp only [step_val, ite_val, ret_val]
  split
  · rfl
  · cases idna.toASCII (trimSpace l) <;> rfl

theorem processLinesC_val (idna : Idna) (ls : List Bytes) (p : Suffixes) (b : Bool) :
    (processLinesC idna ls p b).val = processLines idna ls p b := by
  induction ls generalizing p b with
  | nil => rfl
  | cons l ls ih => simp only [processLinesC, processLines, step_val, bind_val, processLineC_val, ih]

theorem parsePSLC_val (idna : Idna) (text : Bytes) : (parsePSLC idna text).val = parsePSL idna text := by
  simp only [parsePSLC, parsePSL, step_val, processLinesC_val]

theorem nestedDictC_val (t : Trie) (ks : List Bytes) : (nestedDictC t ks).val = nestedDict t ks := by
  induction ks generalizing t with
  | nil => rfl
  | cons k ks ih =>
    simp only [nestedDictC, nestedDict, step_val, bind_val, getC, ret_val]
    cases t.get k <;> simp only [step_val, bind_val, ret_val, ih]

theorem insertAllC_val (l : List Bytes) (t : Trie) : (insertAllC l t).val = l.foldl insertSuffix t := by
  induction l generalizing t with
  | nil => rfl
  | cons s l ih => simp only [insertAllC, step_val, bind_val, nestedDictC_val, ih, List.foldl_cons, insertSuffix]

theorem buildTrieC_val (l : List Bytes) : (buildTrieC l).val = buildTrie l := by
  simp only [buildTrieC, buildTrie, bind_val, step_val, ret_val, insertAllC_val]

theorem trieOfTextC_val (idna : Idna) (b : Bool) (text : Bytes) : (trieOfTextC idna b text).val = trieOfText idna b text := by
  simp only [trieOfTextC, trieOfText, bind_val, parsePSLC_val, buildTrieC_val]

/-! ## Bounds -/

/-- The bytes of some texts, with one more for each. -/
def weight : List Bytes → Nat
  | [] => 0
  | s :: l => s.length + 1 + weight l

theorem weight_append (a b : List Bytes) : weight (a ++ b) = weight a + weight b := by
  induction a with
  | nil => simp [weight]
  | cons s a ih => simp [weight, ih]; omega

theorem weight_reverse (a : List Bytes) : weight a.reverse = weight a := by
  induction a with
  | nil => rfl
  | cons s a ih => simp [weight_append, weight, ih]; omega

theorem weight_split (c : UInt8) (s : Bytes) : weight (splitByte c s) = s.length + 1 := by
  induction s with
  | nil => rfl
  | cons x s ih =>
    rw [splitByte]
    split
    · simp [weight, ih]; omega
    · cases h : splitByte c s with
      | nil => rw [h] at ih; simp [weight] at ih
      | cons w ws => rw [h] at ih; simp [weight] at ih ⊢; omega

theorem length_le_weight (a : List Bytes) : a.length ≤ weight a := by
  induction a with
  | nil => simp
  | cons s a ih => simp [weight]; omega

theorem dropSpaces_length (f : Nat) (s : Bytes) : (dropSpaces f s).length ≤ s.length := by
  induction f generalizing s with
  | zero => simp [dropSpaces]
  | succ f ih =>
    rw [dropSpaces]
    split
    · refine Nat.le_trans (ih _) ?_; simp
    · exact Nat.le_refl _

theorem dropSpacesEnd_length (f : Nat) (s : Bytes) : (dropSpacesEnd f s).length ≤ s.length := by
  induction f generalizing s with
  | zero => simp [dropSpacesEnd]
  | succ f ih =>
    rw [dropSpacesEnd]
    split
    · refine Nat.le_trans (ih _) ?_; simp
    · exact Nat.le_refl _

theorem trimSpace_length (s : Bytes) : (trimSpace s).length ≤ s.length :=
  Nat.le_trans (dropSpacesEnd_length _ _) (dropSpaces_length _ _)

theorem processLineC_n (idna : Idna) (l : Bytes) (p : Suffixes) (b : Bool) :
    (processLineC idna l p b).n ≤ 4 * l.length + 6 := by
  have h := trimSpace_length l
  unfold processLineC
  simp only [step_n, ite_n, ret_n]
  split
  · omega
  · cases idna.toASCII (trimSpace l) with
    | none => simp; omega
    | some s =>
      simp only [step_n, ret_n]
      split <;> simp <;> omega

theorem processLinesC_n (idna : Idna) (ls : List Bytes) (p : Suffixes) (b : Bool) :
    (processLinesC idna ls p b).n ≤ 7 * weight ls := by
  induction ls generalizing p b with
  | nil => simp [processLinesC]
  | cons l ls ih =>
    have h1 := processLineC_n idna l p b
    have h2 := ih (processLineC idna l p b).val.1 (processLineC idna l p b).val.2
    simp only [processLinesC, step_n, bind_n, weight]
    omega

theorem parsePSLC_n (idna : Idna) (text : Bytes) : (parsePSLC idna text).n ≤ 9 * text.length + 7 := by
  have h := processLinesC_n idna (splitByte 10 text) ⟨[], [], []⟩ false
  rw [weight_split] at h
  simp only [parsePSLC, step_n]
  omega

theorem processLine_weight (idna : Idna) (c : Nat) (hc : ∀ s a, idna.toASCII s = some a → a.length ≤ c * s.length)
    (l : Bytes) (p : Suffixes) (b : Bool) :
    weight (processLine idna l p b).1.allSuffixes ≤ weight p.allSuffixes + (c + 2) * (l.length + 1) ∧
    weight (processLine idna l p b).1.publicSuffixes ≤ weight p.publicSuffixes + (c + 2) * (l.length + 1) := by
  have h := trimSpace_length l
  unfold processLine
  simp only
  generalize (if beginPrivate = trimSpace l then true else b) = b'
  split
  · constructor <;> exact Nat.le_add_right _ _
  · cases ha : idna.toASCII (trimSpace l) with
    | none => constructor <;> exact Nat.le_add_right _ _
    | some s =>
      have h1 := hc _ _ ha
      have h2 : c * (trimSpace l).length ≤ c * l.length := Nat.mul_le_mul_left c h
      have hw : weight (if s ≠ trimSpace l then [s, trimSpace l] else [s]) ≤ (c + 2) * (l.length + 1) := by
        have : (c + 2) * (l.length + 1) = c * l.length + c + 2 * l.length + 2 := by
          rw [Nat.add_mul, Nat.mul_add]; omega
        rw [this]
        split <;> simp [weight] <;> omega
      simp only
      cases b' <;> simp only [weight_append, if_true, if_false, Bool.false_eq_true] <;> constructor <;> omega

theorem processLines_weight (idna : Idna) (c : Nat) (hc : ∀ s a, idna.toASCII s = some a → a.length ≤ c * s.length)
    (ls : List Bytes) (p : Suffixes) (b : Bool) :
    weight (processLines idna ls p b).allSuffixes ≤ weight p.allSuffixes + (c + 2) * weight ls ∧
    weight (processLines idna ls p b).publicSuffixes ≤ weight p.publicSuffixes + (c + 2) * weight ls := by
  induction ls generalizing p b with
  | nil => simp [processLines]
  | cons l ls ih =>
    have h1 := processLine_weight idna c hc l p b
    have h2 := ih (processLine idna l p b).1 (processLine idna l p b).2
    simp only [processLines, weight]
    have : (c + 2) * (l.length + 1 + weight ls) = (c + 2) * (l.length + 1) + (c + 2) * weight ls := Nat.mul_add _ _ _
    rw [this]
    constructor <;> omega

/-- The list that is used is not much longer than the text. -/
theorem used_weight (idna : Idna) (c : Nat) (hc : ∀ s a, idna.toASCII s = some a → a.length ≤ c * s.length) (b : Bool)
    (text : Bytes) :
    weight (if b then (parsePSL idna text).allSuffixes else (parsePSL idna text).publicSuffixes) ≤
      (c + 2) * (text.length + 1) := by
  have h := processLines_weight idna c hc (splitByte 10 text) ⟨[], [], []⟩ false
  rw [weight_split] at h
  simp only [weight] at h
  unfold parsePSL
  split <;> omega

theorem nestedDictC_n (t : Trie) (ks : List Bytes) : (nestedDictC t ks).n ≤ 4 * weight ks := by
  induction ks generalizing t with
  | nil => simp [nestedDictC]
  | cons k ks ih =>
    simp only [nestedDictC, step_n, bind_n, getC, ret_n, weight, step_val, ret_val]
    cases t.get k with
    | none =>
      have := ih Trie.empty
      simp only [step_n, bind_n, ret_n]; omega
    | some v =>
      have := ih v
      simp only [step_n, bind_n, ret_n]; omega

theorem reverse_weight (l : List Bytes) : weight (reverse l) = weight l := by
  rw [reverse_eq, weight_reverse]

theorem insertAllC_n (l : List Bytes) (t : Trie) : (insertAllC l t).n ≤ 6 * weight l := by
  induction l generalizing t with
  | nil => simp [insertAllC]
  | cons s l ih =>
    have h1 := nestedDictC_n t (reverse (splitByte 46 s))
    rw [reverse_weight, weight_split] at h1
    have h2 := ih (nestedDictC t (reverse (splitByte 46 s))).val
    have h3 := length_le_weight (splitByte 46 s)
    rw [weight_split] at h3
    simp only [insertAllC, step_n, bind_n, weight]
    omega

theorem setKey_length (l : List (Bytes × Trie)) (k : Bytes) (v : Trie) : (setKey l k v).length ≤ l.length + 1 := by
  induction l with
  | nil => simp [setKey]
  | cons x l ih => obtain ⟨a, b⟩ := x; rw [setKey]; split <;> simp <;> omega

theorem nestedDict_kids (t : Trie) (ks : List Bytes) : (nestedDict t ks).kids.length ≤ t.kids.length + 1 := by
  cases ks with
  | nil => simp [nestedDict, Trie.kids]
  | cons k ks => rw [nestedDict]; exact setKey_length _ _ _

theorem inserted_kids (l : List Bytes) (t : Trie) : (l.foldl insertSuffix t).kids.length ≤ t.kids.length + l.length := by
  induction l generalizing t with
  | nil => simp
  | cons s l ih =>
    have h1 := ih (insertSuffix t s)
    have h2 := nestedDict_kids t (reverse (splitByte 46 s))
    simp only [List.foldl_cons, List.length_cons]
    unfold insertSuffix at *
    omega

theorem buildTrieC_n (l : List Bytes) : (buildTrieC l).n ≤ 9 * weight l := by
  have h1 := insertAllC_n l Trie.empty
  have h2 := inserted_kids l Trie.empty
  have h3 := length_le_weight l
  simp only [buildTrieC, bind_n, step_n, ret_n, insertAllC_val]
  simp only [Trie.empty, Trie.kids, List.length_nil] at h2 h1 ⊢
  simp
  omega

theorem trieOfTextC_n (idna : Idna) (c : Nat) (hc : ∀ s a, idna.toASCII s = some a → a.length ≤ c * s.length) (b : Bool)
    (text : Bytes) : (trieOfTextC idna b text).n ≤ (9 * c + 27) * (text.length + 1) := by
  have h1 := parsePSLC_n idna text
  have h2 := used_weight idna c hc b text
  have h3 := buildTrieC_n (if b then (parsePSL idna text).allSuffixes else (parsePSL idna text).publicSuffixes)
  simp only [trieOfTextC, bind_n, parsePSLC_val]
  have : (9 * c + 27) * (text.length + 1) = 9 * ((c + 2) * (text.length + 1)) + 9 * (text.length + 1) := by
    rw [← Nat.mul_assoc, ← Nat.add_mul]
    congr 1
  rw [this]
  omega

/-! ## Nodes -/

theorem sizeKids_set (l : List (Bytes × Trie)) (k : Bytes) (v : Trie) :
    sizeKids (setKey l k v) + (match lookup l k with | some c => c.size | none => 0) = sizeKids l + v.size := by
  induction l with
  | nil => simp [setKey, sizeKids, lookup]
  | cons x l ih =>
    obtain ⟨a, b⟩ := x
    rw [setKey, lookup]
    split
    · simp only [sizeKids]; omega
    · simp only [sizeKids]; omega

theorem size_eq (t : Trie) : t.size = 1 + sizeKids t.kids := by
  cases t; simp [Trie.size, Trie.kids]

theorem nestedDict_size (t : Trie) (ks : List Bytes) : (nestedDict t ks).size ≤ t.size + ks.length := by
  induction ks generalizing t with
  | nil => simp [nestedDict, size_eq, Trie.kids]
  | cons k ks ih =>
    rw [nestedDict]
    have hs := fun v => sizeKids_set t.kids k v
    simp only [Trie.size, List.length_cons]
    rw [size_eq t]
    simp only [Trie.get] at *
    cases h : lookup t.kids k with
    | none =>
      have h1 := ih Trie.empty
      have h2 := hs (nestedDict Trie.empty ks)
      simp only [h] at h2 ⊢
      have : Trie.empty.size = 1 := by simp [Trie.empty, Trie.size, sizeKids]
      omega
    | some c =>
      have h1 := ih c
      have h2 := hs (nestedDict c ks)
      simp only [h] at h2 ⊢
      omega

theorem inserted_size (l : List Bytes) (t : Trie) : (l.foldl insertSuffix t).size ≤ t.size + weight l := by
  induction l generalizing t with
  | nil => simp
  | cons s l ih =>
    have h1 := ih (insertSuffix t s)
    have h2 := nestedDict_size t (reverse (splitByte 46 s))
    have h3 := length_le_weight (reverse (splitByte 46 s))
    rw [reverse_weight, weight_split] at h3
    simp only [List.foldl_cons, weight]
    unfold insertSuffix at *
    omega

theorem mark_size (l : List (Bytes × Trie)) : sizeKids (l.map markWildcard) = sizeKids l := by
  induction l with
  | nil => rfl
  | cons x l ih =>
    obtain ⟨a, b⟩ := x
    have h : sizeKids [markWildcard (a, b)] = b.size := by
      unfold markWildcard
      simp only
      cases b.get (b! "*") with
      | none => simp [sizeKids]
      | some v => simp only [sizeKids]; rw [size_eq b]; simp only [Trie.size]; omega
    simp only [List.map_cons, sizeKids] at h ⊢
    omega

theorem buildTrie_size (l : List Bytes) : (buildTrie l).size ≤ 1 + weight l := by
  have h := inserted_size l Trie.empty
  have : Trie.empty.size = 1 := by simp [Trie.empty, Trie.size, sizeKids]
  rw [this, size_eq] at h
  unfold buildTrie
  simp only [Trie.size, mark_size]
  exact h

/-! ## The number of nodes, exactly -/

mutual
/-- The paths to all nodes. -/
def Trie.paths : Trie → List (List Bytes)
  | .node _ ks => [] :: pathsKids ks
/-- The paths to all nodes below. -/
def Trie.pathsKids : List (Bytes × Trie) → List (List Bytes)
  | [] => []
  | (k, t) :: ks => t.paths.map (k :: ·) ++ pathsKids ks
end

mutual
/-- No node has two children with one key. -/
def Trie.Uniq : Trie → Prop
  | .node _ ks => UniqKids ks
/-- The same of some children. -/
def Trie.UniqKids : List (Bytes × Trie) → Prop
  | [] => True
  | (k, t) :: ks => lookup ks k = none ∧ t.Uniq ∧ UniqKids ks
end

mutual
theorem paths_length : (t : Trie) → t.paths.length = t.size
  | .node e ks => by simp only [Trie.paths, Trie.size, List.length_cons]; rw [pathsKids_length ks]; omega
theorem pathsKids_length : (ks : List (Bytes × Trie)) → (pathsKids ks).length = sizeKids ks
  | [] => rfl
  | (k, t) :: ks => by
    simp only [pathsKids, sizeKids, List.length_append, List.length_map]; rw [paths_length t, pathsKids_length ks]
end

theorem pathsKids_ne_nil : (ks : List (Bytes × Trie)) → ∀ p ∈ pathsKids ks, p ≠ []
  | [], p, h => by simp [pathsKids] at h
  | (k, t) :: ks, p, h => by
    simp only [pathsKids, List.mem_append, List.mem_map] at h
    rcases h with ⟨q, _, rfl⟩ | h
    · simp
    · exact pathsKids_ne_nil ks p h

mutual
theorem mem_paths : (t : Trie) → t.Uniq → ∀ p, p ∈ t.paths ↔ t.has p
  | .node e ks, hu, p => by
    simp only [Trie.Uniq] at hu
    simp only [Trie.paths, List.mem_cons]
    cases p with
    | nil => simp [has_nil]
    | cons l p =>
      rw [mem_pathsKids ks hu l p, has_cons]
      simp [Trie.get, Trie.kids]
theorem mem_pathsKids : (ks : List (Bytes × Trie)) → UniqKids ks → ∀ l p, (l :: p) ∈ pathsKids ks ↔ ∃ v, lookup ks l = some v ∧ v.has p
  | [], _, l, p => by simp [pathsKids, lookup]
  | (k, t) :: ks, hu, l, p => by
    simp only [UniqKids] at hu
    simp only [pathsKids, List.mem_append, List.mem_map, List.cons.injEq]
    rw [mem_pathsKids ks hu.2.2 l p]
    rw [lookup]
    by_cases h : k = l
    · subst h
      simp only [hu.1, if_true]
      constructor
      · rintro (⟨q, hq, -, rfl⟩ | ⟨v, h, _⟩)
        · exact ⟨t, rfl, (mem_paths t hu.2.1 q).1 hq⟩
        · cases h
      · rintro ⟨v, hv, hp⟩
        cases hv
        exact .inl ⟨p, (mem_paths t hu.2.1 p).2 hp, trivial, rfl⟩
    · simp only [h, if_false, false_and, and_false, exists_false, false_or]
end

theorem map_cons_nodup {l : List (List Bytes)} (k : Bytes) (h : l.Nodup) : (l.map (k :: ·)).Nodup := by
  unfold List.Nodup at *
  rw [List.pairwise_map]
  exact h.imp (fun hab hc => hab (by injection hc))

mutual
theorem paths_nodup : (t : Trie) → t.Uniq → t.paths.Nodup
  | .node e ks, hu => by
    simp only [Trie.Uniq] at hu
    simp only [Trie.paths, List.nodup_cons]
    exact ⟨fun h => pathsKids_ne_nil ks _ h rfl, pathsKids_nodup ks hu⟩
theorem pathsKids_nodup : (ks : List (Bytes × Trie)) → UniqKids ks → (pathsKids ks).Nodup
  | [], _ => by simp [pathsKids]
  | (k, t) :: ks, hu => by
    simp only [UniqKids] at hu
    simp only [pathsKids]
    rw [List.nodup_append]
    refine ⟨map_cons_nodup k (paths_nodup t hu.2.1), pathsKids_nodup ks hu.2.2, ?_⟩
    intro a ha b hb hab
    subst hab
    obtain ⟨q, _, rfl⟩ := List.mem_map.1 ha
    obtain ⟨v, hv, _⟩ := (mem_pathsKids ks hu.2.2 k q).1 hb
    rw [hu.1] at hv
    cases hv
end

theorem uniqKids_set (ks : List (Bytes × Trie)) (k : Bytes) (v : Trie) (hu : UniqKids ks) (hv : v.Uniq) : UniqKids (setKey ks k v) := by
  induction ks with
  | nil => simp [setKey, UniqKids, lookup, hv]
  | cons x ks ih =>
    obtain ⟨a, b⟩ := x
    simp only [UniqKids] at hu
    rw [setKey]
    split
    · simp only [UniqKids]; exact ⟨hu.1, hv, hu.2.2⟩
    · rename_i h
      simp only [UniqKids]
      refine ⟨?_, hu.2.1, ih hu.2.2⟩
      rw [lookup_setKey, if_neg (Ne.symm h)]
      exact hu.1

theorem uniq_lookup (ks : List (Bytes × Trie)) (k : Bytes) (v : Trie) (hu : UniqKids ks) (h : lookup ks k = some v) : v.Uniq := by
  induction ks with
  | nil => cases h
  | cons x ks ih =>
    obtain ⟨a, b⟩ := x
    simp only [UniqKids] at hu
    rw [lookup] at h
    split at h
    · cases h; exact hu.2.1
    · exact ih hu.2.2 h

theorem uniq_iff (t : Trie) : t.Uniq ↔ UniqKids t.kids := by cases t; rfl

theorem nestedDict_uniq (t : Trie) (ks : List Bytes) (h : t.Uniq) : (nestedDict t ks).Uniq := by
  induction ks generalizing t with
  | nil => exact (uniq_iff t).1 h
  | cons k ks ih =>
    rw [nestedDict]
    refine uniqKids_set _ _ _ ((uniq_iff t).1 h) ?_
    apply ih
    cases hg : t.get k with
    | none => simp [Trie.empty, Trie.Uniq, UniqKids]
    | some v => exact uniq_lookup _ _ _ ((uniq_iff t).1 h) hg

theorem inserted_uniq (l : List Bytes) (t : Trie) (h : t.Uniq) : (l.foldl insertSuffix t).Uniq := by
  induction l generalizing t with
  | nil => exact h
  | cons s l ih => exact ih _ (nestedDict_uniq _ _ h)

theorem mark_lookup_none (ks : List (Bytes × Trie)) (k : Bytes) (h : lookup ks k = none) : lookup (ks.map markWildcard) k = none := by
  rw [lookup_mark, h]; rfl

theorem mark_uniq (ks : List (Bytes × Trie)) (h : UniqKids ks) : UniqKids (ks.map markWildcard) := by
  induction ks with
  | nil => trivial
  | cons x ks ih =>
    obtain ⟨a, b⟩ := x
    simp only [UniqKids] at h
    rw [List.map_cons, markWildcard_eq]
    simp only [UniqKids]
    refine ⟨mark_lookup_none _ _ h.1, ?_, ih h.2.2⟩
    rw [uniq_iff, markNode_kids, ← uniq_iff]
    exact h.2.1

theorem buildTrie_uniq (l : List Bytes) : (buildTrie l).Uniq := by
  have h := inserted_uniq l Trie.empty (by simp [Trie.empty, Trie.Uniq, UniqKids])
  unfold buildTrie
  exact mark_uniq _ ((uniq_iff _).1 h)

/-- The paths to the nodes are the empty one and the beginnings of rules, from the right. -/
theorem mem_buildTrie_paths (l : List Bytes) (p : List Bytes) : p ∈ (buildTrie l).paths ↔ p = [] ∨ PrefixAt l p := by
  rw [mem_paths _ (buildTrie_uniq l), buildTrie_has]

theorem nodup_length_eq {α : Type} [DecidableEq α] {a b : List α} (ha : a.Nodup) (hb : b.Nodup) (h : ∀ x, x ∈ a ↔ x ∈ b) :
    a.length = b.length :=
  ((List.perm_ext_iff_of_nodup ha hb).2 h).length_eq

end Fasttld
