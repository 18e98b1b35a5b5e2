import Verif.Proofs.Reverse
import Verif.Model.Trie
import Verif.Spec.Rules

/-!
# The suffix trie as a set of rules
-/

set_option linter.unusedSimpArgs false

namespace Fasttld
open Spec Trie

/-- The node reached by following a path of labels. -/
def Trie.find : Trie → List Bytes → Option Trie
  | t, [] => some t
  | t, l :: p => match t.get l with
    | some v => v.find p
    | none => none

/-- The path is in the trie. -/
def Trie.has (t : Trie) (p : List Bytes) : Prop := (t.find p).isSome = true

/-- The path is in the trie and marked as the end of a rule. -/
def Trie.endAt (t : Trie) (p : List Bytes) : Prop := ∃ v, t.find p = some v ∧ v.isEnd = true

theorem lookup_setKey (ks : List (Bytes × Trie)) (k : Bytes) (v : Trie) (k' : Bytes) :
    lookup (setKey ks k v) k' = if k = k' then some v else lookup ks k' := by
  induction ks with
  | nil => simp [setKey, lookup]
  | cons p ks ih =>
    obtain ⟨x, w⟩ := p
    simp only [setKey]
    split
    · rename_i h; subst h
      simp only [lookup]
      split <;> rfl
    · rename_i h
      simp only [lookup, ih]
      by_cases h1 : x = k'
      · subst h1; simp [Ne.symm h]
      · simp [h1]

theorem has_nil (t : Trie) : t.has [] := rfl

theorem has_cons (t : Trie) (l : Bytes) (p : List Bytes) : t.has (l :: p) ↔ ∃ v, t.get l = some v ∧ v.has p := by
  unfold Trie.has
  rw [Trie.find]
  cases t.get l <;> simp

theorem endAt_nil (t : Trie) : t.endAt [] ↔ t.isEnd = true := by
  simp [Trie.endAt, Trie.find]

theorem endAt_cons (t : Trie) (l : Bytes) (p : List Bytes) :
    t.endAt (l :: p) ↔ ∃ v, t.get l = some v ∧ v.endAt p := by
  unfold Trie.endAt
  simp only [Trie.find]
  cases t.get l <;> simp

theorem empty_has (p : List Bytes) : Trie.empty.has p ↔ p = [] := by
  cases p with
  | nil => simp [has_nil]
  | cons l p => rw [has_cons]; simp [Trie.empty, Trie.get, lookup, Trie.kids]

theorem empty_endAt (p : List Bytes) : ¬ Trie.empty.endAt p := by
  cases p with
  | nil => rw [endAt_nil]; simp [Trie.empty, Trie.isEnd]
  | cons l p => rw [endAt_cons]; simp [Trie.empty, Trie.get, lookup, Trie.kids]

theorem nestedDict_get (t : Trie) (k : Bytes) (keys : List Bytes) (l : Bytes) :
    (nestedDict t (k :: keys)).get l =
      if k = l then some (nestedDict (match t.get k with | some c => c | none => Trie.empty) keys) else t.get l := by
  rw [nestedDict]
  show lookup (setKey t.kids k _) l = _
  rw [lookup_setKey]
  rfl

/-- `nestedDict` adds exactly the prefixes of the path. -/
theorem nestedDict_has (t : Trie) (keys p : List Bytes) :
    (nestedDict t keys).has p ↔ t.has p ∨ p <+: keys := by
  induction keys generalizing t p with
  | nil =>
    cases p with
    | nil => simp [has_nil]
    | cons l p =>
      rw [has_cons, has_cons]
      simp [nestedDict, Trie.get, Trie.kids]
  | cons k keys ih =>
    cases p with
    | nil => simp [has_nil]
    | cons l p =>
      rw [has_cons, has_cons, nestedDict_get]
      by_cases h : k = l
      · subst h
        simp only [if_true, Option.some.injEq, exists_eq_left', ih, List.cons_prefix_cons, true_and]
        cases ht : t.get k with
        | none =>
          simp only [empty_has]
          constructor
          · rintro (rfl | h)
            · exact .inr (by simp)
            · exact .inr h
          · rintro (⟨v, h, -⟩ | h)
            · simp at h
            · exact .inr h
        | some c => simp
      · simp [h, List.cons_prefix_cons, Ne.symm h]

/-- `nestedDict` marks exactly the path. -/
theorem nestedDict_endAt (t : Trie) (keys p : List Bytes) :
    (nestedDict t keys).endAt p ↔ t.endAt p ∨ p = keys := by
  induction keys generalizing t p with
  | nil =>
    cases p with
    | nil => rw [endAt_nil, endAt_nil]; simp [nestedDict, Trie.isEnd]
    | cons l p =>
      rw [endAt_cons, endAt_cons]
      simp [nestedDict, Trie.get, Trie.kids]
  | cons k keys ih =>
    cases p with
    | nil => rw [endAt_nil, endAt_nil]; simp [nestedDict, Trie.isEnd]
    | cons l p =>
      rw [endAt_cons, endAt_cons, nestedDict_get]
      by_cases h : k = l
      · subst h
        simp only [if_true, Option.some.injEq, exists_eq_left', ih, List.cons.injEq, true_and]
        cases ht : t.get k with
        | none => simp [empty_endAt]
        | some c => simp
      · simp [h, Ne.symm h]

/-! ## Rules and their labels -/

theorem splitByte_ne_nil (b : UInt8) (s : Bytes) : splitByte b s ≠ [] := by
  cases s with
  | nil => simp [splitByte]
  | cons c t =>
    simp only [splitByte]
    split
    · simp
    · split <;> simp

theorem splitByte_free (b : UInt8) (s : Bytes) : ∀ l ∈ splitByte b s, b ∉ l := by
  induction s with
  | nil => simp [splitByte]
  | cons c t ih =>
    simp only [splitByte]
    split
    · intro l hl
      rcases List.mem_cons.1 hl with rfl | hl
      · simp
      · exact ih l hl
    · rename_i hc
      split
      · rename_i h; exact absurd h (splitByte_ne_nil b t)
      · rename_i w ws h
        rw [h] at ih
        intro l hl
        rcases List.mem_cons.1 hl with rfl | hl
        · have := ih w (by simp)
          simp [this, Ne.symm hc]
        · exact ih l (by simp [hl])

theorem intercalate_cons_cons (s w x : Bytes) (ws : List Bytes) :
    List.intercalate s (w :: x :: ws) = w ++ s ++ List.intercalate s (x :: ws) := by
  simp [List.intercalate, List.intersperse]

theorem intercalate_singleton (s w : Bytes) : List.intercalate s [w] = w := by
  simp [List.intercalate]

theorem splitByte_join (b : UInt8) (s : Bytes) : List.intercalate [b] (splitByte b s) = s := by
  induction s with
  | nil => simp [splitByte, intercalate_singleton]
  | cons c t ih =>
    simp only [splitByte]
    split
    · rename_i h; subst h
      cases hs : splitByte c t with
      | nil => exact absurd hs (splitByte_ne_nil c t)
      | cons w ws => rw [intercalate_cons_cons, ← hs, ih]; simp
    · split
      · rename_i h; exact absurd h (splitByte_ne_nil b t)
      · rename_i w ws h
        rw [h] at ih
        cases ws with
        | nil => rw [intercalate_singleton] at *; rw [ih]
        | cons x ws => rw [intercalate_cons_cons] at *; rw [← ih]; simp

theorem splitByte_unique (b : UInt8) {ls : List Bytes} (hne : ls ≠ []) (hf : ∀ l ∈ ls, b ∉ l) :
    splitByte b (List.intercalate [b] ls) = ls := by
  have hplain : ∀ w : Bytes, b ∉ w → splitByte b w = [w] := by
    intro w
    induction w with
    | nil => simp [splitByte]
    | cons c t ih =>
      intro hc
      have h1 : c ≠ b := fun h => hc (by simp [h])
      simp [splitByte, h1, ih (fun h => hc (by simp [h]))]
  have happ : ∀ w : Bytes, b ∉ w → ∀ s, splitByte b (w ++ b :: s) = w :: splitByte b s := by
    intro w
    induction w with
    | nil => intro _ s; simp [splitByte]
    | cons c t ih =>
      intro hc s
      have h1 : c ≠ b := fun h => hc (by simp [h])
      simp [splitByte, h1, ih (fun h => hc (by simp [h]))]
  induction ls with
  | nil => exact absurd rfl hne
  | cons w ws ih =>
    cases ws with
    | nil => rw [intercalate_singleton]; exact hplain w (hf w (by simp))
    | cons x ws =>
      rw [intercalate_cons_cons]
      have := happ w (hf w (by simp)) (List.intercalate [b] (x :: ws))
      rw [show w ++ [b] ++ List.intercalate [b] (x :: ws) = w ++ b :: List.intercalate [b] (x :: ws) by simp, this,
        ih (by simp) (fun l hl => hf l (by simp only [List.mem_cons] at hl ⊢; exact .inr hl))]

theorem isLabels_iff {r : Bytes} {ls : List Bytes} : IsLabels r ls ↔ ls = splitByte 46 r := by
  unfold IsLabels
  constructor
  · rintro ⟨h1, h2, rfl⟩; exact (splitByte_unique 46 h1 h2).symm
  · rintro rfl; exact ⟨splitByte_ne_nil 46 r, splitByte_free 46 r, (splitByte_join 46 r).symm⟩

theorem insertSuffix_has (t : Trie) (r : Bytes) (p : List Bytes) :
    (insertSuffix t r).has p ↔ t.has p ∨ p <+: (splitByte 46 r).reverse := by
  unfold insertSuffix; rw [nestedDict_has, reverse_eq]

theorem insertSuffix_endAt (t : Trie) (r : Bytes) (p : List Bytes) :
    (insertSuffix t r).endAt p ↔ t.endAt p ∨ p = (splitByte 46 r).reverse := by
  unfold insertSuffix; rw [nestedDict_endAt, reverse_eq]

theorem foldl_has (rules : List Bytes) (t : Trie) (p : List Bytes) :
    (rules.foldl insertSuffix t).has p ↔ t.has p ∨ ∃ r ∈ rules, p <+: (splitByte 46 r).reverse := by
  induction rules generalizing t with
  | nil => simp
  | cons r rules ih =>
    rw [List.foldl_cons, ih, insertSuffix_has]
    simp only [List.mem_cons, exists_eq_or_imp, or_assoc]

theorem foldl_endAt (rules : List Bytes) (t : Trie) (p : List Bytes) :
    (rules.foldl insertSuffix t).endAt p ↔ t.endAt p ∨ ∃ r ∈ rules, p = (splitByte 46 r).reverse := by
  induction rules generalizing t with
  | nil => simp
  | cons r rules ih =>
    rw [List.foldl_cons, ih, insertSuffix_endAt]
    simp only [List.mem_cons, exists_eq_or_imp, or_assoc]

/-! ## The marks at the top level -/

/-- `markWildcard` on a node. -/
def markNode (v : Trie) : Trie := match v.get star with | some _ => .node true v.kids | none => v

theorem markWildcard_eq (kv : Bytes × Trie) : markWildcard kv = (kv.1, markNode kv.2) := by
  obtain ⟨k, v⟩ := kv
  unfold markWildcard markNode star
  split <;> rename_i h <;> simp only at h <;> simp [h]

theorem lookup_mark (ks : List (Bytes × Trie)) (k : Bytes) :
    lookup (ks.map markWildcard) k = (lookup ks k).map markNode := by
  induction ks with
  | nil => rfl
  | cons p ks ih =>
    obtain ⟨x, v⟩ := p
    rw [List.map_cons, markWildcard_eq]
    simp only [lookup]
    split
    · rfl
    · exact ih

theorem markNode_kids (v : Trie) : (markNode v).kids = v.kids := by
  unfold markNode; split <;> rfl

theorem markNode_get (v : Trie) (l : Bytes) : (markNode v).get l = v.get l := by
  unfold Trie.get; rw [markNode_kids]

theorem markNode_isEnd (v : Trie) : (markNode v).isEnd = true ↔ v.isEnd = true ∨ v.has [star] := by
  rw [has_cons]
  unfold markNode
  split
  · rename_i c h; simp [h, Trie.isEnd, has_nil]
  · rename_i h; simp [h]

theorem markNode_has (v : Trie) (p : List Bytes) : (markNode v).has p ↔ v.has p := by
  cases p with
  | nil => simp [has_nil]
  | cons l p => rw [has_cons, has_cons, markNode_get]

theorem buildTrie_get (rules : List Bytes) (l : Bytes) :
    (buildTrie rules).get l = ((rules.foldl insertSuffix Trie.empty).get l).map markNode := by
  unfold buildTrie Trie.get
  simp only [Trie.kids]
  exact lookup_mark _ l

/-- A path is in the trie iff it is empty or a prefix of a rule. -/
theorem buildTrie_has (rules : List Bytes) (p : List Bytes) :
    (buildTrie rules).has p ↔ p = [] ∨ PrefixAt rules p := by
  have h1 : (buildTrie rules).has p ↔ (rules.foldl insertSuffix Trie.empty).has p := by
    cases p with
    | nil => simp [has_nil]
    | cons l p =>
      rw [has_cons, has_cons, buildTrie_get]
      cases (rules.foldl insertSuffix Trie.empty).get l with
      | none => simp
      | some v => simp [markNode_has]
  rw [h1, foldl_has, empty_has]
  unfold PrefixAt RuleAt
  apply or_congr Iff.rfl
  constructor
  · rintro ⟨r, hr, hp⟩
    exact ⟨_, hp, r, hr, isLabels_iff.2 (by simp)⟩
  · rintro ⟨q, hq, r, hr, hl⟩
    rw [isLabels_iff] at hl
    refine ⟨r, hr, ?_⟩
    rw [← hl]; simpa using hq

/-- A path is marked iff it is a rule, or a single label that is the parent of a wildcard. -/
theorem buildTrie_endAt (rules : List Bytes) (p : List Bytes) :
    (buildTrie rules).endAt p ↔ RuleAt rules p ∨ ∃ l, p = [l] ∧ PrefixAt rules [l, star] := by
  have hrule : ∀ p, RuleAt rules p ↔ ∃ r ∈ rules, p = (splitByte 46 r).reverse := by
    intro p
    unfold RuleAt
    constructor
    · rintro ⟨r, hr, hl⟩
      rw [isLabels_iff] at hl
      exact ⟨r, hr, by rw [← hl]; simp⟩
    · rintro ⟨r, hr, hl⟩
      exact ⟨r, hr, isLabels_iff.2 (by rw [hl]; simp)⟩
  have hfold : ∀ p, (rules.foldl insertSuffix Trie.empty).endAt p ↔ RuleAt rules p := by
    intro p
    rw [foldl_endAt, hrule]
    simp [empty_endAt]
  cases p with
  | nil =>
    have : ¬ RuleAt rules [] := by
      rw [hrule]
      rintro ⟨r, -, h⟩
      have := splitByte_ne_nil 46 r
      simp at h; exact this h
    rw [endAt_nil]
    have h2 : (buildTrie rules).isEnd = true ↔ RuleAt rules [] := by
      rw [← hfold, endAt_nil]; rfl
    rw [h2]; simp
  | cons l p =>
    rw [endAt_cons, buildTrie_get, ← hfold, endAt_cons]
    have hstar : PrefixAt rules [l, star] ↔ ∃ v, (rules.foldl insertSuffix Trie.empty).get l = some v ∧ v.has [star] := by
      have := buildTrie_has rules [l, star]
      simp only [reduceCtorEq, false_or] at this
      rw [← this, has_cons, buildTrie_get]
      cases (rules.foldl insertSuffix Trie.empty).get l with
      | none => simp
      | some v => simp [markNode_has]
    cases p with
    | nil =>
      simp only [List.cons.injEq, and_true, exists_eq_left', hstar]
      cases (rules.foldl insertSuffix Trie.empty).get l with
      | none => simp
      | some v => simp [endAt_nil, markNode_isEnd]
    | cons m p =>
      simp only [List.cons.injEq, reduceCtorEq, and_false, false_and, exists_false, or_false]
      cases (rules.foldl insertSuffix Trie.empty).get l with
      | none => simp
      | some v => simp [endAt_cons, markNode_get]

/-! ## Tries with the same paths behave alike -/

/-- Same paths and same marks. -/
def Trie.Same (a b : Trie) : Prop := ∀ p, (a.has p ↔ b.has p) ∧ (a.endAt p ↔ b.endAt p)

theorem Trie.Same.get {a b : Trie} (h : a.Same b) (l : Bytes) :
    (a.get l = none ∧ b.get l = none) ∨ ∃ v w, a.get l = some v ∧ b.get l = some w ∧ v.Same w := by
  have h1 := (h [l]).1
  rw [has_cons, has_cons] at h1
  cases ha : a.get l with
  | none =>
    cases hb : b.get l with
    | none => exact .inl ⟨rfl, rfl⟩
    | some w => rw [ha, hb] at h1; simp [has_nil] at h1
  | some v =>
    cases hb : b.get l with
    | none => rw [ha, hb] at h1; simp [has_nil] at h1
    | some w =>
      refine .inr ⟨v, w, rfl, rfl, fun p => ?_⟩
      have := h (l :: p)
      rw [has_cons, has_cons, endAt_cons, endAt_cons, ha, hb] at this
      simpa using this

theorem Trie.Same.isEnd {a b : Trie} (h : a.Same b) : a.isEnd = b.isEnd := by
  have := (h []).2
  rw [endAt_nil, endAt_nil] at this
  exact Bool.eq_iff_iff.2 this

theorem kids_empty_iff (t : Trie) : t.kids.length = 0 ↔ ∀ l, t.get l = none := by
  unfold Trie.get
  cases h : t.kids with
  | nil => simp [lookup]
  | cons p ks =>
    obtain ⟨k, v⟩ := p
    simp only [List.length_cons, Nat.add_eq_zero_iff, Nat.succ_ne_self, and_false, false_iff]
    intro hc
    have := hc k
    simp [lookup] at this

theorem Trie.Same.kids {a b : Trie} (h : a.Same b) : a.kids.length = 0 ↔ b.kids.length = 0 := by
  rw [kids_empty_iff, kids_empty_iff]
  constructor
  · intro hn l
    rcases h.get l with ⟨-, h2⟩ | ⟨v, w, h1, -⟩
    · exact h2
    · rw [hn l] at h1; simp at h1
  · intro hn l
    rcases h.get l with ⟨h2, -⟩ | ⟨v, w, -, h1, -⟩
    · exact h2
    · rw [hn l] at h1; simp at h1

end Fasttld
