import Verif.Proofs.Suffix

/-!
# Deciding the specification of rules, for concrete lists
-/

set_option linter.unusedSimpArgs false

namespace Fasttld
open Spec Trie

/-- Labels of a rule, from the right. -/
def revLabels (r : Bytes) : List Bytes := (splitByte 46 r).reverse

theorem isLabels_rev {r : Bytes} {p : List Bytes} : IsLabels r p.reverse ↔ p = revLabels r := by
  rw [isLabels_iff]
  unfold revLabels
  constructor
  · intro h; rw [← h]; simp
  · rintro rfl; simp

theorem ruleAt_iff {rules p} : RuleAt rules p ↔ p ∈ rules.map revLabels := by
  unfold RuleAt
  simp only [isLabels_rev, List.mem_map, eq_comm]

theorem prefixAt_iff {rules p} : PrefixAt rules p ↔ ∃ q ∈ rules.map revLabels, p <+: q := by
  unfold PrefixAt
  simp only [ruleAt_iff]
  constructor <;> rintro ⟨q, h1, h2⟩ <;> exact ⟨q, h2, h1⟩

/-- Exception rules. -/
def exceptionPaths (rules : List Bytes) : List (List Bytes) :=
  rules.filterMap fun r => match r with | 33 :: t => some (revLabels t) | _ => none

/-- Other rules. -/
def normalPaths (rules : List Bytes) : List (List Bytes) :=
  (rules.filter fun r => decide (r.head? ≠ some 33)).map revLabels

theorem exceptionAt_mem {rules p} : ExceptionAt rules p ↔ p ∈ exceptionPaths rules := by
  unfold ExceptionAt exceptionPaths
  simp only [isLabels_rev, List.mem_filterMap]
  constructor
  · rintro ⟨r, h1, rfl⟩; exact ⟨_, h1, rfl⟩
  · rintro ⟨r, h1, h2⟩
    split at h2
    · injection h2 with h2; exact ⟨_, h1, h2.symm⟩
    · simp at h2

theorem normalAt_mem {rules p} : NormalAt rules p ↔ p ∈ normalPaths rules := by
  unfold NormalAt normalPaths
  simp only [isLabels_rev, List.mem_map, List.mem_filter, decide_eq_true_eq]
  constructor
  · rintro ⟨r, h1, h2, rfl⟩; exact ⟨r, ⟨h1, h2⟩, rfl⟩
  · rintro ⟨r, ⟨h1, h2⟩, rfl⟩; exact ⟨r, h1, h2, rfl⟩

instance instDecMatches : (q name : List Bytes) → Decidable (Matches q name)
  | [], _ => .isTrue trivial
  | _ :: _, [] => .isFalse (fun h => h)
  | x :: q, d :: name =>
    match decEq x star, decEq x d, instDecMatches q name with
    | .isTrue h, _, .isTrue h2 => .isTrue ⟨.inl h, h2⟩
    | _, .isTrue h, .isTrue h2 => .isTrue ⟨.inr h, h2⟩
    | _, _, .isFalse h2 => .isFalse (fun h => h2 h.2)
    | .isFalse h1, .isFalse h2, _ => .isFalse (fun h => h.1.elim h1 h2)

instance {rules p} : Decidable (RuleAt rules p) := decidable_of_iff _ ruleAt_iff.symm
instance {rules p} : Decidable (PrefixAt rules p) := decidable_of_iff _ prefixAt_iff.symm

/-- Greatest length. -/
def maxLen : List (List Bytes) → Option Nat
  | [] => none
  | p :: ps => match maxLen ps with
    | none => some p.length
    | some n => some (max p.length n)

theorem maxLen_none {ps} : maxLen ps = none ↔ ps = [] := by
  cases ps with
  | nil => simp [maxLen]
  | cons p ps => simp only [maxLen]; cases maxLen ps <;> simp

theorem maxLen_some {ps n} : maxLen ps = some n ↔ ∃ p ∈ ps, n = p.length ∧ ∀ q ∈ ps, q.length ≤ p.length := by
  have one : ∀ {ps n}, maxLen ps = some n → ∃ p ∈ ps, n = p.length ∧ ∀ q ∈ ps, q.length ≤ p.length := by
    intro ps
    induction ps with
    | nil => simp [maxLen]
    | cons p ps ih =>
      intro n h
      simp only [maxLen] at h
      cases hm : maxLen ps with
      | none =>
        rw [hm] at h
        injection h with h
        rw [maxLen_none] at hm
        subst hm
        exact ⟨p, by simp, h.symm, by simp⟩
      | some m =>
        rw [hm] at h
        injection h with h
        obtain ⟨q, h1, h2, h3⟩ := ih hm
        rcases Nat.le_total q.length p.length with h4 | h4
        · refine ⟨p, by simp, by omega, ?_⟩
          intro x hx
          rcases List.mem_cons.1 hx with rfl | hx
          · exact Nat.le_refl _
          · have := h3 x hx; omega
        · refine ⟨q, by simp [h1], by omega, ?_⟩
          intro x hx
          rcases List.mem_cons.1 hx with rfl | hx
          · exact h4
          · exact h3 x hx
  refine ⟨one, ?_⟩
  rintro ⟨p, h1, h2, h3⟩
  cases hm : maxLen ps with
  | none => rw [maxLen_none] at hm; subst hm; simp at h1
  | some m =>
    obtain ⟨q, g1, g2, g3⟩ := one hm
    have := h3 q g1
    have := g3 p h1
    congr 1; omega

/-- The algorithm. -/
def publicSuffixLen (rules name : List Bytes) : Option Nat :=
  match maxLen ((exceptionPaths rules).filter fun q => decide (Matches q name)) with
  | some n => some (n - 1)
  | none => maxLen ((normalPaths rules).filter fun q => decide (Matches q name))

theorem publicSuffixLen_some {rules name n} : publicSuffixLen rules name = some n ↔ PublicSuffix rules name n := by
  unfold publicSuffixLen PublicSuffix
  simp only [exceptionAt_mem, normalAt_mem]
  cases hm : maxLen ((exceptionPaths rules).filter fun q => decide (Matches q name)) with
  | none =>
    rw [maxLen_none] at hm
    simp only [List.filter_eq_nil_iff, decide_eq_true_eq] at hm
    simp only [maxLen_some, List.mem_filter, decide_eq_true_eq]
    constructor
    · rintro ⟨p, ⟨h1, h2⟩, h3, h4⟩
      exact .inr ⟨hm, p, h1, h2, h3, fun q g1 g2 => h4 q ⟨g1, g2⟩⟩
    · rintro (⟨p, h1, h2, -⟩ | ⟨-, p, h1, h2, h3, h4⟩)
      · exact absurd h2 (hm p h1)
      · exact ⟨p, ⟨h1, h2⟩, h3, fun q hq => h4 q hq.1 hq.2⟩
  | some m =>
    simp only [maxLen_some, List.mem_filter, decide_eq_true_eq] at hm
    obtain ⟨p, ⟨h1, h2⟩, h3, h4⟩ := hm
    obtain ⟨q0, l0, hne⟩ := exceptionAt_ne (exceptionAt_mem.2 h1)
    have hpos : 1 ≤ p.length := by rw [hne]; simp
    simp only [Option.some.injEq]
    constructor
    · intro h
      exact .inl ⟨p, h1, h2, by omega, fun q g1 g2 => h4 q ⟨g1, g2⟩⟩
    · rintro (⟨q, g1, g2, g3, g4⟩ | ⟨g0, -⟩)
      · have := g4 p h1 h2; have := h4 q ⟨g1, g2⟩; omega
      · exact absurd h2 (g0 p h1)

theorem publicSuffixLen_none {rules name} : publicSuffixLen rules name = none ↔ NoRuleMatches rules name := by
  unfold publicSuffixLen NoRuleMatches
  simp only [exceptionAt_mem, normalAt_mem]
  cases hm : maxLen ((exceptionPaths rules).filter fun q => decide (Matches q name)) with
  | none =>
    rw [maxLen_none] at hm
    simp only [List.filter_eq_nil_iff, decide_eq_true_eq] at hm
    simp only [maxLen_none, List.filter_eq_nil_iff, decide_eq_true_eq]
    exact ⟨fun h => ⟨hm, h⟩, fun h => h.2⟩
  | some m =>
    simp only [maxLen_some, List.mem_filter, decide_eq_true_eq] at hm
    obtain ⟨p, ⟨h1, h2⟩, h3, h4⟩ := hm
    simp only [reduceCtorEq, false_iff, not_and]
    intro h; exact absurd h2 (h p h1)

instance {rules name n} : Decidable (PublicSuffix rules name n) := decidable_of_iff _ publicSuffixLen_some
instance {rules name} : Decidable (NoRuleMatches rules name) := decidable_of_iff _ publicSuffixLen_none

/-- `Regular`, checked. -/
def regularB (rules name : List Bytes) : Bool :=
  name.all (fun l => decide (l.head? ≠ some 33)) &&
  decide (¬ PrefixAt rules [star]) &&
  (List.range (name.length + 1)).all (fun i => decide (i = 0 ∨ (PrefixAt rules (name.take i) →
    RuleAt rules (name.take i) ∨ PrefixAt rules (name.take i ++ [star])))) &&
  (List.range (name.length + 1)).all (fun i => decide (PrefixAt rules (name.take i ++ [star]) →
    ∀ q ∈ rules.map revLabels, name.take i <+: q → q.length ≤ i + 1)) &&
  (exceptionPaths rules).all (fun p => decide (Matches p name →
    p.getLast? ≠ some star ∧ PrefixAt rules (p.dropLast ++ [star])))

theorem regularB_sound {rules name} (h : regularB rules name = true) : Regular rules name := by
  unfold regularB at h
  simp only [Bool.and_eq_true, List.all_eq_true, decide_eq_true_eq, List.mem_range] at h
  obtain ⟨⟨⟨⟨h1, h2⟩, h3⟩, h4⟩, h5⟩ := h
  refine ⟨h1, h2, ?_, ?_, ?_⟩
  · intro i hi hl
    exact (h3 i (by omega)).resolve_left (by omega)
  · intro i hl hp q hq
    exact h4 i (by omega) hp q (ruleAt_iff.1 hq)
  · intro p hp hm
    obtain ⟨q, l, rfl⟩ := exceptionAt_ne hp
    have := h5 _ (exceptionAt_mem.1 hp) hm
    refine ⟨q, l, rfl, ?_, ?_⟩
    · have := this.1
      simpa using this
    · simpa using this.2

/-- `TopComplete` for a trie built from rules. -/
theorem topComplete_build (rules : List Bytes) :
    TopComplete (buildTrie rules) ↔ TopRules rules := by
  unfold TopRules
  have hone : ∀ l, PrefixAt rules [l] ↔ ∃ v, (buildTrie rules).get l = some v := by
    intro l
    have := buildTrie_has rules [l]
    simp only [List.cons_ne_nil, false_or] at this
    rw [← this, has_cons]
    simp [has_nil]
  have hend : ∀ l, (RuleAt rules [l] ∨ PrefixAt rules [l, star]) ↔
      ∃ v, (buildTrie rules).get l = some v ∧ v.isEnd = true := by
    intro l
    have := buildTrie_endAt rules [l]
    simp only [List.cons.injEq, and_true, exists_eq_left'] at this
    rw [← this, endAt_cons]
    simp [endAt_nil]
  unfold TopComplete
  constructor
  · intro h l hp
    obtain ⟨v, hv⟩ := (hone l).1 hp
    exact (hend l).2 ⟨v, hv, h l v hv⟩
  · intro h l v hv
    obtain ⟨w, h1, h2⟩ := (hend l).1 (h l ((hone l).2 ⟨v, hv⟩))
    rw [hv] at h1
    injection h1 with h1
    rw [h1]; exact h2

theorem topRules_iff (rules : List Bytes) :
    TopRules rules ↔ ∀ q ∈ rules.map revLabels, ∀ l ∈ q.head?.toList, RuleAt rules [l] ∨ PrefixAt rules [l, star] := by
  unfold TopRules
  constructor
  · intro h q hq l hl
    apply h l
    rw [prefixAt_iff]
    refine ⟨q, hq, ?_⟩
    cases q with
    | nil => simp at hl
    | cons x q => simp at hl; subst hl; simp
  · intro h l hl
    obtain ⟨q, hq, hpre⟩ := prefixAt_iff.1 hl
    apply h q hq l
    obtain ⟨z, rfl⟩ := hpre
    simp

instance {rules} : Decidable (TopRules rules) := decidable_of_iff _ (topRules_iff rules).symm

end Fasttld
