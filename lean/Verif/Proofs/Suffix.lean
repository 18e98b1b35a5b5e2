import Verif.Proofs.Cut
import Verif.Proofs.Unescape

/-!
# The walk and the algorithm of the Public Suffix List
-/

set_option linter.unusedSimpArgs false

namespace Fasttld
open Spec Trie

/-! ## Rules -/

theorem intercalate_cons (w : Bytes) (ws : List Bytes) :
    ∃ z, List.intercalate [46] (w :: ws) = w ++ z ∧ (z = [] ∨ ∃ y, z = 46 :: y) := by
  cases ws with
  | nil => exact ⟨[], by simp [intercalate_singleton], .inl rfl⟩
  | cons x ws => exact ⟨46 :: List.intercalate [46] (x :: ws), by rw [intercalate_cons_cons]; simp, .inr ⟨_, rfl⟩⟩

theorem intercalate_prepend (c : UInt8) (w : Bytes) (ws : List Bytes) :
    List.intercalate [46] ((c :: w) :: ws) = c :: List.intercalate [46] (w :: ws) := by
  cases ws with
  | nil => simp [intercalate_singleton]
  | cons x ws => simp [intercalate_cons_cons]

/-- An exception rule is a rule whose leftmost label begins with `!`. -/
theorem exceptionAt_iff {rules : List Bytes} {q : List Bytes} {l : Bytes} :
    ExceptionAt rules (q ++ [l]) ↔ RuleAt rules (q ++ [33 :: l]) := by
  unfold ExceptionAt RuleAt IsLabels
  simp only [List.reverse_append, List.reverse_cons, List.reverse_nil, List.nil_append, List.singleton_append]
  constructor
  · rintro ⟨r, hr, -, h2, h3⟩
    refine ⟨33 :: r, hr, by simp, ?_, by rw [intercalate_prepend, h3]⟩
    intro x hx
    rcases List.mem_cons.1 hx with rfl | hx
    · have := h2 l (by simp)
      simp [this]
    · exact h2 x (by simp only [List.mem_cons]; exact .inr hx)
  · rintro ⟨r, hr, -, h2, h3⟩
    rw [intercalate_prepend] at h3
    refine ⟨_, by rw [← h3]; exact hr, by simp, ?_, rfl⟩
    intro x hx
    rcases List.mem_cons.1 hx with rfl | hx
    · have := h2 (33 :: x) (by simp)
      simpa using this
    · exact h2 x (by simp only [List.mem_cons]; exact .inr hx)

theorem exceptionAt_ne {rules : List Bytes} {p : List Bytes} (h : ExceptionAt rules p) : ∃ q l, p = q ++ [l] := by
  obtain ⟨r, -, h1, -⟩ := h
  rcases List.eq_nil_or_concat p with rfl | ⟨q, l, rfl⟩
  · exact absurd rfl h1
  · exact ⟨q, l, by simp⟩

theorem normalAt_iff {rules : List Bytes} {q : List Bytes} {l : Bytes} (hl : l.head? ≠ some 33) :
    NormalAt rules (q ++ [l]) ↔ RuleAt rules (q ++ [l]) := by
  unfold NormalAt RuleAt
  constructor
  · rintro ⟨r, hr, -, h⟩; exact ⟨r, hr, h⟩
  · rintro ⟨r, hr, h⟩
    refine ⟨r, hr, ?_, h⟩
    obtain ⟨-, -, h⟩ := h
    simp only [List.reverse_append, List.reverse_cons, List.reverse_nil, List.nil_append, List.singleton_append] at h
    obtain ⟨z, h2, h3⟩ := intercalate_cons l q.reverse
    rw [h, h2]
    cases l with
    | nil =>
      rcases h3 with rfl | ⟨y, rfl⟩
      · simp
      · simp
    | cons c l => simpa using hl

theorem Spec.NormalAt.rule {rules : List Bytes} {p : List Bytes} (h : NormalAt rules p) : RuleAt rules p := by
  obtain ⟨r, hr, -, h⟩ := h; exact ⟨r, hr, h⟩

theorem Spec.RuleAt.prefix {rules : List Bytes} {p q : List Bytes} (h : RuleAt rules q) (hp : p <+: q) : PrefixAt rules p :=
  ⟨q, hp, h⟩

theorem Spec.PrefixAt.prefix {rules : List Bytes} {p q : List Bytes} (h : PrefixAt rules q) (hp : p <+: q) :
    PrefixAt rules p := by
  obtain ⟨r, h1, h2⟩ := h; exact ⟨r, hp.trans h1, h2⟩

theorem Spec.RuleAt.ne {rules : List Bytes} {p : List Bytes} (h : RuleAt rules p) : p ≠ [] := by
  obtain ⟨r, -, h1, -⟩ := h
  rintro rfl; exact h1 rfl

/-! ## Matching -/

theorem Spec.Matches.length {q name : List Bytes} (h : Matches q name) : q.length ≤ name.length := by
  induction q generalizing name with
  | nil => simp
  | cons x q ih =>
    cases name with
    | nil => exact h.elim
    | cons d name => simp; exact ih h.2

theorem Spec.Matches.append_left {a b name : List Bytes} (h : Matches (a ++ b) name) : Matches a name := by
  induction a generalizing name with
  | nil => trivial
  | cons x a ih =>
    cases name with
    | nil => exact h.elim
    | cons d name => exact ⟨h.1, ih h.2⟩

theorem Spec.Matches.get {a : List Bytes} {x : Bytes} {b name : List Bytes} (h : Matches (a ++ x :: b) name) :
    x = star ∨ name[a.length]? = some x := by
  induction a generalizing name with
  | nil =>
    cases name with
    | nil => exact h.elim
    | cons d name =>
      rcases h.1 with h | h
      · exact .inl h
      · exact .inr (by simp [h])
  | cons y a ih =>
    cases name with
    | nil => exact h.elim
    | cons d name => simpa using ih h.2

theorem matches_take (name : List Bytes) (m : Nat) : Matches (name.take m) name := by
  induction m generalizing name with
  | zero => trivial
  | succ m ih =>
    cases name with
    | nil => trivial
    | cons d name => exact ⟨.inr rfl, ih name⟩

theorem matches_take_star {name : List Bytes} {m : Nat} (h : m < name.length) : Matches (name.take m ++ [star]) name := by
  induction m generalizing name with
  | zero =>
    cases name with
    | nil => simp at h
    | cons d name => exact ⟨.inl rfl, trivial⟩
  | succ m ih =>
    cases name with
    | nil => simp at h
    | cons d name => exact ⟨.inr rfl, ih (by simpa using h)⟩

/-- As long as there is no wildcard on the way, a matching rule is equal to the name. -/
theorem Spec.Matches.exact {rules q name : List Bytes} {m : Nat} (hq : PrefixAt rules q) (hm : Matches q name)
    (hs : ∀ j < m, ¬ PrefixAt rules (name.take j ++ [star])) (hl : q.length ≤ m) : q = name.take q.length := by
  -- from left to right
  have key : ∀ j, j ≤ q.length → q.take j = name.take j := by
    intro j
    induction j with
    | zero => intro _; simp
    | succ j ih =>
      intro hj
      have h1 := ih (by omega)
      have hjl : j < q.length := by omega
      have e : q = q.take j ++ q[j] :: q.drop (j + 1) := by
        rw [← List.drop_eq_getElem_cons hjl, List.take_append_drop]
      have hg := hm
      rw [e] at hg
      have hget := hg.get
      rw [List.length_take, Nat.min_eq_left (by omega)] at hget
      have e2 : q.take (j + 1) = q.take j ++ [q[j]] := by rw [List.take_add_one]; simp [List.getElem?_eq_getElem hjl]
      rcases hget with h2 | h2
      · exfalso
        apply hs j (by omega)
        rw [← h1, ← h2, ← e2]
        exact hq.prefix (List.take_prefix _ _)
      · rw [e2, h1, List.take_add_one, h2]; rfl
  have := key q.length (Nat.le_refl _)
  rwa [List.take_length] at this

/-- A matching rule that is longer. -/
theorem Spec.Matches.longer {rules q name : List Bytes} {m : Nat} (hq : PrefixAt rules q) (hm : Matches q name)
    (hs : ∀ j < m, ¬ PrefixAt rules (name.take j ++ [star])) (hl : m < q.length) :
    ∃ x, name.take m ++ [x] <+: q ∧ (x = star ∨ name[m]? = some x) := by
  have e : q = q.take m ++ q[m] :: q.drop (m + 1) := by
    rw [← List.drop_eq_getElem_cons hl, List.take_append_drop]
  have h0 : q.take m = name.take m := by
    have hm' : Matches (q.take m) name := by rw [e] at hm; exact hm.append_left
    have := Matches.exact (hq.prefix (List.take_prefix m q)) hm' hs (by simp; omega)
    rwa [List.length_take, Nat.min_eq_left (by omega)] at this
  refine ⟨q[m], ?_, ?_⟩
  · rw [← h0]
    have : q.take m ++ [q[m]] = q.take (m + 1) := by rw [List.take_add_one]; simp [List.getElem?_eq_getElem hl]
    rw [this]; exact List.take_prefix _ _
  · rw [e] at hm
    have := hm.get
    rwa [List.length_take, Nat.min_eq_left (by omega)] at this

/-- The algorithm gives one answer. -/
theorem publicSuffix_unique {rules name : List Bytes} {a b : Nat} (ha : PublicSuffix rules name a)
    (hb : PublicSuffix rules name b) : a = b := by
  rcases ha with ⟨p, p1, p2, p3, p4⟩ | ⟨p0, p, p1, p2, p3, p4⟩ <;>
    rcases hb with ⟨q, q1, q2, q3, q4⟩ | ⟨q0, q, q1, q2, q3, q4⟩
  · have := p4 q q1 q2; have := q4 p p1 p2; omega
  · exact absurd p2 (q0 p p1)
  · exact absurd q2 (p0 q q1)
  · have := p4 q q1 q2; have := q4 p p1 p2; omega

theorem publicSuffix_not_none {rules name : List Bytes} {a : Nat} (ha : PublicSuffix rules name a) :
    ¬ NoRuleMatches rules name := by
  rintro ⟨h1, h2⟩
  rcases ha with ⟨p, p1, p2, -⟩ | ⟨-, p, p1, p2, -⟩
  · exact h1 p p1 p2
  · exact h2 p p1 p2

theorem rule_of_short {rules p : List Bytes} (h : PrefixAt rules p) (hs : ∀ q, RuleAt rules q → p <+: q → q.length ≤ p.length) :
    RuleAt rules p := by
  obtain ⟨q, hq, hqr⟩ := h
  have : p = q := hq.eq_of_length_le (hs q hqr hq)
  rwa [this]

theorem Spec.Regular.tame {rules name : List Bytes} (h : Regular rules name) : Tame rules name := by
  obtain ⟨hpl, hnt, hng, hns, hex⟩ := h
  refine ⟨hpl, hnt, fun i h1 h2 _ => hng i h1 h2, ?_, hex⟩
  intro i l hl _ hst
  have hi : i < name.length := by
    rcases Nat.lt_or_ge i name.length with h | h
    · exact h
    · rw [List.getElem?_eq_none h] at hl; simp at hl
  have hsh := hns i (by omega) hst
  have hlen : (name.take i).length = i := by simp; omega
  have key : ∀ x q, RuleAt rules q → name.take i ++ [x] <+: q → q.length ≤ i + 1 := fun x q hq hp =>
    hsh q hq (List.IsPrefix.trans (by simp) hp)
  refine ⟨key star, ?_⟩
  by_cases hc : PrefixAt rules (name.take i ++ [33 :: l])
  · refine .inl ⟨rule_of_short hc (fun q hq hp => by have := key _ q hq hp; simp [hlen]; omega), fun q hq hp => ?_⟩
    obtain ⟨a, b, rfl⟩ := exceptionAt_ne hq
    rcases Nat.lt_or_ge i a.length with h | h
    · have hp' : name.take i <+: a ++ [33 :: b] := by
        have h1 : name.take i <+: a ++ [b] := List.IsPrefix.trans (by simp) hp
        have h2 : name.take i <+: a := List.prefix_of_prefix_length_le h1 (List.prefix_append _ _) (by omega)
        exact h2.trans (List.prefix_append _ _)
      have := hsh _ (exceptionAt_iff.1 hq) hp'
      simpa using this
    · simp; omega
  · exact .inr ⟨hc, key l⟩

/-- The walk gives the public suffix, for tame names. -/
theorem walk_publicSuffix {rules ls name : List Bytes} (hnm : name = ls.map unescapeOrEmpty) (hr : Tame rules name)
    (hraw : ls = name ∨ NoExceptions rules) {k : Nat} {o : Out} (hne' : ls ≠ [])
    (h : walkL (buildTrie rules) ls k none = some o) (hsep : ∀ e, o.endK = some e → o.sep < k + name.length) :
    (o.endK = none ∧ NoRuleMatches rules name) ∨
    (o.endK = some k ∧ k ≤ o.sep ∧ PublicSuffix rules name (o.sep - k)) := by
  obtain ⟨hpl, hnt, hng, hns, hex⟩ := hr
  obtain ⟨m, m1, -, m3, m4, m5, m6⟩ := walkL_spec h hne'
  have m6 := m6 rfl
  have hlen : ls.length = name.length := by rw [hnm]; simp
  have hne : name ≠ [] := by rw [hnm]; simpa using hne'
  rw [hlen] at m1
  have hget : ∀ (i : Nat) l, ls[i]? = some l → name[i]? = some (unescapeOrEmpty l) := by
    intro i l hl; rw [hnm, List.getElem?_map, hl]; rfl
  have hpath : ∀ i, path ls i = name.take i := by
    intro i; rw [path, hnm, List.map_take]
  have hhas : ∀ p, p ≠ [] → ((buildTrie rules).has p ↔ PrefixAt rules p) := by
    intro p hp; rw [buildTrie_has]; simp [hp]
  unfold EndSpec at m6
  simp only [hpath] at m3 m4 m6
  unfold StopSpec at m5
  simp only [hpath] at m5
  have m4 : ∀ j < m, ¬ PrefixAt rules (name.take j ++ [star]) := fun j hj => by
    rw [← hhas _ (by simp)]; exact m4 j hj
  -- exception rules, as rules
  have hexr : ∀ q x, ExceptionAt rules (q ++ [x]) → RuleAt rules (q ++ [33 :: x]) := fun q x h => exceptionAt_iff.1 h
  -- exceptions are compared with the label itself
  have hrawx : ∀ p (i : Nat) l, ls[i]? = some l → (PrefixAt rules (p ++ [33 :: l]) ↔ PrefixAt rules (p ++ [33 :: unescapeOrEmpty l])) := by
    intro p i l hl
    rcases hraw with hraw | hraw
    · have := hget i l hl
      rw [← hraw, hl] at this
      injection this with this
      rw [← this]
    · exact ⟨fun h => absurd h (hraw _ _), fun h => absurd h (hraw _ _)⟩
  rw [hlen] at m5
  have m5 : (∃ l, name[m]? = some l ∧ (buildTrie rules).has (name.take m ++ [star]) ∧ o.prev = k + m ∧
        (PrefixAt rules (name.take m ++ [33 :: l]) → o.sep = k + m) ∧
        (¬ PrefixAt rules (name.take m ++ [33 :: l]) → o.sep = k + m + 1)) ∨
      (∃ l, name[m]? = some l ∧ ¬ (buildTrie rules).has (name.take m ++ [star]) ∧
        ¬ (buildTrie rules).has (name.take (m + 1)) ∧ o.prev = k + m ∧ o.sep = k + m) ∨
      (1 ≤ m ∧ o.prev + 1 = k + m ∧ o.sep = k + m ∧
        ((∀ x, ¬ (buildTrie rules).has (name.take m ++ [x])) ∨ m = name.length)) := by
    rcases m5 with ⟨l, h1, h2, h3, h4, h5⟩ | ⟨l, h1, h2⟩ | h
    · rw [hhas _ (by simp), hrawx _ m l h1] at h4 h5
      exact .inl ⟨_, hget m l h1, h2, h3, h4, h5⟩
    · exact .inr (.inl ⟨_, hget m l h1, h2⟩)
    · exact .inr (.inr h)
  have htake : ∀ i, 1 ≤ i → name.take i ≠ [] := by
    intro i hi hc
    rw [List.take_eq_nil_iff] at hc
    rcases hc with hc | hc
    · omega
    · exact hne hc
  clear hnm hget hrawx hraw
  rcases Nat.eq_zero_or_pos m with h0 | hpos
  · -- nothing matched
    subst h0
    left
    have hend : o.endK = none := by
      rcases m6 with ⟨h1, -⟩ | ⟨j, hj, -⟩
      · exact h1
      · omega
    refine ⟨hend, ?_⟩
    have hfirst : ¬ PrefixAt rules (name.take 1) := by
      rcases m5 with ⟨l, -, h2, -⟩ | ⟨l, -, -, h3, -⟩ | ⟨h1, -⟩
      · rw [hhas _ (by simp)] at h2; exact absurd h2 (by simpa using hnt)
      · rwa [hhas _ (htake _ (by omega))] at h3
      · omega
    -- no path that matches
    have hno : ∀ q, q ≠ [] → PrefixAt rules q → ¬ Matches q name := by
      intro q hq hp hm
      obtain ⟨x, hx, hx2⟩ := Matches.longer (m := 0) hp hm (by simp) (List.length_pos_iff.2 hq)
      simp only [List.take_zero, List.nil_append] at hx
      rcases hx2 with rfl | hx2
      · exact hnt (hp.prefix hx)
      · apply hfirst
        cases name with
        | nil => simp at hx2
        | cons d name =>
          simp at hx2
          subst hx2
          exact hp.prefix hx
    refine ⟨?_, fun q hq => hno q hq.rule.ne (hq.rule.prefix (List.prefix_refl _))⟩
    intro p hp hm
    obtain ⟨q, l, rfl, -, hst⟩ := hex p hp hm
    cases q with
    | nil => exact hnt hst
    | cons x q => exact hno (x :: q) (by simp) (hst.prefix (by simp)) hm.append_left
  · right
    have hP : PrefixAt rules (name.take m) := by
      rwa [hhas _ (htake _ hpos)] at m3
    have hend : o.endK = some k := by
      have h1 : (buildTrie rules).endAt (name.take 1) := by
        rw [buildTrie_endAt]
        rcases hng 1 (by omega) (by omega) (fun j hj => m4 j (by omega)) (hP.prefix (by
          rw [show name.take 1 = (name.take m).take 1 by rw [List.take_take]; congr 1; omega]
          exact List.take_prefix _ _)) with h | h
        · exact .inl h
        · right
          cases name with
          | nil => exact absurd rfl hne
          | cons d name => exact ⟨d, by simp, by simpa using h⟩
      rcases m6 with ⟨-, h2⟩ | ⟨j, hj, h2, -, h4⟩
      · exact absurd h1 (h2 0 hpos)
      · cases j with
        | zero => exact h2
        | succ j => exact absurd h1 (h4 0 (by omega))
    have hlt := hsep k hend
    -- rules that match
    have hmatch : ∀ q, PrefixAt rules q → Matches q name → q.length ≤ m ∨
        ∃ x, name.take m ++ [x] <+: q ∧ (x = star ∨ name[m]? = some x) := by
      intro q hq hm
      rcases Nat.lt_or_ge m q.length with h | h
      · exact .inr (Matches.longer hq hm m4 h)
      · exact .inl h
    -- exceptions that match
    have hexc : ∀ p, ExceptionAt rules p → Matches p name → ∃ q l, p = q ++ [l] ∧ PrefixAt rules (name.take m ++ [star]) ∧
        q = name.take m ∧ name[m]? = some l ∨
        ∃ x, (x = star ∨ name[m]? = some x) ∧ name.take m ++ [x] <+: q ∧ p = q ++ [l] := by
      intro p hp hm
      obtain ⟨q, l, rfl, hl, hst⟩ := hex p hp hm
      have hq : PrefixAt rules q := hst.prefix (by simp)
      rcases hmatch q hq hm.append_left with h | ⟨x, hx, hx2⟩
      · have hqe := Matches.exact hq hm.append_left m4 h
        rcases Nat.lt_or_ge q.length m with h1 | h1
        · rw [hqe] at hst; exact absurd hst (m4 _ h1)
        · have hqm : q.length = m := by omega
          rw [hqm] at hqe
          refine ⟨q, l, .inl ⟨rfl, by rw [← hqe]; exact hst, hqe, ?_⟩⟩
          have := hm.get
          rw [hqm] at this
          exact this.resolve_left hl
      · exact ⟨q, l, .inr ⟨x, hx2, hx, rfl⟩⟩
    -- the path without a wildcard below
    have hplain : ¬ PrefixAt rules (name.take m ++ [star]) → (∀ x, name[m]? = some x → ¬ PrefixAt rules (name.take m ++ [x])) →
        PublicSuffix rules name m := by
      intro n1 n2
      have nlong : ∀ q, PrefixAt rules q → Matches q name → q.length ≤ m := by
        intro q hq hm
        rcases hmatch q hq hm with h | ⟨x, hx, rfl | hx2⟩
        · exact h
        · exact absurd (hq.prefix hx) n1
        · exact absurd (hq.prefix hx) (n2 x hx2)
      right
      refine ⟨?_, name.take m, ?_, matches_take name m, by simp; omega, ?_⟩
      · intro p hp hm
        obtain ⟨q, l, ⟨-, h1, -⟩ | ⟨x, hx, hx2, rfl⟩⟩ := hexc p hp hm
        · exact n1 h1
        · have hq : PrefixAt rules q := (hexr q l hp).prefix (by simp)
          rcases hx with rfl | hx
          · exact n1 (hq.prefix hx2)
          · exact n2 x hx (hq.prefix hx2)
      · have hR := (hng m hpos m1 m4 hP).resolve_right n1
        obtain ⟨i, rfl⟩ : ∃ i, m = i + 1 := ⟨m - 1, by omega⟩
        have hi : i < name.length := by omega
        have e : name.take (i + 1) = name.take i ++ [name[i]] := by
          rw [List.take_add_one]; simp [List.getElem?_eq_getElem hi]
        rw [e] at hR ⊢
        rw [normalAt_iff]
        · exact hR
        · exact hpl _ (List.getElem_mem hi)
      · intro q hq hm
        have := nlong q (hq.rule.prefix (List.prefix_refl _)) hm
        simp; omega
    rcases m5 with ⟨l, h1, h2, -, h4, h5⟩ | ⟨l, h1, h2, h3, -, h5⟩ | ⟨-, -, h3, h4⟩
    · -- a wildcard
      rw [hhas _ (by simp)] at h2
      have hml : m < name.length := by
        rcases Nat.lt_or_ge m name.length with h | h
        · exact h
        · rw [List.getElem?_eq_none h] at h1; simp at h1
      obtain ⟨hS, hcase⟩ := hns m l h1 m4 h2
      have hlm : (name.take m).length = m := by simp; omega
      have hR : RuleAt rules (name.take m ++ [star]) :=
        rule_of_short h2 (fun q hq hp => by have := hS q hq hp; simp [hlm]; omega)
      -- exceptions below the wildcard itself
      have hxS : ∀ q x, ExceptionAt rules (q ++ [x]) → ¬ name.take m ++ [star] <+: q := by
        intro q x hp hy
        have := hS _ (hexr q x hp) (hy.trans (by simp))
        have := hy.length_le
        simp [hlm] at *; omega
      rcases hcase with ⟨hexm, hcov⟩ | ⟨hexm, hunc⟩
      · have hs := h4 (hexm.prefix (List.prefix_refl _))
        have hE : ExceptionAt rules (name.take m ++ [l]) := exceptionAt_iff.2 hexm
        refine ⟨hend, by omega, .inl ⟨_, hE, ?_, by simp; omega, ?_⟩⟩
        · have : name.take m ++ [l] = name.take (m + 1) := by rw [List.take_add_one, h1]; rfl
          rw [this]; exact matches_take _ _
        · intro p hp hm
          obtain ⟨q, x, ⟨rfl, -, rfl, -⟩ | ⟨y, hy0, hy, rfl⟩⟩ := hexc p hp hm
          · simp
          · rcases hy0 with rfl | hy0
            · exact absurd hy (hxS q x hp)
            · rw [h1] at hy0
              injection hy0 with hy0
              subst hy0
              have := hcov _ hp (hy.trans (by simp))
              simp [hlm] at *; omega
      · have hs := h5 hexm
        refine ⟨hend, by omega, .inr ⟨?_, name.take m ++ [star], ?_, matches_take_star hml, by simp; omega, ?_⟩⟩
        · intro p hp hm
          obtain ⟨q, x, ⟨rfl, -, rfl, hx⟩ | ⟨y, hy0, hy, rfl⟩⟩ := hexc p hp hm
          · rw [h1] at hx
            injection hx with hx
            subst hx
            exact hexm ((hexr _ _ hp).prefix (List.prefix_refl _))
          · rcases hy0 with rfl | hy0
            · exact hxS q x hp hy
            · rw [h1] at hy0
              injection hy0 with hy0
              subst hy0
              have := hunc _ (hexr q x hp) (hy.trans (by simp))
              have := hy.length_le
              simp [hlm] at *; omega
        · rw [normalAt_iff (by simp [star])]
          exact hR
        · intro q hq hm
          have : q.length ≤ m + 1 := by
            rcases hmatch q (hq.rule.prefix (List.prefix_refl _)) hm with h | ⟨x, hx, rfl | hx2⟩
            · omega
            · exact hS q hq.rule hx
            · rw [h1] at hx2
              injection hx2 with hx2
              subst hx2
              exact hunc q hq.rule hx
          simp; omega
    · rw [hhas _ (by simp)] at h2
      refine ⟨hend, by omega, ?_⟩
      rw [show o.sep - k = m by omega]
      apply hplain h2
      intro x hx
      rw [h1] at hx
      injection hx with hx
      subst hx
      have e : name.take m ++ [l] = name.take (m + 1) := by rw [List.take_add_one, h1]; rfl
      rw [e, ← hhas _ (htake _ (by omega))]
      exact h3
    · refine ⟨hend, by omega, ?_⟩
      rw [show o.sep - k = m by omega]
      have hnone : ∀ x, ¬ (buildTrie rules).has (name.take m ++ [x]) := by
        rcases h4 with h4 | h4
        · exact h4
        · omega
      apply hplain
      · rw [← hhas _ (by simp)]; exact hnone _
      · intro x _; rw [← hhas _ (by simp)]; exact hnone _

end Fasttld
