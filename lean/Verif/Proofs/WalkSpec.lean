import Verif.Proofs.Trie
import Verif.Proofs.HostParts

/-!
# What the walk finds, in terms of the paths of the trie
-/

set_option linter.unusedSimpArgs false

namespace Fasttld
open Spec Trie

/-! ## Tries with the same paths -/

theorem labelL_same {a b : Trie} (hs : a.Same b) (l : Bytes) (isLast : Bool) (k : Nat) (endK : Option Nat) :
    (∃ o, labelL a l isLast k endK = .stop o ∧ labelL b l isLast k endK = .stop o) ∨
    ∃ v w e, labelL a l isLast k endK = .next v e ∧ labelL b l isLast k endK = .next w e ∧ v.Same w := by
  unfold labelL
  rcases hs.get (b! "*") with ⟨h1, h2⟩ | ⟨v, w, h1, h2, -⟩
  · rw [h1, h2]
    rcases hs.get (unescapeOrEmpty l) with ⟨h3, h4⟩ | ⟨v, w, h3, h4, hvw⟩
    · rw [h3, h4]; exact .inl ⟨_, rfl, rfl⟩
    · rw [h3, h4]
      simp only [hvw.isEnd]
      by_cases hc : v.kids.length = 0 ∨ isLast = true
      · have hc' : w.kids.length = 0 ∨ isLast = true := by rwa [← hvw.kids]
        rw [if_pos hc, if_pos hc']
        exact .inl ⟨_, rfl, rfl⟩
      · have hc' : ¬ (w.kids.length = 0 ∨ isLast = true) := by rwa [← hvw.kids]
        rw [if_neg hc, if_neg hc']
        exact .inr ⟨v, w, _, rfl, rfl, hvw⟩
  · rw [h1, h2]
    have : (a.get (33 :: l)).isSome = (b.get (33 :: l)).isSome := by
      rcases hs.get (33 :: l) with ⟨h3, h4⟩ | ⟨v, w, h3, h4, -⟩ <;> rw [h3, h4] <;> rfl
    simp only [this]
    exact .inl ⟨_, rfl, rfl⟩

theorem walkL_same {a b : Trie} (hs : a.Same b) (ls : List Bytes) (k : Nat) (endK : Option Nat) :
    walkL a ls k endK = walkL b ls k endK := by
  induction ls generalizing a b k endK with
  | nil => rfl
  | cons l ls ih =>
    rw [walkL, walkL]
    split
    · rfl
    · rcases labelL_same hs l ls.isEmpty k endK with ⟨o, h1, h2⟩ | ⟨v, w, e, h1, h2, hvw⟩
      · rw [h1, h2]
      · rw [h1, h2]; exact ih hvw _ _

theorem hostF_same {a b : Trie} (hs : a.Same b) (ig : Bool) (n : Bytes) (u : ExtractResult) :
    hostF a ig n u = hostF b ig n u := by
  unfold hostF
  simp only [walkL_same hs]

theorem extract_same {a b : Trie} (hs : a.Same b) (idna : Idna) (e : URLParams) :
    extract idna a e = extract idna b e := by
  rw [extract_eq, extract_eq]
  congr 1
  unfold extractF
  simp only
  split <;> try rfl
  unfold nameF
  split
  · rfl
  · simp only
    split
    · rfl
    · exact hostF_same hs _ _ _

/-! ## The walk -/

/-- Path of the first `m` labels. -/
def path (ls : List Bytes) (m : Nat) : List Bytes := (ls.take m).map unescapeOrEmpty

theorem path_zero (ls : List Bytes) : path ls 0 = [] := by simp [path]
theorem path_cons (l : Bytes) (ls : List Bytes) (m : Nat) :
    path (l :: ls) (m + 1) = unescapeOrEmpty l :: path ls m := by simp [path]

/-- Where the suffix ends: at the first of the `m` labels whose path is the end of a rule. -/
def EndSpec (node : Trie) (ls : List Bytes) (k m : Nat) (r : Option Nat) : Prop :=
  (r = none ∧ ∀ j < m, ¬ node.endAt (path ls (j + 1))) ∨
  ∃ j < m, r = some (k + j) ∧ node.endAt (path ls (j + 1)) ∧ ∀ i < j, ¬ node.endAt (path ls (i + 1))

/-- Why the walk stopped after `m` labels, and what the label before the suffix is. -/
def StopSpec (node : Trie) (ls : List Bytes) (k m : Nat) (o : Out) : Prop :=
  (∃ l, ls[m]? = some l ∧ node.has (path ls m ++ [star]) ∧ o.prev = k + m ∧
    (node.has (path ls m ++ [33 :: l]) → o.sep = k + m) ∧
    (¬ node.has (path ls m ++ [33 :: l]) → o.sep = k + m + 1)) ∨
  (∃ l, ls[m]? = some l ∧ ¬ node.has (path ls m ++ [star]) ∧ ¬ node.has (path ls (m + 1)) ∧
    o.prev = k + m ∧ o.sep = k + m) ∨
  (1 ≤ m ∧ o.prev + 1 = k + m ∧ o.sep = k + m ∧ ((∀ x, ¬ node.has (path ls m ++ [x])) ∨ m = ls.length))

theorem walkL_spec {node : Trie} {ls : List Bytes} {k : Nat} {endK : Option Nat} {o : Out}
    (h : walkL node ls k endK = some o) (hne : ls ≠ []) :
    ∃ m, m ≤ ls.length ∧ o.start = k + m ∧ node.has (path ls m) ∧ (∀ j < m, ¬ node.has (path ls j ++ [star])) ∧
      StopSpec node ls k m o ∧ (endK = none → EndSpec node ls k m o.endK) := by
  induction ls generalizing node k endK with
  | nil => exact absurd rfl hne
  | cons l ls ih =>
    have hone : ∀ (t : Trie) x, t.has [x] ↔ (t.get x).isSome = true := by
      intro t x
      rw [has_cons]
      cases t.get x <;> simp [has_nil]
    rw [walkL] at h
    split at h
    · simp at h
    split at h
    · rename_i o' ho
      injection h with h; subst h
      unfold labelL at ho
      split at ho
      · -- a wildcard below
        rename_i x hx
        injection ho with ho; subst ho
        refine ⟨0, by simp, rfl, by simp [path_zero, has_nil], by simp, .inl ⟨l, rfl, ?_, rfl, ?_, ?_⟩, ?_⟩
        · rw [path_zero, List.nil_append, hone]; rw [star, hx]; rfl
        · intro h1
          rw [path_zero, List.nil_append, hone] at h1
          rw [if_pos h1]; simp
        · intro h1
          rw [path_zero, List.nil_append, hone] at h1
          rw [if_neg h1]
        · rintro rfl; exact .inl ⟨rfl, by simp⟩
      · rename_i hx
        have hstar : ¬ node.has [star] := by rw [hone, star, hx]; simp
        split at ho
        · -- not a child
          rename_i hv
          injection ho with ho; subst ho
          refine ⟨0, by simp, rfl, by simp [path_zero, has_nil], by simp, .inr (.inl ⟨l, rfl, hstar, ?_, rfl, rfl⟩), ?_⟩
          · rw [path_cons, path_zero, hone, hv]; simp
          · rintro rfl; exact .inl ⟨rfl, by simp⟩
        · rename_i val hv
          simp only at ho
          split at ho
          · -- last label or leaf
            rename_i hc
            injection ho with ho; subst ho
            have hget : ∀ p, node.has (unescapeOrEmpty l :: p) ↔ val.has p := by
              intro p; rw [has_cons, hv]; simp
            refine ⟨1, by simp, rfl, ?_, ?_, .inr (.inr ⟨by omega, rfl, rfl, ?_⟩), ?_⟩
            · rw [path_cons, path_zero, hget]; exact has_nil _
            · intro j hj
              have : j = 0 := by omega
              subst this
              simpa [path_zero] using hstar
            · rcases hc with hc | hc
              · refine .inl fun x => ?_
                rw [path_cons, path_zero, List.cons_append, List.nil_append, hget, hone, (kids_empty_iff val).1 hc]; simp
              · have : ls = [] := by simpa using hc
                subst this
                exact .inr rfl
            · rintro rfl
              have he : node.endAt [unescapeOrEmpty l] ↔ val.isEnd = true := by rw [endAt_cons, hv]; simp [endAt_nil]
              simp only [true_and]
              split
              · rename_i h1
                exact .inr ⟨0, by omega, rfl, by rw [path_cons, path_zero, he]; exact h1, by simp⟩
              · rename_i h1
                refine .inl ⟨rfl, ?_⟩
                intro j hj
                have : j = 0 := by omega
                subst this
                rw [path_cons, path_zero, he]; exact h1
          · simp at ho
    · -- go on
      rename_i val e' hn
      obtain ⟨h1, hstar', hv, h4, -⟩ := labelL_next hn
      have hstar : ¬ node.has [star] := by rw [hone, star, hstar']; simp
      have hls : ls ≠ [] := by simpa using h1
      have hget : ∀ p, node.has (unescapeOrEmpty l :: p) ↔ val.has p := by
        intro p; rw [has_cons, hv]; simp
      have hend : ∀ p, node.endAt (unescapeOrEmpty l :: p) ↔ val.endAt p := by
        intro p; rw [endAt_cons, hv]; simp
      obtain ⟨m, m1, m2, m3, m4, m5, m6⟩ := ih h hls
      refine ⟨m + 1, by simpa using m1, by omega, ?_, ?_, ?_, ?_⟩
      · rw [path_cons, hget]; exact m3
      · intro j hj
        cases j with
        | zero => simpa [path_zero] using hstar
        | succ j => rw [path_cons, List.cons_append, hget]; exact m4 j (by omega)
      · rcases m5 with ⟨x, s1, s2, s3, s4, s5⟩ | ⟨x, s1, s2, s3, s4, s5⟩ | ⟨s1, s2, s3, s4⟩
        · refine .inl ⟨x, by simpa using s1, ?_, by omega, ?_, ?_⟩
          · rw [path_cons, List.cons_append, hget]; exact s2
          · rw [path_cons, List.cons_append, hget]; intro hh; have := s4 hh; omega
          · rw [path_cons, List.cons_append, hget]; intro hh; have := s5 hh; omega
        · refine .inr (.inl ⟨x, by simpa using s1, ?_, ?_, by omega, by omega⟩)
          · rw [path_cons, List.cons_append, hget]; exact s2
          · rw [path_cons, hget]; exact s3
        · refine .inr (.inr ⟨by omega, by omega, by omega, ?_⟩)
          rcases s4 with s4 | s4
          · refine .inl fun x => ?_
            rw [path_cons, List.cons_append, hget]; exact s4 x
          · exact .inr (by simp [s4])
      · rintro rfl
        have he0 : node.endAt (path (l :: ls) (0 + 1)) ↔ val.isEnd = true := by
          rw [path_cons, path_zero, hend, endAt_nil]
        by_cases hve : val.isEnd = true
        · rw [if_pos ⟨rfl, hve⟩] at h4
          subst h4
          rw [walkL_end_some h]
          exact .inr ⟨0, by omega, rfl, he0.2 hve, by simp⟩
        · rw [if_neg (by simp [hve])] at h4
          subst h4
          rcases m6 rfl with ⟨e1, e2⟩ | ⟨j, e1, e2, e3, e4⟩
          · refine .inl ⟨e1, ?_⟩
            intro j hj
            cases j with
            | zero => rw [he0]; exact hve
            | succ j => rw [path_cons, hend]; exact e2 j (by omega)
          · refine .inr ⟨j + 1, by omega, by rw [e2]; congr 1; omega, by rw [path_cons, hend]; exact e3, ?_⟩
            intro i hi
            cases i with
            | zero => rw [he0]; exact hve
            | succ i => rw [path_cons, hend]; exact e4 i (by omega)

/-- Label numbers moved by `j`. -/
def Out.shift (j : Nat) (o : Out) : Out := ⟨o.endK.map (· + j), o.prev + j, o.start + j, o.sep + j⟩

/-- The walk does not depend on the number of its first label. -/
theorem walkL_add (node : Trie) (ls : List Bytes) (k j : Nat) (endK : Option Nat) :
    walkL node ls (k + j) (endK.map (· + j)) = (walkL node ls k endK).map (Out.shift j) := by
  induction ls generalizing node k endK with
  | nil => rfl
  | cons l ls ih =>
    have hl : labelL node l ls.isEmpty (k + j) (endK.map (· + j)) =
        match labelL node l ls.isEmpty k endK with
        | .stop o => .stop (o.shift j)
        | .next v e => .next v (e.map (· + j)) := by
      have hend : ∀ v : Trie, (if endK.map (· + j) = none ∧ v.isEnd = true then some (k + j) else endK.map (· + j)) =
          (if endK = none ∧ v.isEnd = true then some k else endK).map (· + j) := by
        intro v
        cases endK with
        | none => by_cases hv : v.isEnd = true <;> simp [hv]
        | some e => simp
      unfold labelL
      cases node.get (b! "*") with
      | some _ =>
        simp only [Out.shift]
        by_cases hx : (node.get (33 :: l)).isSome = true
        · simp [hx]
        · simp only [hx, Bool.false_eq_true, if_false]
          congr 2; omega
      | none =>
        simp only
        cases node.get (unescapeOrEmpty l) with
        | none => rfl
        | some v =>
          simp only [hend]
          by_cases hc : v.kids.length = 0 ∨ ls.isEmpty = true
          · simp only [if_pos hc, Out.shift]
            congr 2 <;> omega
          · simp only [if_neg hc]
    rw [walkL, walkL, hl]
    split
    · rfl
    · cases labelL node l ls.isEmpty k endK with
      | stop o => rfl
      | next v e =>
        simp only
        have := ih v (k + 1) e
        rw [show k + j + 1 = k + 1 + j by omega]
        exact this

/-- Two walks over the same labels. -/
theorem walkL_shift {node : Trie} {ls : List Bytes} {k k' : Nat} {o o' : Out} (h : walkL node ls k none = some o)
    (h' : walkL node ls k' none = some o') : ∃ o0 : Out, o = o0.shift k ∧ o' = o0.shift k' := by
  have e := walkL_add node ls 0 k none
  have e' := walkL_add node ls 0 k' none
  rw [Nat.zero_add, Option.map_none] at e e'
  rw [h] at e
  rw [h'] at e'
  cases hw : walkL node ls 0 none with
  | none => rw [hw] at e; simp at e
  | some o0 =>
    rw [hw] at e e'
    simp only [Option.map_some, Option.some.injEq] at e e'
    exact ⟨o0, e, e'⟩

end Fasttld
