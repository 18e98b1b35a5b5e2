import Verif.Proofs.InventoryFacts
import Verif.Proofs.Decide
import Verif.Proofs.Torn

/-!
# From facts about the lines to facts about the rules
-/

set_option linter.unusedSimpArgs false

namespace Fasttld.Inv
open Fasttld Fasttld.Spec

variable {L G S : List Bytes} {toASCII : Bytes → Option Bytes} {f : Bytes → Bytes}

theorem revLabels_ne_nil (r : Bytes) : revLabels r ≠ [] := by
  unfold revLabels; simp [splitByte_ne_nil]

theorem revLabels_free (r : Bytes) : ∀ l ∈ revLabels r, 46 ∉ l := by
  unfold revLabels
  intro l hl
  exact splitByte_free 46 r l (by simpa using hl)

theorem revLabels_dot (a b : Bytes) : revLabels (a ++ 46 :: b) = revLabels b ++ revLabels a := by
  unfold revLabels
  have := splitByte_append_sep 46 a b
  rw [show a ++ [46] ++ b = a ++ 46 :: b by simp] at this
  rw [this, List.reverse_append]

theorem revLabels_single {a : Bytes} (h : 46 ∉ a) : revLabels a = [a] := by
  unfold revLabels
  have := splitByte_unique 46 (ls := [a]) (by simp) (by simpa using h)
  rw [intercalate_singleton] at this
  rw [this]; rfl

theorem revLabels_join {p : List Bytes} (hp : p ≠ []) (hf : ∀ l ∈ p, 46 ∉ l) : revLabels (List.intercalate [46] p.reverse) = p := by
  unfold revLabels
  rw [splitByte_unique 46 (by simpa using hp) (by simpa using hf), List.reverse_reverse]

theorem join_revLabels (r : Bytes) : List.intercalate [46] (revLabels r).reverse = r := by
  unfold revLabels; rw [List.reverse_reverse, splitByte_join]

/-- A proper beginning of the labels of a rule is what follows a dot. -/
theorem revLabels_prefix {r : Bytes} {q u : List Bytes} (h : revLabels r = q ++ u) (hq : q ≠ []) (hu : u ≠ []) :
    ∃ s t, r = t ++ 46 :: s ∧ revLabels s = q ∧ revLabels t = u := by
  have hf := revLabels_free r
  rw [h] at hf
  refine ⟨List.intercalate [46] q.reverse, List.intercalate [46] u.reverse, ?_,
    revLabels_join hq (fun l hl => hf l (by simp [hl])), revLabels_join hu (fun l hl => hf l (by simp [hl]))⟩
  have := join_revLabels r
  rw [h, List.reverse_append, intercalate_append (by simpa using hu) (by simpa using hq)] at this
  rw [← this]; simp

theorem map_free (hf : ByLabel toASCII f L) {l : Bytes} (h : 46 ∉ l) : 46 ∉ f l := by
  by_cases ha : ∀ b ∈ l, b < 128
  · rwa [hf.ascii l ha]
  · obtain ⟨t, e, ht⟩ := hf.other l ha
    rw [e]
    simp [ht h]

/-- A label is converted to an ASCII label without the prefix only if it is that label. -/
theorem map_eq (hf : ByLabel toASCII f L) {l x : Bytes} (hx : ¬ b! "xn--" <+: x) (h : f l = x) : l = x := by
  by_cases ha : ∀ b ∈ l, b < 128
  · rwa [hf.ascii l ha] at h
  · obtain ⟨t, e, ht⟩ := hf.other l ha
    rw [e] at h
    exact absurd ⟨t, h⟩ hx

theorem map_star (hf : ByLabel toASCII f L) : f star = star := hf.ascii _ (by decide)

theorem rule_iff (hf : ByLabel toASCII f L) {p : List Bytes} :
    RuleAt (L.flatMap (contributes toASCII)) p ↔ ∃ r ∈ L, p = revLabels r ∨ p = (revLabels r).map f := by
  have conv : ∀ r ∈ L, toASCII r = some (List.intercalate [46] ((revLabels r).map f).reverse) := by
    intro r hr
    rw [← List.map_reverse]
    exact hf.rule r hr _ (by simpa using revLabels_ne_nil r) (fun l hl => revLabels_free r l (by simpa using hl)) (join_revLabels r).symm
  have back : ∀ r, revLabels (List.intercalate [46] ((revLabels r).map f).reverse) = (revLabels r).map f := fun r =>
    revLabels_join (by simpa using revLabels_ne_nil r) (by
      intro l hl
      obtain ⟨x, hx, rfl⟩ := List.mem_map.1 hl
      exact map_free hf (revLabels_free r x hx))
  rw [ruleAt_iff]
  simp only [List.mem_map, List.mem_flatMap]
  constructor
  · rintro ⟨x, ⟨r, hr, hx⟩, rfl⟩
    refine ⟨r, hr, ?_⟩
    unfold contributes at hx
    rw [conv r hr] at hx
    simp only at hx
    split at hx
    · rw [List.mem_singleton.1 hx]; exact .inl rfl
    · simp only [List.mem_cons, List.not_mem_nil, or_false] at hx
      rcases hx with rfl | rfl
      · exact .inr (back r)
      · exact .inl rfl
  · rintro ⟨r, hr, h⟩
    by_cases he : List.intercalate [46] ((revLabels r).map f).reverse = r
    · refine ⟨r, ⟨r, hr, ?_⟩, ?_⟩
      · unfold contributes; rw [conv r hr]; simp [he]
      · rcases h with rfl | rfl
        · rfl
        · have := back r
          rw [he] at this
          exact this
    · rcases h with rfl | rfl
      · exact ⟨r, ⟨r, hr, by unfold contributes; rw [conv r hr]; simp [he]⟩, rfl⟩
      · exact ⟨_, ⟨r, hr, by unfold contributes; rw [conv r hr]; simp only [if_neg he]; exact List.mem_cons_self ..⟩, back r⟩

theorem prefix_iff (hf : ByLabel toASCII f L) {p : List Bytes} :
    PrefixAt (L.flatMap (contributes toASCII)) p ↔ ∃ r ∈ L, p <+: revLabels r ∨ p <+: (revLabels r).map f := by
  unfold PrefixAt
  simp only [rule_iff hf]
  constructor
  · rintro ⟨q, hq, r, hr, rfl | rfl⟩
    · exact ⟨r, hr, .inl hq⟩
    · exact ⟨r, hr, .inr hq⟩
  · rintro ⟨r, hr, h | h⟩
    · exact ⟨_, h, r, hr, .inl rfl⟩
    · exact ⟨_, h, r, hr, .inr rfl⟩

theorem prefix_map {p q : List Bytes} (h : p <+: q.map f) : ∃ p0, p0 <+: q ∧ p = p0.map f := by
  obtain ⟨t, ht⟩ := h
  obtain ⟨a, b, e1, e2, e3⟩ := List.map_eq_append_iff.1 ht.symm
  exact ⟨a, ⟨b, e1.symm⟩, e2.symm⟩

theorem star_labels (s : Bytes) : revLabels (42 :: 46 :: s) = revLabels s ++ [star] := by
  have := revLabels_dot [42] s
  rw [show [42] ++ 46 :: s = (42 :: 46 :: s : Bytes) from rfl] at this
  rw [this, revLabels_single (a := [42]) (by decide)]; rfl

/-- A `*` is the leftmost label of a rule. -/
theorem star_rule (hF : Facts L G S) {r : Bytes} (hr : r ∈ L) {q : List Bytes} (h : q ++ [star] <+: revLabels r) :
    ∃ s, r = 42 :: 46 :: s ∧ revLabels s = q := by
  obtain ⟨u, hu⟩ := h
  by_cases hu0 : u = []
  · subst hu0
    rw [List.append_nil] at hu
    by_cases hq : q = []
    · subst hq
      have := join_revLabels r
      rw [← hu] at this
      have e : r = [42] := by rw [← this]; decide
      exact absurd (e ▸ hr) hF.noTop
    · obtain ⟨s, t, e1, e2, e3⟩ := revLabels_prefix hu.symm hq (by simp)
      have := join_revLabels t
      rw [e3] at this
      have ht : t = [42] := by rw [← this]; decide
      exact ⟨s, by rw [e1, ht]; rfl, e2⟩
  · obtain ⟨s, t, e1, e2, -⟩ := revLabels_prefix hu.symm (by simp) hu0
    have h42 := hF.noStar r hr s ⟨t, e1.symm⟩
    have := join_revLabels s
    rw [e2, List.reverse_append] at this
    exfalso
    apply h42
    rw [← this]
    cases q.reverse with
    | nil => decide
    | cons x xs =>
      rw [show [star].reverse ++ (x :: xs) = star :: x :: xs from rfl, intercalate_cons_cons]
      simp [star]

/-- Gaps, for the rules as written. -/
theorem gap_rule (hF : Facts L G S) {r : Bytes} (hr : r ∈ L) {q : List Bytes} (hq : q ≠ []) (h : q <+: revLabels r) :
    (∃ s ∈ L, revLabels s = q) ∨ (∃ s ∈ L, revLabels s = q ++ [star]) ∨ ∃ s ∈ G, revLabels s = q := by
  obtain ⟨u, hu⟩ := h
  by_cases hu0 : u = []
  · subst hu0
    exact .inl ⟨r, hr, by simpa using hu.symm⟩
  · obtain ⟨s, t, e1, e2, -⟩ := revLabels_prefix hu.symm hq hu0
    rcases hF.gap r hr s ⟨t, e1.symm⟩ with h | h | h
    · exact .inl ⟨s, h, e2⟩
    · exact .inr (.inl ⟨_, h, by rw [star_labels, e2]⟩)
    · exact .inr (.inr ⟨s, h, e2⟩)

theorem gap_rules (hF : Facts L G S) (hf : ByLabel toASCII f L) {q : List Bytes} (hq : q ≠ [])
    (h : PrefixAt (L.flatMap (contributes toASCII)) q) :
    RuleAt (L.flatMap (contributes toASCII)) q ∨ PrefixAt (L.flatMap (contributes toASCII)) (q ++ [star]) ∨
      ∃ s ∈ G, q = revLabels s ∨ q = (revLabels s).map f := by
  obtain ⟨r, hr, h | h⟩ := (prefix_iff hf).1 h
  · rcases gap_rule hF hr hq h with ⟨s, hs, e⟩ | ⟨s, hs, e⟩ | ⟨s, hs, e⟩
    · exact .inl ((rule_iff hf).2 ⟨s, hs, .inl e.symm⟩)
    · exact .inr (.inl ((prefix_iff hf).2 ⟨s, hs, .inl (by rw [e]; exact List.prefix_rfl)⟩))
    · exact .inr (.inr ⟨s, hs, .inl e.symm⟩)
  · obtain ⟨q0, h0, rfl⟩ := prefix_map h
    have hq0 : q0 ≠ [] := by rintro rfl; exact hq rfl
    rcases gap_rule hF hr hq0 h0 with ⟨s, hs, e⟩ | ⟨s, hs, e⟩ | ⟨s, hs, e⟩
    · exact .inl ((rule_iff hf).2 ⟨s, hs, .inr (by rw [e])⟩)
    · refine .inr (.inl ((prefix_iff hf).2 ⟨s, hs, .inr ?_⟩))
      rw [e, List.map_append, List.map_singleton, map_star hf]
      exact List.prefix_rfl
    · exact .inr (.inr ⟨s, hs, .inr (by rw [e])⟩)

/-- No rule has a `*` as its top-level label. -/
theorem no_top (hF : Facts L G S) (hf : ByLabel toASCII f L) : ¬ PrefixAt (L.flatMap (contributes toASCII)) [star] := by
  intro h
  obtain ⟨r, hr, h⟩ := (prefix_iff hf).1 h
  have key : [] ++ [star] <+: revLabels r := by
    rcases h with h | h
    · exact h
    · obtain ⟨q0, h0, e⟩ := prefix_map h
      obtain ⟨x, rfl, e'⟩ := List.map_eq_singleton_iff.1 e.symm
      rw [map_eq hf (x := star) (by decide) e'] at h0
      exact h0
  obtain ⟨s, -, e⟩ := star_rule hF hr key
  exact revLabels_ne_nil s e

theorem infix_intercalate {ls : List Bytes} {l : Bytes} (h : l ∈ ls) : l <:+: List.intercalate [46] ls := by
  obtain ⟨A, B, rfl⟩ := List.append_of_mem h
  have h1 : l <:+: List.intercalate [46] (l :: B) := by
    cases B with
    | nil => rw [intercalate_singleton]; exact List.infix_rfl
    | cons x xs => rw [intercalate_cons_cons, List.append_assoc]; exact (List.prefix_append _ _).isInfix
  cases A with
  | nil => exact h1
  | cons a A =>
    rw [intercalate_append (by simp) (by simp)]
    exact h1.trans (List.suffix_append _ _).isInfix

theorem label_infix {l s : Bytes} (h : l ∈ revLabels s) : l <:+: s := by
  have := infix_intercalate (ls := (revLabels s).reverse) (l := l) (by simpa using h)
  rwa [join_revLabels] at this

theorem map_ascii (hf : ByLabel toASCII f L) {s : Bytes} (hs : ∀ b ∈ s, b < 128) : (revLabels s).map f = revLabels s := by
  conv => rhs; rw [← List.map_id (revLabels s)]
  refine List.map_congr_left fun l hl => ?_
  exact hf.ascii l (fun b hb => hs b ((label_infix hl).subset hb))

theorem map_back (hf : ByLabel toASCII f L) {a : List Bytes} (h : ∀ l ∈ a.map f, ¬ b! "xn--" <+: l) : a.map f = a := by
  conv => rhs; rw [← List.map_id a]
  refine List.map_congr_left fun l hl => ?_
  exact (map_eq hf (h _ (List.mem_map_of_mem hl)) rfl).symm

theorem map_back' (hf : ByLabel toASCII f L) {a p : List Bytes} (hp : ∀ l ∈ p, ¬ b! "xn--" <+: l) (h : a.map f = p) : a = p := by
  rw [← h]
  exact (map_back hf (by rw [h]; exact hp)).symm

/-- Wildcards, for all rules. -/
theorem star_rules (hF : Facts L G S) (hf : ByLabel toASCII f L) {a : List Bytes}
    (h : PrefixAt (L.flatMap (contributes toASCII)) (a ++ [star])) : ∃ s, 42 :: 46 :: s ∈ L ∧ revLabels s = a := by
  obtain ⟨r, hr, h | h⟩ := (prefix_iff hf).1 h
  · obtain ⟨s, rfl, e⟩ := star_rule hF hr h
    exact ⟨s, hr, e⟩
  · obtain ⟨q0, h0, e⟩ := prefix_map h
    obtain ⟨a0, x, rfl, e1, e2⟩ := List.map_eq_append_iff.1 e.symm
    obtain ⟨x, rfl, e2'⟩ := List.map_eq_singleton_iff.1 e2
    rw [map_eq hf (x := star) (by decide) e2'] at h0
    obtain ⟨s, rfl, e3⟩ := star_rule hF hr h0
    refine ⟨s, hr, ?_⟩
    rw [← e1, ← e3]
    exact (map_ascii hf (hF.ascii s hr).1).symm

/-- `!` before a rule is before its leftmost label. -/
theorem revLabels_bang (r : Bytes) : ∃ q l, revLabels (33 :: r) = q ++ [33 :: l] ∧ revLabels r = q ++ [l] := by
  unfold revLabels
  obtain ⟨w, ws, h1, h2⟩ := splitByte_append_free 46 [33] r (by decide)
  rw [show [33] ++ r = 33 :: r from rfl] at h2
  rw [h1, h2]
  exact ⟨ws.reverse, w, by simp, by simp⟩

theorem bang_of_labels {r : Bytes} {q : List Bytes} {l : Bytes} (h : revLabels r = q ++ [33 :: l]) : ∃ t, r = 33 :: t := by
  have := join_revLabels r
  rw [h, List.reverse_append] at this
  rw [← this]
  cases q.reverse with
  | nil => exact ⟨l, by simp [intercalate_singleton]⟩
  | cons x xs =>
    rw [show [33 :: l].reverse ++ (x :: xs) = (33 :: l) :: x :: xs from rfl, intercalate_cons_cons]
    exact ⟨_, by simp; rfl⟩

/-- Exceptions are exceptions to a wildcard. -/
theorem exc_rules (hF : Facts L G S) (hf : ByLabel toASCII f L) {p : List Bytes} (hx : ExceptionAt (L.flatMap (contributes toASCII)) p) :
    ∃ q l, p = q ++ [l] ∧ l ≠ star ∧ PrefixAt (L.flatMap (contributes toASCII)) (q ++ [star]) := by
  obtain ⟨r, hr, hl⟩ := hx
  rw [isLabels_rev] at hl
  have hra : RuleAt (L.flatMap (contributes toASCII)) (revLabels (33 :: r)) := ruleAt_iff.2 (List.mem_map_of_mem hr)
  obtain ⟨q, l, e1, e2⟩ := revLabels_bang r
  rw [e1] at hra
  rw [hl, e2]
  obtain ⟨r0, hr0, e⟩ := (rule_iff hf).1 hra
  rcases e with e | e
  · -- as written
    obtain ⟨t, rfl⟩ := bang_of_labels e.symm
    obtain ⟨l', s, h1, h2, rfl, h3⟩ := hF.exc t hr0
    have e3 : revLabels (33 :: (l' ++ 46 :: s)) = revLabels s ++ [33 :: l'] := by
      rw [← List.cons_append, revLabels_dot, revLabels_single (a := 33 :: l') (by simp [h1])]
    rw [e3] at e
    obtain ⟨rfl, e4⟩ := List.append_inj' e rfl
    have : l = l' := by simpa using e4
    exact ⟨_, l, rfl, by rw [this]; exact h2, (prefix_iff hf).2 ⟨_, h3, .inl (by rw [star_labels]; exact List.prefix_rfl)⟩⟩
  · -- converted
    obtain ⟨a0, x, e3, rfl, e5⟩ := List.map_eq_append_iff.1 e.symm
    obtain ⟨y, rfl, e6⟩ := List.map_eq_singleton_iff.1 e5
    obtain rfl : y = 33 :: l := map_eq hf (by simp [List.cons_prefix_cons]) e6
    obtain ⟨t, rfl⟩ := bang_of_labels e3
    obtain ⟨l', s, h1, h2, rfl, h3⟩ := hF.exc t hr0
    have e7 : revLabels (33 :: (l' ++ 46 :: s)) = revLabels s ++ [33 :: l'] := by
      rw [← List.cons_append, revLabels_dot, revLabels_single (a := 33 :: l') (by simp [h1])]
    rw [e7] at e3
    obtain ⟨rfl, e8⟩ := List.append_inj' e3 rfl
    have : l' = l := by simpa using e8
    refine ⟨_, l, rfl, by rw [← this]; exact h2, (prefix_iff hf).2 ⟨_, h3, .inr ?_⟩⟩
    rw [star_labels, List.map_append, List.map_singleton, map_star hf]
    exact List.prefix_rfl

/-- The rules are as the algorithm of the Public Suffix List needs them, for names that avoid `G` and `S`. -/
theorem regular (hF : Facts L G S) (hf : ByLabel toASCII f L) {name : List Bytes} (hp : ∀ l ∈ name, l.head? ≠ some 33)
    (hG : ∀ i, ∀ g ∈ G, name.take i ≠ revLabels g ∧ name.take i ≠ (revLabels g).map f)
    (hS : ∀ i, ∀ s ∈ S, name.take i ≠ revLabels s) : Regular (L.flatMap (contributes toASCII)) name := by
  refine ⟨hp, no_top hF hf, ?_, ?_, ?_⟩
  · intro i h1 h2 h
    have hne : name.take i ≠ [] := by
      intro e
      have := congrArg List.length e
      rw [List.length_take, List.length_nil] at this
      omega
    rcases gap_rules hF hf hne h with h | h | ⟨g, hg, h | h⟩
    · exact .inl h
    · exact .inr h
    · exact absurd h (hG i g hg).1
    · exact absurd h (hG i g hg).2
  · intro i hi h q hq hpre
    apply Classical.byContradiction
    intro hlen
    obtain ⟨s, hs, ea⟩ := star_rules hF hf h
    obtain ⟨u, hu⟩ := hpre
    have hu2 : ∃ x y u', u = x :: y :: u' := by
      have := congrArg List.length hu
      rw [List.length_append, List.length_take] at this
      match u with
      | [] => simp at this; omega
      | [x] => simp at this; omega
      | x :: y :: u' => exact ⟨x, y, u', rfl⟩
    obtain ⟨x, y, u', rfl⟩ := hu2
    have hne : name.take i ≠ [] := by rw [← ea]; exact revLabels_ne_nil s
    -- the rule as written begins with the same labels
    have key : ∃ r ∈ L, ∃ x' v, v ≠ [] ∧ revLabels r = (name.take i ++ [x']) ++ v := by
      obtain ⟨r, hr, e | e⟩ := (rule_iff hf).1 hq
      · exact ⟨r, hr, x, y :: u', by simp, by rw [← e, ← hu]; simp⟩
      · rw [← hu] at e
        obtain ⟨a0, u0, e1, e2, e3⟩ := List.map_eq_append_iff.1 e.symm
        obtain ⟨x0, u1, rfl, -, e4⟩ := List.map_eq_cons_iff.1 e3
        obtain ⟨y0, u2, rfl, -, -⟩ := List.map_eq_cons_iff.1 e4
        refine ⟨r, hr, x0, y0 :: u2, by simp, ?_⟩
        have : a0 = name.take i := by
          rw [← e2]
          refine (map_back hf (fun l hl h => ?_)).symm
          rw [e2, ← ea] at hl
          exact (hF.ascii s hs).2 (h.isInfix.trans (label_infix hl))
        rw [e1, this]; simp
    obtain ⟨r, hr, x', v, hv, e⟩ := key
    obtain ⟨t, w, e1, e2, -⟩ := revLabels_prefix e (by simp) hv
    obtain ⟨s', w', e3, e4, -⟩ := revLabels_prefix e2 hne (by simp)
    have es : s' = s := by rw [← join_revLabels s', ← join_revLabels s, e4, ea]
    subst es
    exact hS i _ (hF.shadow r hr t _ ⟨w, e1.symm⟩ ⟨w', e3.symm⟩ hs) ea.symm
  · exact fun p hx _ => exc_rules hF hf hx

end Fasttld.Inv
