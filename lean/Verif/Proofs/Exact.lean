import Verif.Spec.Exact
import Verif.Proofs.Suffix
import Verif.Proofs.Relate
import Verif.Proofs.Judged

/-!
# Lists for which the library follows the algorithm
-/

set_option linter.unusedSimpArgs false

namespace Fasttld
open Spec

/-! ## Good labels -/

theorem Spec.GoodLabel.not_mem {l : Bytes} (h : GoodLabel l) {c : UInt8} (hc : c < 128) (hi : c.toNat ∈ invalidChars)
    (hm : c.toNat ∉ missedChars) : c ∉ l := by
  intro hcl
  apply h.chars.2.2.2.2 c.toNat hi hm
  have : encode c.toNat = [c] := by
    revert c
    intro c
    exact fun hc _ _ _ => forall_byte (P := fun c => c < 128 → encode c.toNat = [c]) (by decide +kernel) c hc
  rw [this]
  obtain ⟨a, b, rfl⟩ := List.append_of_mem hcl
  exact ⟨a, b, by simp⟩

theorem goodLabel_star : ¬ GoodLabel star := fun h =>
  h.not_mem (c := 42) (by decide) (by decide +kernel) (by decide) (by simp [star])

theorem goodLabel_bang (m : Bytes) : ¬ GoodLabel (33 :: m) := fun h =>
  h.not_mem (c := 33) (by decide) (by decide +kernel) (by decide) (by simp)

theorem Spec.GoodLabel.ne_star {l : Bytes} (h : GoodLabel l) : l ≠ star := fun e => goodLabel_star (e ▸ h)

theorem Spec.GoodLabel.head {l : Bytes} (h : GoodLabel l) : l.head? ≠ some 33 := by
  cases l with
  | nil => simp
  | cons c l => simp; rintro rfl; exact goodLabel_bang _ h

/-! ## Well-formed rules -/

section
variable {rules : List Bytes}

theorem prefixAt_cases {p : List Bytes} (h : PrefixAt rules p) : RuleAt rules p ∨ ∃ x, PrefixAt rules (p ++ [x]) := by
  obtain ⟨q, ⟨c, rfl⟩, hq⟩ := h
  cases c with
  | nil => exact .inl (by simpa using hq)
  | cons x c => exact .inr ⟨x, p ++ x :: c, ⟨c, by simp⟩, hq⟩

theorem Spec.RuleAt.prefixAt {p : List Bytes} (h : RuleAt rules p) : PrefixAt rules p := h.prefix (List.prefix_refl _)

theorem Spec.WellFormed.good_of_prefix (hw : WellFormed rules) {p : List Bytes} {x : Bytes} (h : PrefixAt rules (p ++ [x])) :
    ∀ y ∈ p, GoodLabel y := by
  obtain ⟨q, ⟨c, rfl⟩, hq⟩ := h
  rcases List.eq_nil_or_concat ([x] ++ c) with h | ⟨d, z, h⟩
  · simp at h
  · rw [List.append_assoc, h, List.concat_eq_append, ← List.append_assoc] at hq
    exact fun y hy => hw.inner _ _ hq y (by simp [hy])

theorem Spec.WellFormed.star_last (hw : WellFormed rules) {a : List Bytes} (h : PrefixAt rules (a ++ [star])) :
    RuleAt rules (a ++ [star]) := by
  rcases prefixAt_cases h with h | ⟨x, h⟩
  · exact h
  · exact absurd (hw.good_of_prefix h star (by simp)) goodLabel_star

theorem Spec.WellFormed.bang_last (hw : WellFormed rules) {a : List Bytes} {m : Bytes} (h : PrefixAt rules (a ++ [33 :: m])) :
    RuleAt rules (a ++ [33 :: m]) := by
  rcases prefixAt_cases h with h | ⟨x, h⟩
  · exact h
  · exact absurd (hw.good_of_prefix h (33 :: m) (by simp)) (goodLabel_bang m)

theorem Spec.WellFormed.bang (hw : WellFormed rules) {a : List Bytes} {m : Bytes} (h : RuleAt rules (a ++ [33 :: m])) :
    GoodLabel m := by
  rcases hw.leftmost _ _ h with h | h | ⟨m', h, h'⟩
  · exact absurd h (goodLabel_bang m)
  · simp [star] at h
  · simp at h; exact h ▸ h'

theorem ruleAt_last {q : List Bytes} (h : RuleAt rules q) : ∃ a y, q = a ++ [y] := by
  rcases List.eq_nil_or_concat q with rfl | ⟨a, y, rfl⟩
  · exact absurd rfl h.ne
  · exact ⟨a, y, by simp⟩

theorem not_normal_bang {a : List Bytes} {m : Bytes} : ¬ NormalAt rules (a ++ [33 :: m]) := by
  rintro ⟨r, -, h1, -, -, h2⟩
  apply h1
  rw [h2]
  simp only [List.reverse_append, List.reverse_cons, List.reverse_nil, List.nil_append, List.singleton_append]
  rw [intercalate_prepend]
  simp

theorem matches_noStar {a b name : List Bytes} (ha : ∀ x ∈ a, x ≠ star) (h : Matches (a ++ b) name) :
    a = name.take a.length ∧ Matches b (name.drop a.length) := by
  induction a generalizing name with
  | nil => exact ⟨by simp, by simpa using h⟩
  | cons x a ih =>
    cases name with
    | nil => exact h.elim
    | cons d name =>
      obtain ⟨h1, h2⟩ := ih (fun x hx => ha x (by simp [hx])) h.2
      have hx : x = d := h.1.resolve_left (ha x (by simp))
      exact ⟨by simp [hx]; exact h1, by simpa using h2⟩

/-- A rule that matches. -/
theorem Spec.WellFormed.matches_rule (hw : WellFormed rules) {a name : List Bytes} {y : Bytes} (h : RuleAt rules (a ++ [y]))
    (hm : Matches (a ++ [y]) name) : a = name.take a.length ∧ (y = star ∨ name[a.length]? = some y) :=
  ⟨(matches_noStar (fun x hx => (hw.inner _ _ h x hx).ne_star) hm).1, hm.get⟩

/-- An exception. -/
theorem Spec.WellFormed.exceptionAt (hw : WellFormed rules) {e : List Bytes} (h : ExceptionAt rules e) :
    ∃ a x, e = a ++ [x] ∧ RuleAt rules (a ++ [33 :: x]) ∧ RuleAt rules (a ++ [star]) ∧ GoodLabel x := by
  obtain ⟨a, x, rfl⟩ := exceptionAt_ne h
  have h := exceptionAt_iff.1 h
  exact ⟨a, x, rfl, h, hw.exception _ _ h, hw.bang h⟩

theorem Spec.WellFormed.matches_exception (hw : WellFormed rules) {a name : List Bytes} {x : Bytes}
    (h : RuleAt rules (a ++ [33 :: x])) (hm : Matches (a ++ [x]) name) : a = name.take a.length ∧ name[a.length]? = some x :=
  ⟨(matches_noStar (fun x hx => (hw.inner _ _ h x hx).ne_star) hm).1, hm.get.resolve_left (hw.bang h).ne_star⟩

theorem Spec.WellFormed.normal (hw : WellFormed rules) {a : List Bytes} {y : Bytes} (h : RuleAt rules (a ++ [y])) :
    NormalAt rules (a ++ [y]) ∨ ∃ m, y = 33 :: m ∧ GoodLabel m := by
  rcases hw.leftmost _ _ h with h' | rfl | h'
  · exact .inl ((normalAt_iff h'.head).2 h)
  · exact .inl ((normalAt_iff (by simp [star])).2 h)
  · exact .inr h'

/-! ## Sufficient -/

theorem reached_take {name : List Bytes} {i : Nat} (h : ∀ j < i, ¬ PrefixAt rules (name.take j ++ [star])) :
    Reached rules (name.take i) := by
  intro a x b e hr
  have hl : a.length < i ∧ a.length < name.length := by
    have := congrArg List.length e
    simp at this; omega
  have : a = name.take a.length := by
    have := congrArg (List.take a.length) e
    rw [List.take_take, Nat.min_eq_left (by omega)] at this
    simpa using this.symm
  rw [this] at hr
  exact h a.length hl.1 hr.prefixAt

/-- For a list that is `Gapless`, all names are `Tame`. -/
theorem Spec.Gapless.tame (hw : WellFormed rules) (hg : Gapless rules) {name : List Bytes} (hn : ∀ l ∈ name, GoodLabel l) :
    Tame rules name := by
  refine ⟨fun l hl => (hn l hl).head, fun h => hg.noBare (hw.star_last (a := []) h), ?_, ?_, ?_⟩
  · intro i h1 h2 hs hp
    rcases hg.noGap _ (by
      intro hc
      rw [List.take_eq_nil_iff] at hc
      rcases hc with rfl | rfl
      · omega
      · simp at h2; omega) (reached_take hs) hp with h | h
    · exact .inl h
    · exact .inr h.prefixAt
  · intro i l hl hs hp
    have hi : i < name.length := by
      rcases Nat.lt_or_ge i name.length with h | h
      · exact h
      · rw [List.getElem?_eq_none h] at hl; simp at hl
    have hlen : (name.take i).length = i := by simp; omega
    have hR := hw.star_last hp
    refine ⟨?_, ?_⟩
    · intro q hq hpre
      obtain ⟨c, rfl⟩ := hpre
      cases c with
      | nil => simp; omega
      | cons x c =>
        exact absurd (hw.good_of_prefix (p := name.take i ++ [star]) (x := x) (hq.prefix ⟨c, by simp⟩) star (by simp))
          goodLabel_star
    · by_cases hx : RuleAt rules (name.take i ++ [33 :: l])
      · refine .inl ⟨hx, fun q hq hpre => ?_⟩
        obtain ⟨a, x, rfl, h1, -, -⟩ := hw.exceptionAt hq
        rcases Nat.lt_or_ge i a.length with hlt | hge
        · exfalso
          have hpre' : name.take i ++ [l] <+: a :=
            List.prefix_of_prefix_length_le hpre (List.prefix_append _ _) (by simp; omega)
          exact not_normal_bang (hg.noShadow _ l _ (reached_take hs) hR h1 (hpre'.trans (List.prefix_append _ _))
            (by simp; omega)).2
        · simp; omega
      · refine .inr ⟨fun h => hx (hw.bang_last h), fun q hq hpre => ?_⟩
        rcases Nat.lt_or_ge (i + 1) q.length with hlt | hge
        · exact absurd (hg.noShadow _ l _ (reached_take hs) hR hq hpre (by rw [hlen]; omega)).1 hx
        · exact hge
  · intro e he _
    obtain ⟨a, x, rfl, h1, h2, h3⟩ := hw.exceptionAt he
    exact ⟨a, x, rfl, h3.ne_star, h2.prefixAt⟩

/-! ## Necessary -/

/-- A label that does not occur in the rules. -/
structure NewLabel (rules : List Bytes) (f : Bytes) : Prop where
  good : GoodLabel f
  new : ¬ LabelOf rules f

theorem NewLabel.not_prefix {f : Bytes} (hf : NewLabel rules f) {p : List Bytes} (h : f ∈ p ∨ (33 :: f) ∈ p) :
    ¬ PrefixAt rules p := by
  rintro ⟨q, hq, hqr⟩
  exact hf.new ⟨q, hqr, h.imp (hq.subset ·) (hq.subset ·)⟩

theorem firstMark_exists (rules ds : List Bytes) (m : Nat) : ∃ mark, FirstMark rules ds m mark := by
  induction m with
  | zero => exact ⟨none, .none (by simp)⟩
  | succ m ih =>
    obtain ⟨mark, h⟩ := ih
    cases h with
    | none h =>
      by_cases hm : Marked rules (ds.take (m + 1))
      · exact ⟨some m, .at (by omega) hm h⟩
      · refine ⟨none, .none fun j hj => ?_⟩
        rcases Nat.lt_or_ge j m with h' | h'
        · exact h j h'
        · rw [show j = m by omega]; exact hm
    | «at» h1 h2 h3 => exact ⟨some _, .at (by omega) h2 h3⟩

/-- What the library makes of a name agrees with the algorithm, in terms of labels. -/
def AgreesOn (rules : List Bytes) (name : List Bytes) : Prop :=
  ∀ m seen cut mark, Follows rules name name m → Stops rules name name m seen cut → FirstMark rules name m mark →
    (∀ n, PublicSuffix rules name n → (mark = none ∧ n = 0) ∨ (mark = some 0 ∧ n = cut)) ∧
    (NoRuleMatches rules name → mark = none)

theorem Spec.NormalAt.ne {p : List Bytes} (h : NormalAt rules p) : p ≠ [] := h.rule.ne

theorem publicSuffix_pos (hw : WellFormed rules) (hb : ¬ RuleAt rules [star]) {name : List Bytes} {n : Nat}
    (h : PublicSuffix rules name n) : n ≠ 0 := by
  rintro rfl
  rcases h with ⟨p, p1, -, p3, -⟩ | ⟨-, p, p1, -, p3, -⟩
  · obtain ⟨a, x, rfl, -, h2, -⟩ := hw.exceptionAt p1
    cases a with
    | nil => exact hb h2
    | cons => simp at p3
  · exact p1.ne (List.length_eq_zero_iff.1 p3.symm)

/-- The names that show what is wrong: labels of the rules, then twice a new label. -/
theorem necessary (hw : WellFormed rules) {f : Bytes} (hf : NewLabel rules f)
    (alg : ∀ name, NoRuleMatches rules name ∨ ∃ n, PublicSuffix rules name n)
    (read : ∀ name, (∀ x ∈ name, GoodLabel x) → name ≠ [] → ∃ m seen cut mark, Follows rules name name m ∧
      Stops rules name name m seen cut ∧ FirstMark rules name m mark)
    (H : ∀ base, (∀ x ∈ base, GoodLabel x ∧ (LabelOf rules x ∨ x = f)) → AgreesOn rules (base ++ [f, f])) :
    Gapless rules := by
  -- the bare wildcard
  have hnx : ∀ name e, ExceptionAt rules e → Matches e name → ∃ a x, e = a ++ [x] ∧ RuleAt rules (a ++ [33 :: x]) ∧
      RuleAt rules (a ++ [star]) ∧ a = name.take a.length ∧ name[a.length]? = some x ∧ x ≠ f := by
    intro name e he hm
    obtain ⟨a, x, rfl, h1, h2, h3⟩ := hw.exceptionAt he
    obtain ⟨h4, h5⟩ := hw.matches_exception h1 hm
    refine ⟨a, x, rfl, h1, h2, h4, h5, ?_⟩
    rintro rfl
    exact hf.not_prefix (.inr (by simp)) h1.prefixAt
  have hbare : ¬ RuleAt rules [star] := by
    intro hb
    have h := H [] (by simp) 0 0 1 none ⟨by simp, .inl rfl, by simp, by simp⟩
      (.wildcard (l := f) (by simp) (fun _ => hf.good.ne) (.inr hb.prefixAt)
        (by rintro (h | h)
            · simp at h
            · exact hf.not_prefix (.inr (by simp)) h)) (.none (by simp))
    have hno : ∀ e, ExceptionAt rules e → ¬ Matches e ([] ++ [f, f]) := by
      intro e he hm
      obtain ⟨a, x, rfl, -, -, -, h5, h6⟩ := hnx _ e he hm
      have := List.mem_of_getElem? h5
      simp at this
      exact h6 this
    have hst : NormalAt rules [star] := (normalAt_iff (q := []) (by simp [star])).2 hb
    rcases alg ([] ++ [f, f]) with h' | ⟨n, hn⟩
    · exact h'.2 _ hst ⟨.inl rfl, trivial⟩
    · rcases h.1 n hn with ⟨-, rfl⟩ | ⟨h, -⟩
      · rcases hn with ⟨p, p1, p2, -⟩ | ⟨-, p, p1, -, p3, -⟩
        · exact hno p p1 p2
        · exact p1.ne (List.length_eq_zero_iff.1 p3.symm)
      · simp at h
  have hagree : ∀ base, (∀ x ∈ base, GoodLabel x ∧ (LabelOf rules x ∨ x = f)) → ∀ m seen cut mark,
      Follows rules (base ++ [f, f]) (base ++ [f, f]) m → Stops rules (base ++ [f, f]) (base ++ [f, f]) m seen cut →
      FirstMark rules (base ++ [f, f]) m mark →
      (∀ n, PublicSuffix rules (base ++ [f, f]) n → mark = some 0 ∧ n = cut) ∧
      (NoRuleMatches rules (base ++ [f, f]) → mark = none) := by
    intro base hb m seen cut mark h1 h2 h3
    refine ⟨fun n hn => ?_, (H base hb m seen cut mark h1 h2 h3).2⟩
    exact ((H base hb m seen cut mark h1 h2 h3).1 n hn).resolve_left fun h => publicSuffix_pos hw hbare hn h.2
  have hlab : ∀ {q : List Bytes} {x : Bytes}, PrefixAt rules q → x ∈ q → LabelOf rules x := by
    rintro q x ⟨q', h1, h2⟩ hx
    exact ⟨q', h2, .inl (h1.subset hx)⟩
  have hunk : ∀ (p : List Bytes) (x : Bytes), (x = f ∨ x = 33 :: f) → ¬ Known rules (p ++ [x]) := by
    rintro p x hx (h | h)
    · simp at h
    · exact hf.not_prefix (by rcases hx with rfl | rfl <;> simp) h
  -- a rule `a ++ [y]` as a name
  have hinst : ∀ {a : List Bytes} {y : Bytes}, RuleAt rules (a ++ [y]) → ∃ y', (GoodLabel y' ∧ (LabelOf rules y' ∨ y' = f)) ∧
      (y' = y ∨ (y = star ∧ y' = f) ∨ y = 33 :: y') := by
    intro a y hq
    rcases hw.leftmost _ _ hq with h | h | ⟨m, h, h'⟩
    · exact ⟨y, ⟨h, .inl (hlab hq.prefixAt (by simp))⟩, .inl rfl⟩
    · exact ⟨f, ⟨hf.good, .inr rfl⟩, .inr (.inl ⟨h, rfl⟩)⟩
    · exact ⟨m, ⟨h', .inl ⟨_, hq, .inr (by simp [h])⟩⟩, .inr (.inr h)⟩
  have hnorm : ∀ {p : List Bytes} {a : List Bytes} {y : Bytes}, RuleAt rules (a ++ [y]) → p <+: a →
      ∃ y, NormalAt rules (a ++ [y]) := by
    intro p a y hq hp
    rcases hw.normal hq with h | ⟨m, rfl, -⟩
    · exact ⟨y, h⟩
    · exact ⟨star, (normalAt_iff (by simp [star])).2 (hw.exception _ _ hq)⟩
  have hmatch : ∀ {a : List Bytes} {y y' : Bytes} {r : List Bytes}, NormalAt rules (a ++ [y]) →
      (y' = y ∨ (y = star ∧ y' = f) ∨ y = 33 :: y') → Matches (a ++ [y]) (a ++ [y'] ++ r) := by
    intro a y y' r hn hy
    have e : ∀ z, a ++ [z] = (a ++ [z] ++ r).take (a.length + 1) := by
      intro z; rw [List.take_append_of_le_length (by simp), List.take_of_length_le (by simp)]
    rcases hy with rfl | ⟨rfl, -⟩ | rfl
    · have := matches_take (a ++ [y'] ++ r) (a.length + 1)
      rwa [← e] at this
    · have := matches_take_star (name := a ++ [y'] ++ r) (m := a.length) (by simp)
      rwa [show (a ++ [y'] ++ r).take a.length = a by simp] at this
    · exact absurd hn not_normal_bang
  -- gaps
  have hgap1 : ∀ t, PrefixAt rules [t] → RuleAt rules [t] ∨ RuleAt rules [t, star] := by
    intro t ht
    refine Classical.byContradiction fun hno => ?_
    simp only [not_or] at hno
    obtain ⟨q, ⟨c, rfl⟩, hq⟩ := ht
    cases c with
    | nil => exact hno.1 (by simpa using hq)
    | cons x c =>
      rcases List.eq_nil_or_concat (x :: c) with h | ⟨d, z, h⟩
      · simp at h
      · rw [h, List.concat_eq_append, ← List.append_assoc] at hq
        obtain ⟨y, hy⟩ := hnorm hq (List.prefix_refl _)
        obtain ⟨y', hg, hy'⟩ := hinst hy.rule
        have hbase : ∀ x ∈ [t] ++ d ++ [y'], GoodLabel x ∧ (LabelOf rules x ∨ x = f) := by
          intro x hx
          rw [List.mem_append] at hx
          rcases hx with hx | hx
          · exact ⟨hw.inner _ _ hq x hx, .inl (hlab hq.prefixAt (List.mem_append_left _ hx))⟩
          · simp at hx; subst hx; exact hg
        obtain ⟨m, seen, cut, mark, r1, r2, r3⟩ := read ([t] ++ d ++ [y'] ++ [f, f]) (by
          intro x hx
          rw [List.mem_append] at hx
          rcases hx with hx | hx
          · exact (hbase x hx).1
          · simp at hx; subst hx; exact hf.good) (by simp)
        obtain ⟨h1, h2⟩ := hagree _ hbase m seen cut mark r1 r2 r3
        rcases alg ([t] ++ d ++ [y'] ++ [f, f]) with h' | ⟨n, hn⟩
        · exact h'.2 _ hy (hmatch hy hy')
        · obtain ⟨h3, -⟩ := h1 n hn
          subst h3
          cases r3 with
          | «at» _ hm _ =>
            simp at hm
            rcases hm with hm | ⟨l, hl, hm⟩
            · exact hno.1 hm
            · simp at hl; subst hl
              exact hno.2 (hw.star_last (a := [t]) hm)
  have hgap : ∀ p, p ≠ [] → Reached rules p → PrefixAt rules p → RuleAt rules p ∨ RuleAt rules (p ++ [star]) := by
    intro p hne hre hp
    refine Classical.byContradiction fun hno => ?_
    simp only [not_or] at hno
    obtain ⟨x, hx⟩ := (prefixAt_cases hp).resolve_left hno.1
    have hgood := hw.good_of_prefix hx
    obtain ⟨mark, hmark⟩ := firstMark_exists rules (p ++ [f, f]) p.length
    have htake : ∀ j, j ≤ p.length → (p ++ [f, f]).take j = p.take j := fun j hj => List.take_append_of_le_length hj
    have hst : ∀ j < p.length, ¬ Known rules (p.take j ++ [star]) := by
      rintro j hj (h | h)
      · simp at h
      · refine hre (p.take j) p[j] (p.drop (j + 1)) ?_ (hw.star_last h)
        rw [← List.drop_eq_getElem_cons hj, List.take_append_drop]
    have hfo : Follows rules (p ++ [f, f]) (p ++ [f, f]) p.length := by
      refine ⟨by simp, .inr (by simpa using hp), fun j hj => by rw [htake j (by omega)]; exact hst j hj, ?_⟩
      intro j hj _ hc
      rw [List.getElem?_append_left hj] at hc
      exact (hgood [] (List.mem_of_getElem? hc)).ne rfl
    have hpt : (p ++ [f, f]).take p.length = p := by simp
    have hpt1 : (p ++ [f, f]).take (p.length + 1) = p ++ [f] := by
      rw [List.take_append, List.take_of_length_le (by omega)]; simp
    have hsto : Stops rules (p ++ [f, f]) (p ++ [f, f]) p.length p.length p.length := by
      refine .unknown (l := f) (by rw [hpt]; exact .inr ⟨x, .inr hx⟩) (by simp) (fun _ => hf.good.ne) ?_ ?_
      · rw [hpt]
        rintro (h | h)
        · simp at h
        · exact hno.2 (hw.star_last h)
      · rw [hpt1]
        exact hunk p f (.inl rfl)
    obtain ⟨h1, h2⟩ := hagree p (fun y hy => ⟨hgood y hy, .inl (hlab hp hy)⟩) _ _ _ mark hfo hsto hmark
    rcases alg (p ++ [f, f]) with h' | ⟨n, hn⟩
    · have := h2 h'
      subst this
      cases hmark with
      | none hm =>
        cases p with
        | nil => exact hne rfl
        | cons t p =>
          apply hm 0 (by simp)
          simp
          rcases hgap1 t (hp.prefix ⟨p, rfl⟩) with h | h
          · exact .inl h
          · exact .inr ⟨t, rfl, h.prefixAt⟩
    · obtain ⟨-, h3⟩ := h1 n hn
      subst h3
      rcases hn with ⟨e, e1, e2, e3, -⟩ | ⟨-, q, q1, q2, q3, -⟩
      · obtain ⟨a, x, rfl, -, -, -, h5, h6⟩ := hnx _ e e1 e2
        simp at e3
        rw [← e3] at h5
        simp at h5
        exact h6 h5.symm
      · obtain ⟨a, y, rfl⟩ := ruleAt_last q1.rule
        obtain ⟨h4, h5⟩ := hw.matches_rule q1.rule q2
        simp at q3
        rw [htake _ (by omega)] at h4
        have hp' : p = a ++ [p[a.length]] := by
          conv => lhs; rw [← List.take_length (l := p), q3, List.take_add_one]
          rw [← h4]
          simp [List.getElem?_eq_getElem (show a.length < p.length by omega)]
        rcases h5 with rfl | h5
        · exact hre a _ [] hp' q1.rule
        · rw [List.getElem?_append_left (by omega), List.getElem?_eq_getElem (by omega)] at h5
          injection h5 with h5
          rw [h5] at hp'
          exact hno.1 (hp' ▸ q1.rule)
  refine ⟨hbare, hgap, ?_⟩
  -- shadows
  intro p l q hre hR hq hpre hlen
  obtain ⟨a, y, rfl⟩ := ruleAt_last hq
  have hpa : p ++ [l] <+: a := List.prefix_of_prefix_length_le hpre (List.prefix_append _ _) (by simp at hlen ⊢; omega)
  simp at hlen
  have hagood := hw.inner _ _ hq
  have hl : GoodLabel l := hagood l (hpa.subset (by simp))
  -- following a name that begins with p, l
  have key : ∀ base, (∀ x ∈ base, GoodLabel x ∧ (LabelOf rules x ∨ x = f)) → p ++ [l] <+: base → ∀ n,
      PublicSuffix rules (base ++ [f, f]) n →
      (RuleAt rules (p ++ [33 :: l]) → n = p.length) ∧ (¬ RuleAt rules (p ++ [33 :: l]) → n = p.length + 1) := by
    intro base hb hpb n hn
    obtain ⟨c, rfl⟩ := hpb
    have htake : ∀ j, j ≤ p.length → (p ++ [l] ++ c ++ [f, f]).take j = p.take j := fun j hj => by
      rw [List.append_assoc, List.append_assoc, List.take_append_of_le_length hj]
    have hst : ∀ j < p.length, ¬ Known rules (p.take j ++ [star]) := by
      rintro j hj (h | h)
      · simp at h
      · refine hre (p.take j) p[j] (p.drop (j + 1)) ?_ (hw.star_last h)
        rw [← List.drop_eq_getElem_cons hj, List.take_append_drop]
    have hfo : Follows rules (p ++ [l] ++ c ++ [f, f]) (p ++ [l] ++ c ++ [f, f]) p.length := by
      refine ⟨by simp, ?_, fun j hj => by rw [htake j (by omega)]; exact hst j hj, ?_⟩
      · rw [htake _ (Nat.le_refl _), List.take_length]
        exact .inr (hR.prefix (List.prefix_append _ _))
      · intro j hj _ hc
        rw [List.append_assoc, List.append_assoc, List.getElem?_append_left hj] at hc
        exact (hw.inner _ _ hR [] (List.mem_of_getElem? hc)).ne rfl
    obtain ⟨mark, hmark⟩ := firstMark_exists rules (p ++ [l] ++ c ++ [f, f]) p.length
    have hget : (p ++ [l] ++ c ++ [f, f])[p.length]? = some l := by simp
    have hpt : (p ++ [l] ++ c ++ [f, f]).take p.length = p := by rw [htake _ (Nat.le_refl _), List.take_length]
    refine ⟨fun hx => ?_, fun hx => ?_⟩
    · refine ((hagree _ hb _ p.length p.length mark hfo (.exception hget (fun _ => hl.ne) ?_ ?_) hmark).1 n hn).2
      · rw [hpt]; exact .inr hR.prefixAt
      · rw [hpt]; exact .inr hx.prefixAt
    · refine ((hagree _ hb _ p.length (p.length + 1) mark hfo (.wildcard hget (fun _ => hl.ne) ?_ ?_) hmark).1 n hn).2
      · rw [hpt]; exact .inr hR.prefixAt
      · rw [hpt]
        rintro (h | h)
        · simp at h
        · exact hx (hw.bang_last h)
  have hab : ∀ y', (GoodLabel y' ∧ (LabelOf rules y' ∨ y' = f)) →
      ∀ x ∈ a ++ [y'], GoodLabel x ∧ (LabelOf rules x ∨ x = f) := by
    intro y' hy' x hx
    rw [List.mem_append] at hx
    rcases hx with hx | hx
    · exact ⟨hagood x hx, .inl (hlab hq.prefixAt (List.mem_append_left _ hx))⟩
    · simp at hx; subst hx; exact hy'
  by_cases hx : RuleAt rules (p ++ [33 :: l])
  · refine ⟨hx, (hw.normal hq).resolve_right ?_⟩
    rintro ⟨m, rfl, hm⟩
    have hE : ExceptionAt rules (a ++ [m]) := exceptionAt_iff.2 hq
    have hM : Matches (a ++ [m]) (a ++ [m] ++ [f, f]) := by
      have := matches_take (a ++ [m] ++ [f, f]) (a.length + 1)
      rwa [show (a ++ [m] ++ [f, f]).take (a.length + 1) = a ++ [m] by
        rw [List.take_append_of_le_length (by simp), List.take_of_length_le (by simp)]] at this
    rcases alg (a ++ [m] ++ [f, f]) with h' | ⟨n, hn⟩
    · exact h'.1 _ hE hM
    · have h1 := (key _ (hab m ⟨hm, .inl ⟨_, hq, .inr (by simp)⟩⟩) (hpa.trans (List.prefix_append _ _)) n hn).1 hx
      rcases hn with ⟨e, -, -, e3, e4⟩ | ⟨h, -⟩
      · have := e4 _ hE hM
        simp at this
        omega
      · exact h _ hE hM
  · exfalso
    -- exceptions that match have more than `p.length + 1` labels
    have hshort : ∀ c e b x, e = b ++ [x] → RuleAt rules (b ++ [33 :: x]) → RuleAt rules (b ++ [star]) →
        b = (p ++ [l] ++ c).take b.length → (p ++ [l] ++ c)[b.length]? = some x → p.length < b.length := by
      intro c e b x _ hb1 hb2 hb3 hb4
      rcases Nat.lt_trichotomy b.length p.length with h | h | h
      · exfalso
        rw [List.append_assoc, List.take_append_of_le_length (by omega)] at hb3
        refine hre b p[b.length] (p.drop (b.length + 1)) ?_ hb2
        conv => lhs; rw [← List.take_append_drop b.length p, ← hb3, List.drop_eq_getElem_cons h]
      · exfalso
        rw [h] at hb3 hb4
        simp at hb3 hb4
        subst hb3 hb4
        exact hx hb1
      · exact h
    by_cases hs : RuleAt rules (p ++ [l] ++ [star])
    · have hb : ∀ x ∈ p ++ [l] ++ [f], GoodLabel x ∧ (LabelOf rules x ∨ x = f) := by
        intro x hx
        rw [List.mem_append] at hx
        rcases hx with hx | hx
        · exact ⟨hw.inner _ _ hs x hx, .inl (hlab hs.prefixAt (List.mem_append_left _ hx))⟩
        · simp at hx; subst hx; exact ⟨hf.good, .inr rfl⟩
      have hno : ∀ e, ExceptionAt rules e → ¬ Matches e (p ++ [l] ++ [f] ++ [f, f]) := by
        intro e he hm
        obtain ⟨b, x, e', h1, h2, h3, h4, h5⟩ := hnx _ e he hm
        rw [List.append_assoc] at h3 h4
        have := hshort ([f] ++ [f, f]) e b x e' h1 h2 h3 h4
        rw [List.getElem?_append_right (by simp; omega)] at h4
        have := List.mem_of_getElem? h4
        simp at this
        exact h5 this
      have hN : NormalAt rules (p ++ [l] ++ [star]) := (normalAt_iff (by simp [star])).2 hs
      have hM := hmatch (r := [f, f]) (y' := f) hN (.inr (.inl ⟨rfl, rfl⟩))
      rcases alg (p ++ [l] ++ [f] ++ [f, f]) with h' | ⟨n, hn⟩
      · exact h'.2 _ hN hM
      · have h1 := (key _ hb (List.prefix_append _ _) n hn).2 hx
        rcases hn with ⟨e, e1, e2, -⟩ | ⟨-, s, -, -, s3, s4⟩
        · exact hno e e1 e2
        · have := s4 _ hN hM
          simp at this
          omega
    · obtain ⟨z, hz⟩ := hnorm hq (List.prefix_refl _)
      obtain ⟨z', hg, hz'⟩ := hinst hz.rule
      have hM := hmatch (r := [f, f]) hz hz'
      obtain ⟨c, hc⟩ := hpa
      rcases alg (a ++ [z'] ++ [f, f]) with h' | ⟨n, hn⟩
      · exact h'.2 _ hz hM
      · have h1 := (key _ (hab z' hg) (List.IsPrefix.trans ⟨c, hc⟩ (List.prefix_append _ _)) n hn).2 hx
        rcases hn with ⟨e, e1, e2, e3, -⟩ | ⟨-, s, -, -, s3, s4⟩
        · obtain ⟨b, x, e', b1, b2, b3, b4, b5⟩ := hnx _ e e1 e2
          rw [← hc, List.append_assoc, List.append_assoc _ c] at b3 b4
          have hb := hshort _ e b x e' b1 b2 b3 b4
          have hbl : b.length = p.length + 1 := by rw [e'] at e3; simp at e3; omega
          rw [hbl, List.take_append_of_le_length (by simp), List.take_of_length_le (by simp)] at b3
          subst b3
          exact hs b2
        · have := s4 _ hz hM
          simp at this
          omega

end

end Fasttld
