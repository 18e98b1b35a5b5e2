import Verif.Proofs.InventoryMore
import Verif.Proofs.FactsRules
import Verif.Proofs.Mishandled

/-!
# Which names are mishandled, for rules with the facts checked in Proofs/Inventory.lean and Proofs/InventoryMore.lean
-/

set_option linter.unusedSimpArgs false

namespace Fasttld.Inv
open Fasttld Fasttld.Spec

/-- More facts about a list of rules `L` with the gaps `G`. -/
structure MoreFacts (L G : List Bytes) : Prop where
  labels : ∀ r ∈ L, (∃ s, r = 42 :: 46 :: s ∧ ∀ l ∈ revLabels s, GoodLabel l) ∨
    (∃ s, r = 33 :: s ∧ ∀ l ∈ revLabels s, GoodLabel l) ∨ ∀ l ∈ revLabels r, GoodLabel l
  noAce : ∀ r ∈ L, ¬ b! "xn--" <:+: r
  notRule : ∀ g ∈ G, g ∉ L
  notStar : ∀ g ∈ G, 42 :: 46 :: g ∉ L
  below : ∀ g ∈ G, ∃ r ∈ L, 46 :: g <:+ r

variable {toASCII : Bytes → Option Bytes} {f : Bytes → Bytes} {L G S : List Bytes}

theorem isLabels_self (r : Bytes) : IsLabels r (revLabels r).reverse := by rw [isLabels_rev]

theorem labels_apart (hc : Faithful f L) {r r' : Bytes} (hr : r ∈ L) (hr' : r' ∈ L) {a a' : List Bytes}
    (ha : ∀ l ∈ a, l ∈ revLabels r) (ha' : ∀ l ∈ a', l ∈ revLabels r') (h : a.map f = a'.map f) : a = a' := by
  have key := hc.apart r hr r' hr' _ _ (isLabels_self r) (isLabels_self r')
  simp only [List.mem_reverse] at key
  induction a generalizing a' with
  | nil => cases a' with
    | nil => rfl
    | cons => simp at h
  | cons x a ih => cases a' with
    | nil => simp at h
    | cons y a' =>
      simp only [List.map_cons, List.cons.injEq] at h
      rw [key x (ha x (by simp)) y (ha' y (by simp)) h.1,
        ih (fun l hl => ha l (by simp [hl])) (fun l hl => ha' l (by simp [hl])) h.2]

/-- Labels of the list do not begin with `xn--`. -/
theorem label_noAce (hM : MoreFacts L G) {r : Bytes} (hr : r ∈ L) {l : Bytes} (hl : l ∈ revLabels r) : ¬ b! "xn--" <+: l :=
  fun h => hM.noAce r hr (h.isInfix.trans (label_infix hl))

theorem good_map (hf : ByLabel toASCII f L) (hc : Faithful f L) {r : Bytes} (hr : r ∈ L) {l : Bytes} (hl : l ∈ revLabels r)
    (hg : GoodLabel l) : GoodLabel (f l) := by
  by_cases ha : ∀ b ∈ l, b < 128
  · rwa [hf.ascii l ha]
  · exact hc.good r hr _ (isLabels_self r) l (by simpa using hl) ha

/-- The labels of a rule, seen from the leftmost one. -/
theorem rule_labels (hM : MoreFacts L G) {r : Bytes} (hr : r ∈ L) {p : List Bytes} {l : Bytes}
    (h : revLabels r = p ++ [l]) : (∀ x ∈ p, GoodLabel x) ∧ (GoodLabel l ∨ l = star ∨ ∃ m, l = 33 :: m ∧ GoodLabel m) := by
  rcases hM.labels r hr with ⟨s, rfl, hg⟩ | ⟨s, rfl, hg⟩ | hg
  · rw [star_labels] at h
    obtain ⟨rfl, e⟩ := List.append_inj' h rfl
    exact ⟨hg, .inr (.inl (by simpa using e.symm))⟩
  · obtain ⟨q, m, e1, e2⟩ := revLabels_bang s
    rw [e1] at h
    obtain ⟨rfl, e⟩ := List.append_inj' h rfl
    rw [e2] at hg
    exact ⟨fun x hx => hg x (by simp [hx]), .inr (.inr ⟨m, by simpa using e.symm, hg m (by simp)⟩)⟩
  · rw [h] at hg
    exact ⟨fun x hx => hg x (by simp [hx]), .inl (hg l (by simp))⟩

/-- The rules are well formed. -/
theorem wellFormed (hF : Facts L G S) (hM : MoreFacts L G) (hf : ByLabel toASCII f L) (hc : Faithful f L) :
    WellFormed (L.flatMap (contributes toASCII)) := by
  -- labels as written for the labels of a rule
  have back : ∀ {p l}, RuleAt (L.flatMap (contributes toASCII)) (p ++ [l]) → ∃ r ∈ L, ∃ p0 l0, revLabels r = p0 ++ [l0] ∧
      ((p = p0 ∧ l = l0) ∨ (p = p0.map f ∧ l = f l0)) := by
    intro p l h
    obtain ⟨r, hr, e | e⟩ := (rule_iff hf).1 h
    · exact ⟨r, hr, p, l, e.symm, .inl ⟨rfl, rfl⟩⟩
    · obtain ⟨p0, x, e1, e2, e3⟩ := List.map_eq_append_iff.1 e.symm
      obtain ⟨l0, rfl, e4⟩ := List.map_eq_singleton_iff.1 e3
      exact ⟨r, hr, p0, l0, e1, .inr ⟨e2.symm, e4.symm⟩⟩
  refine ⟨fun p l h x hx => ?_, fun p l h => ?_, fun p l h => ?_⟩
  · obtain ⟨r, hr, p0, l0, e, ⟨rfl, rfl⟩ | ⟨rfl, rfl⟩⟩ := back h
    · exact (rule_labels hM hr e).1 x hx
    · obtain ⟨x0, h0, rfl⟩ := List.mem_map.1 hx
      exact good_map hf hc hr (by rw [e]; simp [h0]) ((rule_labels hM hr e).1 x0 h0)
  · obtain ⟨r, hr, p0, l0, e, ⟨rfl, rfl⟩ | ⟨rfl, rfl⟩⟩ := back h
    · exact (rule_labels hM hr e).2
    · by_cases ha : ∀ b ∈ l0, b < 128
      · rw [hf.ascii l0 ha]; exact (rule_labels hM hr e).2
      · exact .inl (hc.good r hr _ (isLabels_self r) l0 (by rw [e]; simp) ha)
  · -- exceptions
    have hx : ExceptionAt (L.flatMap (contributes toASCII)) (p ++ [l]) := by
      obtain ⟨r, hr, hl⟩ := h
      rw [isLabels_rev] at hl
      obtain ⟨t, rfl⟩ := bang_of_labels hl.symm
      refine ⟨t, hr, ?_⟩
      rw [isLabels_rev]
      obtain ⟨q, m, e1, e2⟩ := revLabels_bang t
      rw [e1] at hl
      obtain ⟨rfl, e⟩ := List.append_inj' hl rfl
      rw [e2]
      simpa using e
    obtain ⟨q, m, e1, -, e3⟩ := exc_rules hF hf hx
    obtain ⟨rfl, -⟩ := List.append_inj' e1 rfl
    obtain ⟨s, hs, rfl⟩ := star_rules hF hf e3
    exact (rule_iff hf).2 ⟨_, hs, .inl (star_labels s).symm⟩

/-- A gap is not a rule nor the parent of a wildcard, and there are rules below it. -/
theorem gap_real (hF : Facts L G S) (hM : MoreFacts L G) (hf : ByLabel toASCII f L) (hc : Faithful f L) {g : Bytes} (hg : g ∈ G)
    {p : List Bytes} (hp : p = revLabels g ∨ p = (revLabels g).map f) :
    ¬ RuleAt (L.flatMap (contributes toASCII)) p ∧ ¬ RuleAt (L.flatMap (contributes toASCII)) (p ++ [star]) ∧
      ∃ x, PrefixAt (L.flatMap (contributes toASCII)) (p ++ [x]) := by
  obtain ⟨w, hw, t, ht⟩ := hM.below g hg
  have hwl : revLabels w = revLabels g ++ revLabels t := by rw [← ht, revLabels_dot]
  have hin : ∀ l ∈ revLabels g, l ∈ revLabels w := fun l hl => by rw [hwl]; simp [hl]
  have hace : ∀ l ∈ revLabels g, ¬ b! "xn--" <+: l := fun l hl => label_noAce hM hw (hin l hl)
  refine ⟨fun h => ?_, fun h => ?_, ?_⟩
  · obtain ⟨r, hr, e⟩ := (rule_iff hf).1 h
    have : revLabels r = revLabels g := by
      rcases hp with rfl | rfl <;> rcases e with e | e
      · exact e.symm
      · exact map_back' hf hace e.symm
      · exact (map_back' hf (fun l hl => label_noAce hM hr hl) e).symm
      · exact labels_apart hc hr hw (fun _ h => h) hin e.symm
    have : r = g := by rw [← join_revLabels r, ← join_revLabels g, this]
    exact hM.notRule g hg (this ▸ hr)
  · obtain ⟨s, hs, e⟩ := star_rules hF hf h.prefixAt
    have : revLabels s = revLabels g := by
      rcases hp with rfl | rfl
      · exact e
      · exact (map_back' hf (fun l hl h => (hF.ascii s hs).2 (h.isInfix.trans (label_infix hl))) e.symm).symm
    have : s = g := by rw [← join_revLabels s, ← join_revLabels g, this]
    exact hM.notStar g hg (this ▸ hs)
  · obtain ⟨x, xs, hx⟩ := List.exists_cons_of_ne_nil (revLabels_ne_nil t)
    rw [hx] at hwl
    rcases hp with rfl | rfl
    · exact ⟨x, (prefix_iff hf).2 ⟨w, hw, .inl ⟨xs, by rw [hwl]; simp⟩⟩⟩
    · exact ⟨f x, (prefix_iff hf).2 ⟨w, hw, .inr ⟨xs.map f, by rw [hwl]; simp⟩⟩⟩

/-- Rules longer than a wildcard next to them are below a place in `S`. -/
theorem shadow_rules (hF : Facts L G S) (hf : ByLabel toASCII f L) {p q : List Bytes}
    (h : PrefixAt (L.flatMap (contributes toASCII)) (p ++ [star])) (hq : RuleAt (L.flatMap (contributes toASCII)) q)
    (hpre : p <+: q) (hlen : p.length + 2 ≤ q.length) : ∃ s ∈ S, p = revLabels s := by
  obtain ⟨s, hs, ea⟩ := star_rules hF hf h
  obtain ⟨u, hu⟩ := hpre
  have hu2 : ∃ x y u', u = x :: y :: u' := by
    have := congrArg List.length hu
    rw [List.length_append] at this
    match u with
    | [] => simp at this; omega
    | [x] => simp at this; omega
    | x :: y :: u' => exact ⟨x, y, u', rfl⟩
  obtain ⟨x, y, u', rfl⟩ := hu2
  have hne : p ≠ [] := by rw [← ea]; exact revLabels_ne_nil s
  -- the rule as written begins with the same labels
  have key : ∃ r ∈ L, ∃ x' v, v ≠ [] ∧ revLabels r = (p ++ [x']) ++ v := by
    obtain ⟨r, hr, e | e⟩ := (rule_iff hf).1 hq
    · exact ⟨r, hr, x, y :: u', by simp, by rw [← e, ← hu]; simp⟩
    · rw [← hu] at e
      obtain ⟨a0, u0, e1, e2, e3⟩ := List.map_eq_append_iff.1 e.symm
      obtain ⟨x0, u1, rfl, -, e4⟩ := List.map_eq_cons_iff.1 e3
      obtain ⟨y0, u2, rfl, -, -⟩ := List.map_eq_cons_iff.1 e4
      refine ⟨r, hr, x0, y0 :: u2, by simp, ?_⟩
      have : a0 = p := by
        rw [← e2]
        refine (map_back hf (fun l hl h => ?_)).symm
        rw [e2, ← ea] at hl
        exact (hF.ascii s hs).2 (h.isInfix.trans (label_infix hl))
      rw [e1, this]; simp
  obtain ⟨r, hr, x', v, hv, e⟩ := key
  obtain ⟨t, w, e1, e2, -⟩ := revLabels_prefix e (by simp) hv
  obtain ⟨s', w', e3, e4, -⟩ := revLabels_prefix e2 hne (by simp)
  have es : s' = s := by rw [← join_revLabels s', ← join_revLabels s, e4, ea]
  subst es
  exact ⟨_, hF.shadow r hr t _ ⟨w, e1.symm⟩ ⟨w', e3.symm⟩ hs, ea.symm⟩

/-! ## Mishandled names, when the gaps and the wildcards with longer rules are known -/

section
variable {rules name : List Bytes}

/-- Without longer rules next to it, a wildcard decides. -/
theorem star_decides (hw : WellFormed rules) {m : Nat} {l : Bytes} {n : Nat}
    (hreach : ∀ j < m, ¬ RuleAt rules (name.take j ++ [star])) (hl : name[m]? = some l)
    (hst : RuleAt rules (name.take m ++ [star])) (hno : ∀ q, RuleAt rules q → name.take m <+: q → q.length ≤ m + 1)
    (hn : PublicSuffix rules name n) :
    (¬ RuleAt rules (name.take m ++ [33 :: l]) → n = m + 1) ∧ (RuleAt rules (name.take m ++ [33 :: l]) → n = m) := by
  obtain ⟨hm, hl'⟩ := List.getElem?_eq_some_iff.1 hl
  have hpre : ∀ a : List Bytes, ∀ x, a = name.take a.length → m ≤ a.length → name.take m <+: a ++ [x] := by
    intro a x e h
    refine .trans ?_ (List.prefix_append _ _)
    rw [e, show name.take m = (name.take a.length).take m by rw [List.take_take, Nat.min_eq_left h]]
    exact List.take_prefix _ _
  have hlen : (name.take m).length = m := by rw [List.length_take]; omega
  have hexc : ∀ e, ExceptionAt rules e → Matches e name → e.length = m + 1 ∧ RuleAt rules (name.take m ++ [33 :: l]) := by
    intro e he hmt
    obtain ⟨a, x, rfl, h1, h2, -⟩ := hw.exceptionAt he
    obtain ⟨h3, h4⟩ := hw.matches_exception h1 hmt
    have hge : m ≤ a.length := by
      rcases Nat.lt_or_ge a.length m with h | h
      · exact absurd (h3 ▸ h2) (hreach _ h)
      · exact h
    have := hno _ h1 (hpre a _ h3 hge)
    simp only [List.length_append, List.length_singleton] at this
    obtain rfl : a.length = m := by omega
    rw [hl] at h4
    injection h4 with h4
    refine ⟨by simp, ?_⟩
    rw [← h3, h4]
    exact h1
  constructor
  · intro hx
    rcases hn with ⟨p, h1, h2, -⟩ | ⟨-, p, h1, h2, h3, h4⟩
    · exact absurd (hexc p h1 h2).2 hx
    · have h5 := h4 _ ((normalAt_iff (by simp [star])).2 hst) (matches_take_star hm)
      rw [List.length_append, hlen, List.length_singleton] at h5
      obtain ⟨a, y, rfl⟩ := ruleAt_last h1.rule
      obtain ⟨h6, -⟩ := hw.matches_rule h1.rule h2
      simp only [List.length_append, List.length_singleton] at h3 h5
      have := hno _ h1.rule (hpre a y h6 (by omega))
      simp only [List.length_append, List.length_singleton] at this
      omega
  · intro hx
    have hm' : Matches (name.take m ++ [l]) name := by
      rw [show name.take m ++ [l] = name.take (m + 1) by rw [List.take_add_one, hl]; rfl]
      exact matches_take _ _
    rcases hn with ⟨p, h1, h2, h3, -⟩ | ⟨h, -⟩
    · have := (hexc p h1 h2).1
      omega
    · exact absurd hm' (h _ (exceptionAt_iff.2 hx))

theorem matching_top (hw : WellFormed rules) (hb : ¬ RuleAt rules [star]) (h : ¬ NoRuleMatches rules name) :
    PrefixAt rules (name.take 1) := by
  have key : ∀ a y, RuleAt rules (a ++ [y]) → a = name.take a.length → (a ≠ [] ∨ name[0]? = some y) → PrefixAt rules (name.take 1) := by
    intro a y hr ha h
    rcases h with h | h
    · refine hr.prefix (.trans ?_ (List.prefix_append _ _))
      have : 1 ≤ a.length := by cases a with
        | nil => exact absurd rfl h
        | cons => simp
      rw [ha, show name.take 1 = (name.take a.length).take 1 by rw [List.take_take, Nat.min_eq_left this]]
      exact List.take_prefix _ _
    · cases name with
      | nil => simp at h
      | cons t name =>
        simp at h
        subst h
        rcases List.eq_nil_or_concat a with rfl | ⟨b, z, rfl⟩
        · simpa using hr.prefixAt
        · refine hr.prefix (.trans ?_ (List.prefix_append _ _))
          rw [ha]
          simp
  apply Classical.byContradiction
  intro hc
  refine h ⟨fun q hq hm => ?_, fun q hq hm => ?_⟩
  · obtain ⟨a, x, rfl, h1, h2, -⟩ := hw.exceptionAt hq
    obtain ⟨h3, h4⟩ := hw.matches_exception h1 hm
    cases a with
    | nil => exact hb h2
    | cons => exact hc (key _ _ h1 h3 (.inl (by simp)))
  · obtain ⟨a, y, rfl⟩ := ruleAt_last hq.rule
    obtain ⟨h3, h4⟩ := hw.matches_rule hq.rule hm
    cases a with
    | nil =>
      refine hc (key _ _ hq.rule h3 (.inr (h4.resolve_left ?_)))
      rintro rfl
      exact hb hq.rule
    | cons => exact hc (key _ _ hq.rule h3 (.inl (by simp)))

/-- The names that are mishandled, in terms of gaps and of wildcards with longer rules next to them. -/
theorem mishandled_listed (hw : WellFormed rules) (hb : ¬ RuleAt rules [star]) (hne : name ≠ [])
    {GapAt ShadowAt : List Bytes → Prop}
    (hgap : ∀ p, p ≠ [] → PrefixAt rules p → RuleAt rules p ∨ RuleAt rules (p ++ [star]) ∨ GapAt p)
    (hreal : ∀ p, GapAt p → p ≠ [] ∧ ¬ RuleAt rules p ∧ ¬ RuleAt rules (p ++ [star]) ∧ PrefixAt rules p)
    (hsh : ∀ p q, RuleAt rules (p ++ [star]) → RuleAt rules q → p <+: q → p.length + 2 ≤ q.length → ShadowAt p) :
    Mishandled rules name ↔
      (¬ NoRuleMatches rules name ∧ (GapAt (name.take 1) ∨ ∃ m, m < name.length ∧ GapAt (name.take m) ∧
        (∀ j < m, ¬ RuleAt rules (name.take j ++ [star])) ∧ ¬ PrefixAt rules (name.take (m + 1)))) ∨
      ∃ m, ShadowAt (name.take m) ∧ (∀ j < m, ¬ RuleAt rules (name.take j ++ [star])) ∧ Overruled rules name m := by
  obtain ⟨t, name', rfl⟩ := List.exists_cons_of_ne_nil hne
  generalize hN : t :: name' = name at *
  have htop1 : name.take 1 = [t] := by rw [← hN]; simp
  have hhead : name.head? = some t := by rw [← hN]; simp
  have hlen : ∀ m, m < name.length → (name.take m).length = m := fun m h => by rw [List.length_take]; omega
  constructor
  · intro h
    have hno := mishandled_matches h
    have h1 := matching_top hw hb hno
    cases h with
    | top e1 e2 e3 _ =>
      rw [hhead] at e1
      injection e1 with e1
      subst e1
      refine .inl ⟨hno, .inl ?_⟩
      rcases hgap _ (by rw [htop1]; simp) h1 with h | h | h
      · rw [htop1] at h; exact absurd h e2
      · rw [htop1] at h; exact absurd h e3
      · exact h
    | @gap m e1 e2 e3 e4 _ =>
      refine .inl ⟨hno, .inr ⟨m, e2, ?_, e1.reached, (e1.last e2).resolve_left e4⟩⟩
      rcases Nat.eq_zero_or_pos m with rfl | hm
      · exact absurd h1 ((e1.last e2).resolve_left e4)
      · have hnil : name.take m ≠ [] := fun e => by
          have := hlen m e2
          rw [e, List.length_nil] at this
          omega
        rcases hgap _ hnil (e1.known.resolve_left (by omega)) with h | h | h
        · exact absurd h e3
        · exact absurd h e4
        · exact h
    | @shadow m l n e1 e2 e3 e4 e5 e6 =>
      refine .inr ⟨m, ?_, e1.reached, l, n, e2, e3, e5, .inl ⟨e4, e6⟩⟩
      apply Classical.byContradiction
      intro hc
      refine e6 ((star_decides hw e1.reached e2 e3 (fun q hq hp => ?_) e5).1 e4)
      apply Classical.byContradiction
      intro hc'
      exact hc (hsh _ q e3 hq hp (by rw [hlen m (List.getElem?_eq_some_iff.1 e2).1]; omega))
    | @exception m l n e1 e2 e3 e4 e5 e6 =>
      refine .inr ⟨m, ?_, e1.reached, l, n, e2, e3, e5, .inr ⟨e4, e6⟩⟩
      apply Classical.byContradiction
      intro hc
      refine e6 ((star_decides hw e1.reached e2 e3 (fun q hq hp => ?_) e5).2 e4)
      apply Classical.byContradiction
      intro hc'
      exact hc (hsh _ q e3 hq hp (by rw [hlen m (List.getElem?_eq_some_iff.1 e2).1]; omega))
  · rintro (⟨hno, h | ⟨m, h1, h2, h3, h4⟩⟩ | ⟨m, -, h1, l, n, h2, h3, h4, h5⟩)
    · obtain ⟨-, h1, h2, -⟩ := hreal _ h
      rw [htop1] at h1 h2
      exact .top hhead h1 h2 hno
    · obtain ⟨-, g1, g2, g3⟩ := hreal _ h2
      exact .gap ⟨by omega, .inr g3, h3, fun _ => .inr h4⟩ h1 g1 g2 hno
    · have hm := (List.getElem?_eq_some_iff.1 h2).1
      have hk : m = 0 ∨ PrefixAt rules (name.take m) := .inr (h3.prefix (List.prefix_append _ _))
      have hlead : LeadsTo rules name m := ⟨by omega, hk, h1, fun _ => .inl h3⟩
      rcases h5 with ⟨h5, h6⟩ | ⟨h5, h6⟩
      · exact .shadow hlead h2 h3 h5 h4 h6
      · exact .exception hlead h2 h3 h5 h4 h6

/-- A wildcard with a longer rule next to it, and a name that shows it. -/
theorem shadow_real (hw : WellFormed rules) {p more : List Bytes} {x l : Bytes}
    (alg : NoRuleMatches rules (p ++ x :: l :: more) ∨ ∃ n, PublicSuffix rules (p ++ x :: l :: more) n)
    (h1 : RuleAt rules (p ++ [star])) (h2 : RuleAt rules (p ++ [x, star])) (h3 : ¬ RuleAt rules (p ++ [33 :: x]))
    (hreach : ∀ j < p.length, ¬ RuleAt rules (p.take j ++ [star])) (hl : ¬ LabelOf rules l) :
    Mishandled rules (p ++ x :: l :: more) := by
  have htk : ∀ j, j ≤ p.length → (p ++ x :: l :: more).take j = p.take j := fun j h => List.take_append_of_le_length h
  have htp : (p ++ x :: l :: more).take p.length = p := by simp
  have hx : (p ++ x :: l :: more)[p.length]? = some x := by simp
  have hn1 : NormalAt rules (p ++ [star]) := (normalAt_iff (by simp [star])).2 h1
  have hn2 : NormalAt rules (p ++ [x, star]) := by
    have : p ++ [x, star] = (p ++ [x]) ++ [star] := by simp
    rw [this] at h2 ⊢
    exact (normalAt_iff (by simp [star])).2 h2
  have hm2 : Matches (p ++ [x, star]) (p ++ x :: l :: more) := by
    have := matches_take_star (name := p ++ x :: l :: more) (m := p.length + 1) (by simp)
    rwa [List.take_add_one, htp, hx, show p ++ (some x).toList ++ [star] = p ++ [x, star] by simp] at this
  obtain ⟨n, hn⟩ := alg.resolve_left fun h => h.2 _ hn2 hm2
  have hlead : LeadsTo rules (p ++ x :: l :: more) p.length := by
    refine ⟨by simp, .inr ?_, fun j hj => ?_, fun _ => .inl ?_⟩
    · rw [htp]; exact h1.prefix (List.prefix_append _ _)
    · rw [htk j (by omega)]; exact hreach j hj
    · rw [htp]; exact h1
  refine .shadow hlead hx (by rw [htp]; exact h1) (by rw [htp]; exact h3) hn ?_
  have hexc : ∀ e, ExceptionAt rules e → ¬ Matches e (p ++ x :: l :: more) := by
    intro e he hm
    obtain ⟨a, y, rfl, g1, g2, -⟩ := hw.exceptionAt he
    obtain ⟨g3, g4⟩ := hw.matches_exception g1 hm
    rcases Nat.lt_trichotomy a.length p.length with h | h | h
    · rw [htk _ (by omega)] at g3
      exact hreach _ h (g3 ▸ g2)
    · rw [h, htp] at g3
      rw [h, hx] at g4
      injection g4 with g4
      subst g3 g4
      exact h3 g1
    · rcases Nat.lt_or_ge a.length (p.length + 2) with h' | h'
      · rw [show a.length = p.length + 1 by omega] at g4
        simp at g4
        subst g4
        exact hl ⟨_, g1, .inr (by simp)⟩
      · refine hl ⟨_, g1, .inl ?_⟩
        have : l ∈ (p ++ x :: l :: more).take a.length := by
          obtain ⟨k, hk⟩ : ∃ k, a.length = p.length + (k + 2) := ⟨a.length - p.length - 2, by omega⟩
          rw [hk, List.take_append]
          simp
        rw [← g3] at this
        simp [this]
  rcases hn with ⟨e, e1, e2, -⟩ | ⟨-, q, q1, q2, q3, q4⟩
  · exact absurd e2 (hexc e e1)
  · have := q4 _ hn2 hm2
    simp at this
    omega

end

/-- The names that are mishandled, for rules with the facts. -/
theorem mishandled_facts (hF : Facts L G S) (hM : MoreFacts L G) (hf : ByLabel toASCII f L) (hc : Faithful f L)
    {name : List Bytes} (hne : name ≠ []) :
    Mishandled (L.flatMap (contributes toASCII)) name ↔
      (¬ NoRuleMatches (L.flatMap (contributes toASCII)) name ∧
        ((∃ g ∈ G, name.take 1 = revLabels g ∨ name.take 1 = (revLabels g).map f) ∨
         ∃ m, m < name.length ∧ (∃ g ∈ G, name.take m = revLabels g ∨ name.take m = (revLabels g).map f) ∧
          (∀ j < m, ¬ RuleAt (L.flatMap (contributes toASCII)) (name.take j ++ [star])) ∧
          ¬ PrefixAt (L.flatMap (contributes toASCII)) (name.take (m + 1)))) ∨
      ∃ m, (∃ s ∈ S, name.take m = revLabels s) ∧
        (∀ j < m, ¬ RuleAt (L.flatMap (contributes toASCII)) (name.take j ++ [star])) ∧
        Overruled (L.flatMap (contributes toASCII)) name m := by
  have hw := wellFormed hF hM hf hc
  refine mishandled_listed (GapAt := fun p => ∃ g ∈ G, p = revLabels g ∨ p = (revLabels g).map f)
    (ShadowAt := fun p => ∃ s ∈ S, p = revLabels s) hw (fun h => no_top hF hf h.prefixAt) hne ?_ ?_ ?_
  · intro p hp h
    rcases gap_rules hF hf hp h with h | h | h
    · exact .inl h
    · exact .inr (.inl (hw.star_last h))
    · exact .inr (.inr h)
  · rintro p ⟨g, hg, hp⟩
    obtain ⟨h1, h2, x, h3⟩ := gap_real hF hM hf hc hg hp
    refine ⟨?_, h1, h2, h3.prefix (List.prefix_append _ _)⟩
    rcases hp with rfl | rfl
    · exact revLabels_ne_nil g
    · simp [revLabels_ne_nil g]
  · exact fun p q h hq hp hl => shadow_rules hF hf h.prefixAt hq hp hl

end Fasttld.Inv
