import Verif.Proofs.FallbackExact
import Verif.Props.Fallback
import Verif.Props.Mishandled

/-!
# C57: for which names the library does not follow the algorithm when it uses its built-in list
-/

set_option linter.unusedSimpArgs false

namespace Fasttld.Props
open Fasttld Fasttld.Spec Trie _root_.Fasttld.Inv

variable {idna : Idna} {f : Bytes → Bytes} {priv : Bool} {lines : List Bytes}

theorem faithful_used (hb : BuiltIn priv lines) (h : Faithful f (lines.filter (fun t => decide (IsRuleLine t)))) :
    Faithful f (rulesIn (builtInParts priv)) := by
  rw [rules_builtIn, ← builtIn_iff.1 hb]; exact h

/-- C57: the rules of the built-in list are well formed. -/
theorem C57_wellFormed (hb : BuiltIn priv lines) (hf : ByLabel idna.toASCII f (lines.filter (fun t => decide (IsRuleLine t))))
    (hc : Faithful f (lines.filter (fun t => decide (IsRuleLine t)))) : WellFormed (rulesOf idna.toASCII lines) := by
  rw [builtIn_rules _ hb]
  exact wellFormed (facts_builtIn priv) (moreFacts_builtIn priv) (byLabel_used hb hf) (faithful_used hb hc)

theorem take_of_prefix {p name : List Bytes} (h : p <+: name) : name.take p.length = p := by
  obtain ⟨t, rfl⟩ := h
  simp

theorem endsIn_iff {g : Bytes} {name p : List Bytes} :
    EndsIn f g name p ↔ p <+: name ∧ (p = revLabels g ∨ p = (revLabels g).map f) := by
  unfold EndsIn
  refine and_congr_right fun _ => ⟨?_, ?_⟩
  · rintro ⟨ls, h, e⟩
    rw [← isLabels_reverse.1 h, List.map_reverse]
    exact e
  · intro e
    refine ⟨_, isLabels_self g, ?_⟩
    rwa [List.reverse_reverse, ← List.map_reverse, List.reverse_reverse]

/-- C57: the names that are mishandled with the built-in list.  Some rule matches and the name ends in one of the gaps,
which is its top-level label or is followed by a label that no rule has there, and no wildcard comes before; or the name
ends in the parent of one of the shadowed wildcards, and a longer rule decides. -/
theorem C57_mishandled (hb : BuiltIn priv lines) (hf : ByLabel idna.toASCII f (lines.filter (fun t => decide (IsRuleLine t))))
    (hc : Faithful f (lines.filter (fun t => decide (IsRuleLine t)))) {name : List Bytes} (hne : name ≠ []) :
    Mishandled (rulesOf idna.toASCII lines) name ↔
      (¬ NoRuleMatches (rulesOf idna.toASCII lines) name ∧ ∃ g ∈ gaps priv, ∃ p, EndsIn f g name p ∧
        (p.length = 1 ∨ (p.length < name.length ∧ (∀ j < p.length, ¬ RuleAt (rulesOf idna.toASCII lines) (name.take j ++ [star])) ∧
          ¬ PrefixAt (rulesOf idna.toASCII lines) (name.take (p.length + 1))))) ∨
      ∃ g ∈ shadows priv, ∃ p, IsLabels g p.reverse ∧ p <+: name ∧
        (∀ j < p.length, ¬ RuleAt (rulesOf idna.toASCII lines) (name.take j ++ [star])) ∧
        Overruled (rulesOf idna.toASCII lines) name p.length := by
  rw [builtIn_rules _ hb, mishandled_facts (facts_builtIn priv) (moreFacts_builtIn priv) (byLabel_used hb hf) (faithful_used hb hc) hne]
  generalize (rulesIn (builtInParts priv)).flatMap (contributes idna.toASCII) = rules
  have htake : ∀ m, m < name.length → (name.take m).length = m := fun m h => by rw [List.length_take]; omega
  have h1 : 1 ≤ name.length := by
    cases name with
    | nil => exact absurd rfl hne
    | cons => simp
  refine or_congr (and_congr_right fun _ => ⟨?_, ?_⟩) ⟨?_, ?_⟩
  · rintro (⟨g, hg, h⟩ | ⟨m, hm, ⟨g, hg, h⟩, h2, h3⟩)
    · exact ⟨g, hg, _, endsIn_iff.2 ⟨List.take_prefix _ _, h⟩, .inl (by rw [List.length_take]; omega)⟩
    · refine ⟨g, hg, _, endsIn_iff.2 ⟨List.take_prefix _ _, h⟩, .inr ?_⟩
      rw [htake m hm]
      exact ⟨hm, h2, h3⟩
  · rintro ⟨g, hg, p, hp, h⟩
    obtain ⟨hp, e⟩ := endsIn_iff.1 hp
    rcases h with h | ⟨h2, h3, h4⟩
    · exact .inl ⟨g, hg, by rw [← h, take_of_prefix hp]; exact e⟩
    · exact .inr ⟨_, h2, ⟨g, hg, by rw [take_of_prefix hp]; exact e⟩, h3, h4⟩
  · rintro ⟨m, ⟨g, hg, h⟩, h2, h3⟩
    have hm : m < name.length := by
      obtain ⟨l, n, h, -⟩ := h3
      exact (List.getElem?_eq_some_iff.1 h).1
    refine ⟨g, hg, _, isLabels_reverse.2 (by rw [List.reverse_reverse]; exact h), List.take_prefix _ _, ?_⟩
    rw [htake m hm]
    exact ⟨h2, h3⟩
  · rintro ⟨g, hg, p, hl, hp, h2, h3⟩
    have := isLabels_reverse.1 hl
    rw [List.reverse_reverse] at this
    exact ⟨_, ⟨g, hg, by rw [take_of_prefix hp]; exact this⟩, h2, h3⟩

theorem gaps_public : ∀ g ∈ gaps false, g = b! "za" ∨ (g ≠ b! "za" ∧ ∃ x, revLabels g = [b! "no", x]) := by
  have key : ∀ g ∈ gapsPublic.map unpack, g = b! "za" ∨ (g ≠ b! "za" ∧ revLabels g = [b! "no", (revLabels g).getD 1 []]) := by
    decide +kernel
  exact fun g hg => (key g hg).imp id (fun h => ⟨h.1, _, h.2⟩)

theorem za_gap (priv : Bool) : b! "za" ∈ gaps priv := by
  cases priv with
  | false =>
    show _ ∈ gapsPublic.map unpack
    decide +kernel
  | true =>
    show _ ∈ gapsAll.map unpack
    decide +kernel

/-- C57: without the private section these are the names with a matching rule whose top-level label is `za`, and the
names that end in one of the eleven gaps under `no`, followed by a label that no rule has there. -/
theorem C57_public (hb : BuiltIn false lines) (hf : ByLabel idna.toASCII f (lines.filter (fun t => decide (IsRuleLine t))))
    (hc : Faithful f (lines.filter (fun t => decide (IsRuleLine t)))) {name : List Bytes} :
    Mishandled (rulesOf idna.toASCII lines) name ↔
      (name.head? = some (b! "za") ∧ ¬ NoRuleMatches (rulesOf idna.toASCII lines) name) ∨
      ∃ g ∈ gaps false, g ≠ b! "za" ∧ ∃ p, EndsIn f g name p ∧ p.length < name.length ∧
        ¬ PrefixAt (rulesOf idna.toASCII lines) (name.take (p.length + 1)) := by
  obtain ⟨n1, n2, -⟩ := no_rules hb hf
  have n0 := C54_no_top_star hb hf
  have hw := C57_wellFormed hb hf hc
  by_cases hne : name = []
  · subst hne
    constructor
    · intro h
      refine absurd (mishandled_matches h) (not_not_intro ⟨fun q hq hm => ?_, fun q hq hm => ?_⟩)
      · obtain ⟨a, x, rfl, -⟩ := hw.exceptionAt hq
        have := hm.length
        simp at this
      · have := hm.length
        exact hq.ne (List.eq_nil_of_length_eq_zero (by simpa using this))
    · rintro (⟨h, -⟩ | ⟨g, -, -, p, -, h, -⟩) <;> simp at h
  rw [C57_mishandled hb hf hc hne]
  obtain ⟨t, name, rfl⟩ := List.exists_cons_of_ne_nil hne
  have hfa := byLabel_used hb hf
  have hza : (revLabels (b! "za")).map f = [b! "za"] := by
    show [f (b! "za")] = _
    rw [hfa.ascii _ (by decide)]
  constructor
  · rintro (⟨h1, g, hg, p, hp, h2⟩ | ⟨g, hg, -⟩)
    · rcases gaps_public g hg with rfl | ⟨h3, x, h4⟩
      · obtain ⟨h5, h6⟩ := endsIn_iff.1 hp
        rw [hza, show revLabels (b! "za") = [b! "za"] from by decide, or_self] at h6
        subst h6
        exact .inl ⟨by simpa [List.cons_prefix_cons, eq_comm] using h5, h1⟩
      · refine .inr ⟨g, hg, h3, p, hp, ?_⟩
        rcases h2 with h2 | ⟨h2, -, h3⟩
        · exfalso
          obtain ⟨-, h6⟩ := endsIn_iff.1 hp
          rw [h4] at h6
          rcases h6 with rfl | rfl <;> simp at h2
        · exact ⟨h2, h3⟩
    · simp [shadows, shadowsPublic] at hg
  · rintro (⟨h1, h2⟩ | ⟨g, hg, h1, p, hp, h2, h3⟩)
    · refine .inl ⟨h2, b! "za", za_gap false, [b! "za"], endsIn_iff.2 ⟨?_, .inl (by decide)⟩, .inl rfl⟩
      simp at h1
      subst h1
      exact ⟨name, rfl⟩
    · obtain ⟨h4, h5⟩ := endsIn_iff.1 hp
      obtain ⟨x, h6⟩ := ((gaps_public g hg).resolve_left h1).2
      obtain ⟨y, rfl⟩ : ∃ y, p = [b! "no", y] := by
        rw [h6] at h5
        rcases h5 with rfl | rfl
        · exact ⟨_, rfl⟩
        · refine ⟨f x, ?_⟩
          simp [hfa.ascii (b! "no") (by decide)]
      obtain ⟨more, h4⟩ := h4
      refine .inl ⟨fun hno => ?_, g, hg, _, hp, .inr ⟨h2, ?_, h3⟩⟩
      · refine hno.2 [b! "no"] ?_ (by rw [← h4]; exact ⟨.inr rfl, trivial⟩)
        obtain ⟨r, hr, hl⟩ := n1
        refine ⟨r, hr, ?_, hl⟩
        rw [show r = b! "no" from hl.2.2]
        decide
      · intro j hj h
        rw [← h4] at h
        match j, hj with
        | 0, _ => exact n0 h.prefixAt
        | 1, _ => exact n2 h.prefixAt

/-- C57: so with the built-in list, and for every accepted URL whose host is a name with labels as they can occur in host
names, the result is the one that the algorithm gives, except for those names. -/
theorem C57_exact (hb : BuiltIn priv lines) (hf : ByLabel idna.toASCII f (lines.filter (fun t => decide (IsRuleLine t))))
    (hc : Faithful f (lines.filter (fun t => decide (IsRuleLine t)))) (e : URLParams) (hig : e.ignoreSubDomains = false)
    {r : ExtractResult} (h : extract idna (trieOfText idna priv hardcodedPSL) e = .ok (r, none)) (ht : r.hostType = .hostName) :
    ∃ host after n first rest tail, Authority e.url r.scheme r.userInfo (host ++ after) ∧ IsPlainHost host ∧
      AfterHost after r.port r.path ∧ HostTextOf idna e.convertURLToPunyCode host n ∧ HostShape n first rest tail ∧
      ((∀ l ∈ fromRight first rest, GoodLabel l) →
        (AsAlgorithm (rulesOf idna.toASCII lines) first rest r ↔ ¬ Mishandled (rulesOf idna.toASCII lines) (fromRight first rest))) := by
  rw [builtIn_trie idna hb] at h
  exact C56_exact idna (C57_wellFormed hb hf hc) (fun h => C54_no_top_star hb hf h.prefixAt) e hig h ht

theorem shadows_gaps (priv : Bool) : ∀ g ∈ gaps priv, ∀ s ∈ shadows priv, ¬ revLabels s <+: revLabels g ∧ ∀ l ∈ revLabels s, ¬ b! "xn--" <+: l := by
  cases priv with
  | false => intro g _ s hs; simp [shadows, shadowsPublic] at hs
  | true =>
    show ∀ g ∈ gapsAll.map unpack, ∀ s ∈ shadowsAll.map unpack, _
    decide +kernel

theorem gaps_za (priv : Bool) : ∀ g ∈ gaps priv, g = b! "za" ∨ (revLabels g).head? ≠ some (b! "za") := by
  cases priv with
  | false =>
    show ∀ g ∈ gapsPublic.map unpack, _
    decide +kernel
  | true =>
    show ∀ g ∈ gapsAll.map unpack, _
    decide +kernel

/-- C57: no gap is listed in vain: every name that ends in a gap other than `za`, followed by a label that occurs in no
rule, is mishandled. -/
theorem C57_gaps (hb : BuiltIn priv lines) (hf : ByLabel idna.toASCII f (lines.filter (fun t => decide (IsRuleLine t))))
    (hc : Faithful f (lines.filter (fun t => decide (IsRuleLine t)))) {g : Bytes} (hg : g ∈ gaps priv) (hz : g ≠ b! "za")
    {name p : List Bytes} (hp : EndsIn f g name p) {l : Bytes} (hl : name[p.length]? = some l)
    (hnew : ¬ LabelOf (rulesOf idna.toASCII lines) l) : Mishandled (rulesOf idna.toASCII lines) name := by
  have hw := C57_wellFormed hb hf hc
  obtain ⟨h1, h2⟩ := endsIn_iff.1 hp
  obtain ⟨hlt, -⟩ := List.getElem?_eq_some_iff.1 hl
  have hne : name ≠ [] := by rintro rfl; simp at hlt
  have hfa := byLabel_used hb hf
  have hfc := faithful_used hb hc
  have hreal := gap_real (facts_builtIn priv) (moreFacts_builtIn priv) hfa hfc hg h2
  rw [← builtIn_rules _ hb] at hreal
  obtain ⟨-, -, x, hx⟩ := hreal
  -- two labels or more
  have hlen : 2 ≤ p.length := by
    have : p.length = (revLabels g).length := by rcases h2 with rfl | rfl <;> simp
    rw [this]
    have h46 : 46 ∈ g := Classical.byContradiction fun h => hz (gaps_top priv g hg h)
    obtain ⟨a, b, rfl⟩ := List.append_of_mem h46
    rw [revLabels_dot, List.length_append]
    have := List.length_pos_iff.2 (revLabels_ne_nil a)
    have := List.length_pos_iff.2 (revLabels_ne_nil b)
    omega
  obtain ⟨t, rest, rfl⟩ : ∃ t rest, p = t :: rest := List.exists_cons_of_ne_nil (by rintro rfl; simp at hlen)
  obtain ⟨more, rfl⟩ := h1
  have hnone : ¬ NoRuleMatches (rulesOf idna.toASCII lines) (t :: rest ++ more) := by
    have htl : t.head? ≠ some 33 := by
      obtain ⟨q, hq, hr⟩ := hx
      obtain ⟨q', rfl⟩ := hq
      obtain ⟨a, y, e⟩ := ruleAt_last hr
      refine (hw.inner a y (e ▸ hr) t ?_).head
      cases a with
      | nil => simp at e
      | cons a0 a => simp at e; simp [e.1]
    have hpre : PrefixAt (rulesOf idna.toASCII lines) [t] := hx.prefix ⟨rest ++ [x], by simp⟩
    intro hno
    by_cases htz : t = b! "za"
    · refine (gaps_za priv g hg).resolve_left hz ?_
      subst htz
      rcases h2 with h2 | h2
      · rw [← h2]; rfl
      · obtain ⟨y, ys, e1, e2, -⟩ := List.map_eq_cons_iff.1 h2.symm
        rw [e1, map_eq hfa (x := b! "za") (by decide) e2]; rfl
    · rcases C54_top hb hf htz hpre with h | h
      · exact hno.2 _ ((normalAt_iff (q := []) htl).2 h) ⟨.inr rfl, trivial⟩
      · refine hno.2 _ ((normalAt_iff (q := [t]) (by simp [star])).2 (hw.star_last (a := [t]) h)) ?_
        match rest, hlen with
        | u :: rest, _ => exact ⟨.inr rfl, .inl rfl, trivial⟩
  refine (C57_mishandled hb hf hc hne).2 (.inl ⟨hnone, g, hg, _, hp, .inr ⟨hlt, ?_, ?_⟩⟩)
  · intro j hj hst
    have hj' : ((t :: rest ++ more).take j).length = j := by rw [List.length_take]; omega
    rw [builtIn_rules _ hb] at hst hx
    obtain ⟨q, hq, hr⟩ := hx
    have hql := hq.length_le
    simp only [List.length_append, List.length_singleton] at hql
    have hjp : (t :: rest ++ more).take j <+: t :: rest := by
      rw [List.take_append_of_le_length (by omega)]
      exact List.take_prefix _ _
    obtain ⟨s, hs, e⟩ := shadow_rules (facts_builtIn priv) hfa hst.prefixAt hr (hjp.trans ((List.prefix_append _ _).trans hq)) (by omega)
    obtain ⟨h3, h4⟩ := shadows_gaps priv g hg s hs
    rw [e] at hjp
    rcases h2 with h2 | h2
    · exact h3 (h2 ▸ hjp)
    · rw [h2] at hjp
      obtain ⟨p0, hp0, e0⟩ := prefix_map hjp
      exact h3 (map_back' hfa h4 e0.symm ▸ hp0)
  · rw [List.take_add_one, hl, take_of_prefix (List.prefix_append _ _)]
    rintro ⟨q, hq, hr⟩
    exact hnew ⟨q, hr, .inl (hq.subset (by simp))⟩

/-- The shadowed wildcards, and the labels of longer rules next to them. -/
def shadowPairs : List (Bytes × Bytes) := [(b! "futurecms.at", b! "ex"), (b! "customer-oci.com", b! "oci"),
  (b! "wc.psl.hrsn.dev", b! "sub"), (b! "snowflake.app", b! "privatelink"), (b! "firenet.ch", b! "svc")]

theorem private_rule {s : Bytes} {n : Nat} {p : List Nat} (hn : pack s = n) (h0 : 0 ∉ s) (hr : IsRuleLine s)
    (h : elem n p = true) (hp : p ∈ fallbackPrivateParts) : s ∈ rulesIn (builtInParts true) := by
  subst hn
  refine mem_rulesIn.2 ⟨pack s, ?_, isRule_iff.2 (by rwa [unpack_pack s h0]), unpack_pack _ h0⟩
  rw [show builtInParts true = fallbackPublicParts ++ fallbackPrivateParts from rfl, List.flatten_append, List.mem_append]
  exact .inr (List.mem_flatten.2 ⟨p, hp, elem_sound h⟩)

theorem shadow_present : ∀ s x, (s, x) ∈ shadowPairs →
    42 :: 46 :: s ∈ rulesIn (builtInParts true) ∧ 42 :: 46 :: (x ++ 46 :: s) ∈ rulesIn (builtInParts true) := by
  intro s x h
  simp only [shadowPairs, List.mem_cons, List.not_mem_nil, or_false, Prod.mk.injEq] at h
  rcases h with ⟨rfl, rfl⟩ | ⟨rfl, rfl⟩ | ⟨rfl, rfl⟩ | ⟨rfl, rfl⟩ | ⟨rfl, rfl⟩
  · exact ⟨private_rule (by decide +kernel) (by decide) (by decide) hasFutureCms (by simp [fallbackPrivateParts]),
      private_rule (by decide +kernel) (by decide) (by decide) hasFutureCmsLonger (by simp [fallbackPrivateParts])⟩
  · exact ⟨private_rule (by decide +kernel) (by decide) (by decide) hasCustomerOci (by simp [fallbackPrivateParts]),
      private_rule (by decide +kernel) (by decide) (by decide) hasCustomerOciLonger (by simp [fallbackPrivateParts])⟩
  · exact ⟨private_rule (by decide +kernel) (by decide) (by decide) hasHrsn (by simp [fallbackPrivateParts]),
      private_rule (by decide +kernel) (by decide) (by decide) hasHrsnLonger (by simp [fallbackPrivateParts])⟩
  · exact ⟨private_rule (by decide +kernel) (by decide) (by decide) hasSnowflake (by simp [fallbackPrivateParts]),
      private_rule (by decide +kernel) (by decide) (by decide) hasSnowflakeLonger (by simp [fallbackPrivateParts])⟩
  · exact ⟨private_rule (by decide +kernel) (by decide) (by decide) hasFirenet (by simp [fallbackPrivateParts]),
      private_rule (by decide +kernel) (by decide) (by decide) hasFirenetLonger (by simp [fallbackPrivateParts])⟩

theorem shadow_checks : (∀ s ∈ shadowsAll.map unpack, ∃ p ∈ shadowPairs, p.1 = s) ∧
    (∀ p ∈ shadowPairs, 0 ∉ p.2 ++ 46 :: p.1 ∧ elem (pack (33 :: (p.2 ++ 46 :: p.1))) absentAll = true ∧ 46 ∉ p.2 ∧
      (∀ l ∈ revLabels p.1 ++ [33 :: p.2], ¬ b! "xn--" <+: l) ∧
      ∀ j < (revLabels p.1).length, ∀ q ∈ shadowPairs, (revLabels p.1).take j ≠ revLabels q.1) := by
  decide +kernel

/-- C57: no wildcard is listed in vain either: next to each one there is a longer rule `*.x` below it, and every name that
ends there, with a further label that occurs in no rule, is mishandled. -/
theorem C57_shadows (hb : BuiltIn true lines) (hf : ByLabel idna.toASCII f (lines.filter (fun t => decide (IsRuleLine t))))
    (hc : Faithful f (lines.filter (fun t => decide (IsRuleLine t)))) {g : Bytes} (hg : g ∈ shadows true) :
    ∃ p x, IsLabels g p.reverse ∧ RuleAt (rulesOf idna.toASCII lines) (p ++ [x, star]) ∧
      ∀ l more, ¬ LabelOf (rulesOf idna.toASCII lines) l → Mishandled (rulesOf idna.toASCII lines) (p ++ x :: l :: more) := by
  have hw := C57_wellFormed hb hf hc
  have hfa := byLabel_used hb hf
  obtain ⟨⟨s, x⟩, hp, rfl⟩ := shadow_checks.1 g hg
  obtain ⟨c1, c2, c3, c5, c6⟩ := shadow_checks.2 _ hp
  obtain ⟨h1, h2⟩ := shadow_present s x hp
  have r1 := rule_here hfa h1
  have r2 := rule_here hfa h2
  rw [star_labels] at r1 r2
  rw [revLabels_dot, revLabels_single c3] at r2
  rw [← builtIn_rules _ hb] at r1 r2
  have r3 : ¬ RuleAt (rulesOf idna.toASCII lines) (revLabels s ++ [33 :: x]) := by
    rw [builtIn_rules _ hb]
    refine not_rule hfa c5 ?_
    have e : List.intercalate [46] (revLabels s ++ [33 :: x]).reverse = 33 :: (x ++ 46 :: s) := by
      have := join_revLabels (33 :: (x ++ 46 :: s))
      rwa [← List.cons_append, revLabels_dot, revLabels_single (a := 33 :: x) (by simp [c3])] at this
    rw [e]
    exact absent_rule true (by simpa using c1) c2
  refine ⟨revLabels s, x, isLabels_reverse.2 (by simp), by simpa using r2, fun l more hl => ?_⟩
  refine shadow_real hw ?_ r1 (by simpa using r2) r3 ?_ hl
  · rcases C17_algorithm (rulesOf idna.toASCII lines) (revLabels s ++ x :: l :: more) with ⟨h, -⟩ | ⟨-, n, h, -⟩
    · exact .inl h
    · exact .inr ⟨n, h⟩
  · intro j hj hst
    rw [builtIn_rules _ hb] at hst r1
    obtain ⟨s', hs', e⟩ := shadow_rules (facts_builtIn true) hfa hst.prefixAt r1
      ((List.take_prefix _ _).trans (List.prefix_append _ _)) (by simp; omega)
    obtain ⟨q, hq, rfl⟩ := shadow_checks.1 s' hs'
    exact c6 j hj q hq e

/-! ## Examples -/

/-- A byte as two letters. -/
def letters (b : UInt8) : Bytes := [97 + b / 16, 97 + b % 16]

/-- Conversion label by label that keeps labels apart. -/
def apartLabel (l : Bytes) : Bytes := if l.all (· < 128) then l else b! "xn--" ++ l.flatMap letters

/-- A library for internationalized names with that conversion and without errors. -/
def apartIdna : Idna := { idId with toASCII := fun r => some (List.intercalate [46] ((splitByte 46 r).map apartLabel)) }

theorem letters_lower : ∀ b c : UInt8, c ∈ letters b → 97 ≤ c ∧ c ≤ 112 := by
  intro b c h
  have hb := b.toNat_lt
  simp only [letters, List.mem_cons, List.not_mem_nil, or_false] at h
  simp only [UInt8.le_iff_toNat_le]
  rcases h with rfl | rfl <;> simp only [UInt8.toNat_add, UInt8.toNat_div, UInt8.toNat_mod, UInt8.reduceToNat] <;> omega

theorem letters_inj : ∀ b c : UInt8, letters b = letters c → b = c := by
  intro b c h
  have hb := b.toNat_lt
  have hc := c.toNat_lt
  simp only [letters, List.cons.injEq, and_true, ← UInt8.toNat_inj, UInt8.toNat_add, UInt8.toNat_div, UInt8.toNat_mod,
    UInt8.reduceToNat] at h ⊢
  omega

theorem flatMap_letters : ∀ {l l' : Bytes}, l.flatMap letters = l'.flatMap letters → l = l'
  | [], [], _ => rfl
  | [], _ :: _, h => by simp [letters] at h
  | _ :: _, [], h => by simp [letters] at h
  | b :: l, c :: l', h => by
    rw [List.flatMap_cons, List.flatMap_cons] at h
    obtain ⟨h1, h2⟩ := List.append_inj h rfl
    rw [letters_inj b c h1, flatMap_letters h2]

theorem lower_good {l : Bytes} (hne : l ≠ []) (hl : ∀ c ∈ l, c = 45 ∨ (97 ≤ c ∧ c ≤ 122)) (h1 : l.head? ≠ some 45)
    (h2 : l.getLast? ≠ some 45) : GoodLabel l := by
  have key : ∀ c, (∃ b ∈ encode c, b ≠ 45 ∧ (b < 97 ∨ 122 < b)) → ¬ encode c <:+: l := by
    rintro c ⟨b, hb, h3, h4⟩ hi
    rcases hl b (hi.subset hb) with h | ⟨h5, h6⟩
    · exact h3 h
    · simp only [UInt8.lt_iff_toNat_lt, UInt8.le_iff_toNat_le] at h4 h5 h6
      omega
  have hsep : ∀ r ∈ separators, ∃ b ∈ encode r, b ≠ 45 ∧ (b < 97 ∨ 122 < b) := by decide
  have hstr : ∀ r ∈ strictSeparators, ∃ b ∈ encode r, b ≠ 45 ∧ (b < 97 ∨ 122 < b) := by decide
  have hinv : ∀ r ∈ invalidChars, r ∉ missedChars → ∃ b ∈ encode r, b ≠ 45 ∧ (b < 97 ∨ 122 < b) := by decide +kernel
  refine ⟨hne, fun r hr => key r (hsep r hr), ⟨fun hp => h1 ?_, fun hp => h2 ?_,
    fun a ha hp => key a (hstr a ha) hp.isInfix, fun a ha b hb hp => key a (hstr a ha) (List.IsInfix.trans ⟨[], encode b, by simp⟩ hp),
    fun c hc hm => key c (hinv c hc hm)⟩, fun hc => ?_⟩
  · obtain ⟨t, rfl⟩ := hp; rfl
  · obtain ⟨t, rfl⟩ := hp
    rw [show encode 45 = [45] from by decide]
    simp
  · have := hl 37 hc
    revert this
    decide

/-- Both conditions on the conversion can be met, for the rules of the built-in list. -/
theorem apart_byLabel (rules : List Bytes) : ByLabel apartIdna.toASCII apartLabel rules := by
  refine ⟨?_, ?_, ?_⟩
  · intro l hl
    unfold apartLabel
    rw [if_pos (by simpa using hl)]
  · intro l hl
    unfold apartLabel
    rw [if_neg (by simpa using hl)]
    refine ⟨_, rfl, fun _ h => ?_⟩
    obtain ⟨b, -, hb⟩ := List.mem_flatMap.1 h
    have := letters_lower b 46 hb
    revert this
    decide
  · rintro r - ls h1 h2 rfl
    show some _ = _
    rw [splitByte_unique 46 h1 h2]

theorem apart_faithful (hb : BuiltIn priv lines) : Faithful apartLabel (lines.filter (fun t => decide (IsRuleLine t))) := by
  rw [builtIn_iff.1 hb, ← rules_builtIn]
  have ace : ∀ {r}, r ∈ rulesIn (builtInParts priv) → ∀ {ls}, IsLabels r ls → ∀ l ∈ ls, ¬ b! "xn--" <+: l := by
    intro r hr ls h l hl
    refine label_noAce (moreFacts_builtIn priv) hr ?_
    rw [← isLabels_reverse.1 h]
    simpa using hl
  refine ⟨fun r hr r' hr' ls ls' h h' l hl l' hl' e => ?_, fun r hr ls h l hl ha => ?_⟩
  · unfold apartLabel at e
    split at e <;> split at e
    · exact e
    · exact absurd ⟨_, e.symm⟩ (ace hr h l hl)
    · exact absurd ⟨_, e⟩ (ace hr' h' l' hl')
    · exact flatMap_letters (List.append_cancel_left e)
  · unfold apartLabel
    rw [if_neg (by simpa using ha)]
    have hll : ∀ c ∈ l.flatMap letters, 97 ≤ c ∧ c ≤ 112 := by
      intro c hc
      obtain ⟨b, -, hb⟩ := List.mem_flatMap.1 hc
      exact letters_lower b c hb
    have hne : l.flatMap letters ≠ [] := by
      cases l with
      | nil => simp at ha
      | cons b l => simp [letters]
    refine lower_good (by simp) (fun c hc => ?_) (by simp) ?_
    · rcases List.mem_append.1 hc with hc | hc
      · clear hll hne
        revert hc
        simp only [List.mem_cons, List.not_mem_nil, or_false]
        rintro (rfl | rfl | rfl | rfl) <;> decide
      · obtain ⟨h1, h2⟩ := hll c hc
        exact .inr ⟨h1, UInt8.le_trans h2 (by decide)⟩
    · intro h
      rw [List.getLast?_append, Option.or_of_isSome (by simpa using hne)] at h
      have := hll 45 (List.mem_of_getLast? h)
      revert this
      decide

-- names that are handled well, as no gap is in them
example (hb : BuiltIn false lines) : ¬ Mishandled (rulesOf apartIdna.toASCII lines) [b! "uk", b! "co", b! "example", b! "www"] := by
  rw [C57_public hb (apart_byLabel _) (apart_faithful hb)]
  have key : ∀ g ∈ gapsPublic.map unpack, ¬ revLabels g <+: [b! "uk", b! "co", b! "example", b! "www"] ∧
      ¬ (revLabels g).map apartLabel <+: [b! "uk", b! "co", b! "example", b! "www"] := by decide +kernel
  rintro (⟨h, -⟩ | ⟨g, hg, -, p, hp, -⟩)
  · revert h; decide
  · obtain ⟨h1, rfl | rfl⟩ := endsIn_iff.1 hp
    · exact (key g hg).1 h1
    · exact (key g hg).2 h1
-- and names that are not, among them one below a gap that is not in ASCII
example (hb : BuiltIn priv lines) : Mishandled (rulesOf apartIdna.toASCII lines) [b! "za", b! "co", b! "example"] := by
  obtain ⟨h1, h2, h3, -⟩ := za_not_rule hb (apart_byLabel _)
  refine .top rfl h1 (fun h => h2 h.prefixAt) fun h => ?_
  exact h.2 _ ((normalAt_iff (q := [b! "za"]) (by decide)).2 h3) ⟨.inr rfl, .inr rfl, trivial⟩
example (hb : BuiltIn false lines) : ∃ l, Mishandled (rulesOf apartIdna.toASCII lines) [b! "no", b! "østfold", l] ∧
    Mishandled (rulesOf apartIdna.toASCII lines) [b! "no", b! "xn--mdlihdhegggpgmge", l] := by
  obtain ⟨l, hl, -⟩ := newLabel_exists (rulesOf apartIdna.toASCII lines)
  have hg : b! "østfold.no" ∈ gaps false := by
    show _ ∈ gapsPublic.map unpack
    decide +kernel
  refine ⟨l, C57_gaps hb (apart_byLabel _) (apart_faithful hb) hg (by decide) (p := [b! "no", b! "østfold"]) (endsIn_iff.2 ⟨⟨[l], rfl⟩, .inl (by decide +kernel)⟩) rfl hl.new,
    C57_gaps hb (apart_byLabel _) (apart_faithful hb) hg (by decide) (p := [b! "no", b! "xn--mdlihdhegggpgmge"]) (endsIn_iff.2 ⟨⟨[l], rfl⟩, .inr (by decide +kernel)⟩) rfl hl.new⟩

end Fasttld.Props
