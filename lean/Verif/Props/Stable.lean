import Verif.Props.Lists

/-!
# C27 for anchored lists, exactly
-/

set_option linter.unusedSimpArgs false

namespace Fasttld.Props
open Spec

/-- In an anchored list the first mark on the way is at the right end. -/
theorem walkL_anchored {rules : List Bytes} (ha : Anchored rules) {ls : List Bytes} {k e : Nat} {o : Out}
    (h : walkL (buildTrie rules) ls k none = some o) (hne : ls ≠ []) (he : o.endK = some e) : e = k := by
  obtain ⟨m, m1, -, -, m4, -, m6⟩ := walkL_spec h hne
  rcases m6 rfl with ⟨h0, -⟩ | ⟨j, hj, h1, h2, h3⟩
  · rw [he] at h0; simp at h0
  · rw [he] at h1
    injection h1 with h1
    rcases Nat.eq_zero_or_pos j with h0 | h0
    · omega
    exfalso
    rw [← marked_iff, ← take_path] at h2
    have hlen : ((ls.map unescapeOrEmpty).take (j + 1)).length = j + 1 := by simp; omega
    cases hds : ls.map unescapeOrEmpty with
    | nil => simp at hds; exact hne hds
    | cons t ds =>
      rw [hds] at h2 hlen
      rw [List.take_succ_cons] at h2 hlen
      have hr : RuleAt rules (t :: ds.take j) := by
        rcases h2 with h2 | ⟨l, h2, -⟩
        · exact h2
        · rw [h2] at hlen; simp at hlen; omega
      have hre : Reached rules (t :: ds.take j) := by
        intro a x b e1 e2
        have hal : a.length < j + 1 := by
          have := congrArg List.length e1
          simp at this hlen; omega
        apply m4 a.length (by omega)
        rw [← known_iff, ← take_path, hds]
        refine .inr ?_
        have : List.take a.length (t :: ds) = a := by
          have := congrArg (List.take a.length) e1
          rw [← List.take_succ_cons, List.take_take, Nat.min_eq_left (by omega)] at this
          simpa using this
        rw [this]; exact e2.prefixAt
      apply h3 0 h0
      rw [← marked_iff, ← take_path, hds]
      simp only [Nat.zero_add, List.take_succ_cons, List.take_zero]
      rcases ha t _ hr hre with h4 | h4
      · exact .inl h4
      · exact .inr ⟨t, rfl, h4⟩

/-- The result for a URL whose host is the RegisteredDomain of `r`: the same, without SubDomain. -/
def SameAgain (idna : Idna) (rules : List Bytes) (r : ExtractResult) (e : URLParams) : Prop :=
  ∃ r', extract idna (buildTrie rules) e = .ok (r', none) ∧ r'.hostType = .hostName ∧ r'.domain = r.domain ∧
    r'.suffix = r.suffix ∧ r'.registeredDomain = r.registeredDomain ∧ r'.subDomain = []

/-- C27, exactly, for an anchored list: extraction of RegisteredDomain gives the same parts if and only if Domain does not
begin with a hyphen and RegisteredDomain is not an IPv4 address. -/
theorem C27_exact (idna : Idna) {rules : List Bytes} (ha : Anchored rules) (e : URLParams) {r : ExtractResult}
    (h : extract idna (buildTrie rules) e = .ok (r, none)) (ht : r.hostType = .hostName) (hs : r.suffix ≠ [])
    (e' : URLParams) {sch ui host after port path : Bytes}
    (hA : Authority e'.url sch ui (host ++ after)) (hp : IsPlainHost host) (haf : AfterHost after port path)
    (hn : HostTextOf idna e'.convertURLToPunyCode host r.registeredDomain) :
    SameAgain idna rules r e' ↔ ¬ encode 45 <+: r.domain ∧ ¬ IsIPv4 r.registeredDomain := by
  constructor
  · rintro ⟨r', h', ht', -, hs', -, -⟩
    obtain ⟨host', after', n', first', rest', tail', ds', m', seen', cut', mark', H'⟩ := accepted h' ht'
    obtain ⟨-, -, he⟩ := Authority_unique H'.authority hA
    obtain ⟨rfl, rfl⟩ := host_unique H'.plain (afterHost_head H'.after) hp (afterHost_head haf) he
    have hn' := H'.text
    rw [← hostText_iff] at hn hn'
    rw [hn] at hn'
    injection hn' with hn'
    subst hn'
    refine ⟨fun hd => ?_, H'.not4⟩
    -- the host begins with the hyphen
    have hb : encode 45 <+: r.registeredDomain := by
      obtain ⟨_, _, _, _, _, _, _, _, _, _, _, H⟩ := accepted h ht
      obtain ⟨sub, hP, -⟩ := H.parts
      generalize r.domain = dom at hP hd
      generalize r.suffix = suf at hP hs
      generalize r.registeredDomain = reg at hP
      cases hP with
      | noSuffix => exact absurd rfl hs
      | suffix => exact hd.trans ⟨_, by simp only [joinLabels, List.append_assoc]; rfl⟩
      | suffixOnly => exact absurd hd (by decide)
    obtain ⟨t, hc, hok⟩ := H'.checked
    obtain ⟨sub, hP, -⟩ := H'.parts
    rw [hs'] at hP
    have hcm : ∀ e0, mark' = some e0 → cut' ≤ rest'.length → encode 45 <+: joinLabels first' (rest'.take (rest'.length - m')) := by
      intro _ _ _
      have e45 : encode 45 = [45] := by decide
      rw [H'.shape.text, e45] at hb
      rw [e45]
      cases first' with
      | nil =>
        exfalso
        have hsep : ∀ s ∈ separators, ∀ x, ¬ [45] <+: encode s ++ x := by
          intro s hs x
          have : ∀ s ∈ separators, ∃ c t, encode s = c :: t ∧ c ≠ 45 := by
            intro s hs
            simp only [separators, List.mem_cons, List.not_mem_nil, or_false] at hs
            rcases hs with rfl | rfl | rfl | rfl <;> exact ⟨_, _, rfl, by decide⟩
          obtain ⟨c, t, e1, e2⟩ := this s hs
          rintro ⟨y, hy⟩
          rw [e1] at hy
          injection hy with hy _
          exact e2 hy.symm
        cases rest' with
        | nil =>
          simp [joinLabels] at hb
          obtain ⟨ss, g1, g2⟩ := H'.shape.tail
          cases ss with
          | nil => rw [g2] at hb; simp at hb
          | cons s ss =>
            rw [g2] at hb
            exact hsep s (g1 s (by simp)) _ hb
        | cons p rest' =>
          obtain ⟨s, l⟩ := p
          simp only [joinLabels, List.nil_append, List.append_assoc] at hb
          exact hsep s (H'.shape.free.2 (s, l) (by simp)).1 _ hb
      | cons c first' =>
        obtain ⟨y, hy⟩ := hb
        have e1 : c = 45 := by
          cases rest' <;> simp [joinLabels] at hy <;> exact hy.1.symm
        rw [e1]
        cases List.take ((rest').length - m') rest' <;> simp [joinLabels]
    generalize hw : (⟨m', seen', cut', mark'⟩ : Walked) = w at hc
    have w1 : w.mark = mark' := by rw [← hw]
    have w2 : w.cut = cut' := by rw [← hw]
    have w3 : w.matched = m' := by rw [← hw]
    cases hc with
    | noSuffix h0 =>
      rw [w1] at h0
      subst h0
      generalize r.suffix = suf at hP hs
      generalize r'.domain = dom at hP
      generalize r'.registeredDomain = reg at hP
      cases hP
      exact hs rfl
    | suffix h0 h1 =>
      rw [w1] at h0
      rw [w2] at h1
      rw [w3] at hok
      exact hok.1 (hcm _ h0 h1)
    | suffixOnly => exact hok.1 hb
  · rintro ⟨hd, h4⟩
    obtain ⟨-, -, n, o, -, -, -, -, h1, h2⟩ := name_result idna _ e h ht
    have h2' := h2.2
    cases he : o.endK with
    | none => rw [he] at h2'; exact absurd h2'.1 hs
    | some k =>
      rw [he] at h2'
      obtain ⟨q1, q2, q3, q4⟩ := h2'
      rw [q2] at h4 hn
      rw [q3] at hd
      obtain ⟨hok, hsp⟩ := name_registered h1 (walkL_anchored ha h1.walk (labels_ne_nil _ _ _) he) he h4 hd
      obtain ⟨r', g1, g2, g3⟩ := extract_name hA hp haf hn hok
      obtain ⟨p1, p2, p3, p4⟩ := parts_registered h1 he hsp h2 g2
      exact ⟨r', g1, g2.1, p1, p2, p3, p4⟩

/-- An anchored list in which not every top-level label is a rule or the parent of a wildcard. -/
example : Anchored [b! "com", b! "*.b.t"] ∧ ¬ TopRules [b! "com", b! "*.b.t"] ∧
    extract idId (buildTrie [b! "com", b! "*.b.t"]) { url := b! "x.a.com" } =
      .ok ({ subDomain := b! "x", domain := b! "a", suffix := b! "com", registeredDomain := b! "a.com",
             hostType := .hostName }, none) ∧
    HostTextOf idId false (b! "a.com") (b! "a.com") ∧
    extract idId (buildTrie [b! "com", b! "*.b.t"]) { url := b! "a.com" } =
      .ok ({ domain := b! "a", suffix := b! "com", registeredDomain := b! "a.com", hostType := .hostName }, none) := by
  exact ⟨by decide +kernel, by decide +kernel, by decide +kernel, hostText_iff.1 (by decide +kernel), by decide +kernel⟩

end Fasttld.Props
